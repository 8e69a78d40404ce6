import Verif.Mat.Model
import Verif.Inp.Model
import Verif.Inp.Write
/-!
# Model of the reading and writing of material cards (`src/f4enix/input/materials.py`: `_readLine`,
`SubMaterial.from_text/to_text`, `Material.from_text/to_text`, `MatCardsList.to_text`)

`num` is Python's `float` on a word (`none`: `ValueError`), `fmt` is `"{:.6E}".format(Decimal(x))`, `info z`
is what is written behind `"    $ "` (name, weight, abundance).
-/
namespace F4Enix.Mat
open F4Enix F4Enix.Write

/-! ### reading -/

/-- does the text begin with a digit (`\d+` matches)? (materials.py:765-804) -/
def startsDigit : Str → Bool
  | c :: _ => isDigit c
  | [] => false

/-- does the text begin with `$`? (materials.py:765-804) -/
def isDollar : Str → Bool
  | '$' :: _ => true
  | _ => false

/-- the loop of `_readLine` (materials.py:785-802): pairs of zaid and fraction, up to a word that is no number;
a zaid without a second word ends the loop -/
def readPairs (num : Str → Option ℚ) : List Str → Except PyErr (List Zaid × Option (List Str))
  | [] => .ok ([], none)
  | [w] => if startsDigit w then .ok ([], none) else .ok ([], some [w])
  | w :: f :: ws =>
    if startsDigit w then
      match num f with
      | none => .error .valueError
      | some q =>
        match readPairs num ws with
        | .error e => .error e
        | .ok (zs, ks) => .ok (fromString w q :: zs, ks)
    else .ok ([], some (w :: f :: ws))

/-- `del pieces[0]` if it is empty (materials.py:765-804) -/
def dropFirst : List Str → List Str
  | [] :: r => r
  | ps => ps

/-- `_readLine` (materials.py:765-804); `pieces[-1]` of an empty list is an `IndexError` -/
def readLine (num : Str → Option ℚ) (s : Str) : Except PyErr (List Zaid × Option (List Str)) :=
  match (dropFirst (splitWs s)).reverse with
  | [] => .error .indexError
  | [] :: r => readPairs num (r.reverse.takeWhile (fun p => !isDollar p))
  | p :: r => readPairs num ((p :: r).reverse.takeWhile (fun p => !isDollar p))

/-- `PAT_COMMENT.match` (constants.py:40): `[Cc][\s\t\n]+` -/
def isComm : Str → Bool
  | c :: d :: _ => (c == 'C' || c == 'c') && isSpace d
  | _ => false

/-- `PAT_MAT.match` (constants.py:45): `[\s\t]*[mM]\d+`; the match and the rest of the line -/
def matName (l : Str) : Option (Str × Str) :=
  match l.dropWhile isSpace with
  | m :: r =>
    if (m == 'm' || m == 'M') && startsDigit r then
      some (l.takeWhile isSpace ++ m :: r.takeWhile isDigit, r.dropWhile isDigit)
    else none
  | [] => none

/-- the first line that is no comment (materials.py:433-456): name, zaids, keywords -/
def firstLine (num : Str → Option ℚ) (l : Str) : Except PyErr (Option Str × List Zaid × Option (List Str)) :=
  let name := (matName l).map Prod.fst
  match splitWs l with
  | _ :: p :: _ =>
    if p = [] then .ok (name, [], none)
    else
      match readLine num (match matName l with | none => l | some (_, r) => r) with
      | .error e => .error e
      | .ok (zs, ks) => .ok (name, zs, ks)
  | _ => .ok (name, [], none)

/-- the other lines (materials.py:460-467) -/
def bodyLines (num : Str → Option ℚ) : List Str → Except PyErr (List Zaid × List Str)
  | [] => .ok ([], [])
  | l :: ls =>
    match readLine num l with
    | .error e => .error e
    | .ok (zs, ks) =>
      match bodyLines num ls with
      | .error e => .error e
      | .ok (zs', ks') => .ok (zs ++ zs', ks.getD [] ++ ks')

/-- `SubMaterial.from_text` (materials.py:404-475) with the name it found. Comments are only looked for at the
top. A text of comments only leaves `name` unbound. -/
def subFromText (num : Str → Option ℚ) (ls : List Str) : Except PyErr (Option Str × SubMat) :=
  match ls.dropWhile isComm with
  | [] => .error .unboundLocal
  | l :: r =>
    match firstLine num l with
    | .error e => .error e
    | .ok (name, zs, ks) =>
      match bodyLines num r with
      | .error e => .error e
      | .ok (zs', ks') =>
        .ok (name.map strip, mkSub (zs ++ zs') (some (ls.takeWhile isComm).flatten.dropLast) (ks.getD [] ++ ks'))

/-- a material as read or written (`density` is `None`); `mx` are the lines of its MX/MT cards (materials.py:808-870) -/
structure TMat where
  name : Str
  header : Option Str
  subs : List SubMat
  mx : List (List Str)
  deriving DecidableEq

/-- the loop of `Material.from_text` (materials.py:941-972): `header` (none: not bound yet), `inHeader`, the lines
of the current submaterial, the submaterials so far -/
def matLoop (num : Str → Option ℚ) :
    List Str → Option Str → Bool → List Str → List (Option Str × SubMat) →
      Except PyErr (Option Str × List (Option Str × SubMat))
  | [], h, _, sub, subs =>
    match subFromText num sub with
    | .error e => .error e
    | .ok s => .ok (h, subs ++ [s])
  | l :: ls, h, inHeader, sub, subs =>
    let h' := if (matName l).isSome then some sub.flatten else h
    let sub' := if (matName l).isSome then [] else sub
    if inHeader then matLoop num ls h' (isComm l) (sub' ++ [l]) subs
    else if isComm l then
      match subFromText num sub' with
      | .error e => .error e
      | .ok s => matLoop num ls h' true [l] (subs ++ [s])
    else matLoop num ls h' false (sub' ++ [l]) subs

/-- `Material.from_text` (materials.py:926-976) with `Material.__init__` (808-870): a first submaterial without
zaids is deleted -/
def matFromText (num : Str → Option ℚ) (text : List Str) : Except PyErr TMat :=
  match matLoop num (text.map delCR) none true [] [] with
  | .error e => .error e
  | .ok (_, []) => .error .indexError -- never: at least one submaterial was appended
  | .ok (none, _) => .error .unboundLocal
  | .ok (some _, (none, _) :: _) => .error .attributeError
  | .ok (some h, (some n, s) :: ss) =>
    .ok ⟨strip n, some h, (if s.zaids = [] then [] else [s]) ++ ss.map Prod.snd, []⟩

/-! ### writing -/

/-- `Zaid.to_text` (materials.py:169-199) -/
def zaidLine (fmt : ℚ → Str) (info : Zaid → Str) (z : Zaid) : Str :=
  padLeft 15 z.name ++ ' ' :: padLeft 18 (fmt z.fraction) ++ "     $ ".toList ++ info z

/-- `SubMaterial.to_text` (materials.py:499-529) -/
def SubMat.toText (fmt : ℚ → Str) (info : Zaid → Str) (s : SubMat) : Str :=
  stripNL ((match s.header with | none => [] | some h => h ++ ['\n']) ++
    s.written.flatMap (fun z => zaidLine fmt info z ++ ['\n']) ++
    (if s.keys = [] then [] else '\t' :: s.keys.flatMap (fun k => ' ' :: k)))

/-- `Material.to_text` (materials.py:978-1016) of a material without density, with its submaterials -/
def TMat.toText (fmt : ℚ → Str) (info : Zaid → Str) (m : TMat) : Str :=
  stripNL ((match m.header with
      | none => Inp.upper m.name
      | some h => stripNL h ++ '\n' :: stripNL (Inp.upper m.name)) ++
    m.subs.flatMap (fun s => '\n' :: s.toText fmt info) ++
    m.mx.flatMap (fun ls => ls.flatMap (fun l => '\n' :: Inp.upper (stripNL l))))

/-- `MatCardsList.to_text` (materials.py:1538-1552) -/
def matsText (fmt : ℚ → Str) (info : Zaid → Str) (ms : List TMat) : Str :=
  stripNL (ms.flatMap (fun m => '\n' :: m.toText fmt info))

end F4Enix.Mat
