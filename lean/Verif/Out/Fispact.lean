import Verif.Base.Tokens
import Mathlib.Data.Rat.Defs
/-!
# Model of src/f4enix/output/fispact_legacy_out.py: pathways in FISPACT-II outputs

Text is character lists. The regular expressions are written out for ASCII text (Python's `\d` and `\s` accept
more); `float` is a parameter.
-/
namespace F4Enix.Fispact
open F4Enix

/-- `FispactZaid` (fispact_legacy_out.py:24-53). The isotope number is kept as the text that was matched. -/
structure Zaid where
  element : Str
  isotope : Str
  metastable : Bool
  deriving DecidableEq, Repr

/-- `get_str` (fispact_legacy_out.py:41-53) -/
def Zaid.str (z : Zaid) : Str := z.element ++ z.isotope ++ (if z.metastable then ['m'] else [])

/-- `Pathway` (fispact_legacy_out.py:56-78) -/
structure Pathway where
  parent : Zaid
  daughter : Zaid
  perc : ℚ
  reactions : List Str
  intermediates : Option (List Zaid)
  deriving DecidableEq, Repr

/-- the constructor with `__post_init__` (fispact_legacy_out.py:80-89). Building the message of the
`AssertionError` calls `__str__`, which raises `IndexError` if there are no reactions (line 97). -/
def mkPathway (parent daughter : Zaid) (perc : ℚ) (reactions : List Str) (inter : Option (List Zaid)) :
    Except PyErr Pathway :=
  match inter with
  | none => .ok ⟨parent, daughter, perc, reactions, none⟩
  | some l =>
    if reactions.length = l.length + 1 then .ok ⟨parent, daughter, perc, reactions, some l⟩
    else if reactions = [] then .error .indexError
    else .error .assertionError

/-- `__str__` (fispact_legacy_out.py:91-100) -/
def Pathway.str (p : Pathway) : Except PyErr Str :=
  match p.intermediates with
  | some l =>
    let text := p.parent.str ++ [' '] ++
      ((List.zip l p.reactions).map (fun x => ['-'] ++ x.2 ++ "-> ".toList ++ x.1.str ++ [' '])).flatten
    match p.reactions.getLast? with
    | none => .error .indexError
    | some r => .ok (text ++ ['-'] ++ r ++ "->  ".toList ++ p.daughter.str)
  | none =>
    match p.reactions with
    | [] => .error .indexError
    | r :: _ => .ok (p.parent.str ++ " -".toList ++ r ++ "-> ".toList ++ p.daughter.str)

/-! ### regular expressions -/

/-- `isUpper` (Python, fispact_legacy_out.py:14-20) -/
def isUpper (c : Char) : Bool := 65 ≤ c.toNat && c.toNat ≤ 90
/-- `isLower` (Python, fispact_legacy_out.py:14-20) -/
def isLower (c : Char) : Bool := 97 ≤ c.toNat && c.toNat ≤ 122
/-- `isLetter` (Python, fispact_legacy_out.py:14-20) -/
def isLetter (c : Char) : Bool := isUpper c || isLower c

/-- `pattern.findall(s)` where `m` gives the match that starts at the beginning of its argument, if there is one;
the first argument counts the characters still covered by the last match (Python) -/
def findAll (m : Str → Option Str) : Nat → Str → List Str
  | _, [] => []
  | n + 1, _ :: cs => findAll m n cs
  | 0, c :: cs =>
    match m (c :: cs) with
    | none => findAll m 0 cs
    | some w => w :: findAll m (w.length - 1) cs

/-- `pattern.search(s).group()` (Python) -/
def search (m : Str → Option Str) : Str → Option Str
  | [] => none
  | c :: cs =>
    match m (c :: cs) with
    | some w => some w
    | none => search m cs

/-- `[A-Z][a-z]*\s*\d+m*` (fispact_legacy_out.py:15). The classes are disjoint, so backtracking never helps. -/
def zaidHere : Str → Option Str
  | [] => none
  | c :: cs =>
    if isUpper c then
      let low := cs.takeWhile isLower
      let r1 := cs.dropWhile isLower
      let sp := r1.takeWhile isSpace
      let r2 := r1.dropWhile isSpace
      let ds := r2.takeWhile isDigit
      let r3 := r2.dropWhile isDigit
      let ms := r3.takeWhile (fun c => decide (c = 'm'))
      if ds = [] then none else some (c :: (low ++ sp ++ ds ++ ms))
    else none

/-- `\([a-zA-Z\d,+-]+\)` (fispact_legacy_out.py:20) -/
def reactionChar (c : Char) : Bool := isLetter c || isDigit c || decide (c = ',') || decide (c = '+') || decide (c = '-')

/-- `reactionHere` (fispact_legacy_out.py:20) -/
def reactionHere : Str → Option Str
  | [] => none
  | c :: cs =>
    if c = '(' then
      let body := cs.takeWhile reactionChar
      match cs.dropWhile reactionChar with
      | d :: _ => if d = ')' ∧ body ≠ [] then some (c :: (body ++ [d])) else none
      | [] => none
    else none

/-- `\d+\.*\d*%` (fispact_legacy_out.py:14), without the final `%` (`[:-1]`, line 171) -/
def percHere (s : Str) : Option Str :=
  let ds := s.takeWhile isDigit
  let r1 := s.dropWhile isDigit
  let dots := r1.takeWhile (fun c => decide (c = '.'))
  let r2 := r1.dropWhile (fun c => decide (c = '.'))
  let es := r2.takeWhile isDigit
  match r2.dropWhile isDigit with
  | [] => none
  | c :: _ => if c = '%' ∧ ds ≠ [] then some (ds ++ dots ++ es) else none

/-- `re.compile(r"\s+path\s+\d+").match(line)` (fispact_legacy_out.py:19) -/
def isPathLine (s : Str) : Bool :=
  startsSpace s &&
  (let r := s.dropWhile isSpace
   "path".toList.isPrefixOf r && startsSpace (r.drop 4) &&
   (match (r.drop 4).dropWhile isSpace with
    | [] => false
    | c :: _ => isDigit c))

/-- a maximal run of letters, `[a-zA-Z]+` (fispact_legacy_out.py:18) -/
def lettersHere (s : Str) : Option Str :=
  match s.takeWhile isLetter with
  | [] => none
  | w => some w

/-- `\d+m` somewhere: a digit followed by `m` (fispact_legacy_out.py:16) -/
def hasMeta : Str → Bool
  | c :: d :: cs => (isDigit c && decide (d = 'm')) || hasMeta (d :: cs)
  | _ => false

/-- `_get_zaid_from_str` (fispact_legacy_out.py:130-140) -/
def getZaid (name : Str) : Except PyErr Zaid :=
  match search lettersHere name with
  | none => .error .attributeError
  | some el =>
    match searchDigits name with
    | none => .error .attributeError
    | some iso => .ok ⟨el, iso, hasMeta name⟩

/-- `getZaids` (fispact_legacy_out.py:143-228) -/
def getZaids : List Str → Except PyErr (List Zaid)
  | [] => .ok []
  | n :: ns =>
    match getZaid n with
    | .error e => .error e
    | .ok z =>
      match getZaids ns with
      | .error e => .error e
      | .ok zs => .ok (z :: zs)

/-- `sub in line` (Python) -/
def contains (sub : Str) : Str → Bool
  | [] => sub.isEmpty
  | c :: cs => sub.isPrefixOf (c :: cs) || contains sub cs

/-- the first and the last name of the line, and the ones between if there are more than two (fispact_legacy_out.py:172-184). The
order of the conversions does not matter: names found by the pattern can always be converted. -/
def splitNames (names : List Str) : Except PyErr (Zaid × Zaid × Option (List Zaid)) :=
  match getZaids names with
  | .error e => .error e
  | .ok zs =>
    match zs with
    | [] => .error .indexError
    | p :: rest => .ok (p, (p :: rest).getLast (by simp), if 2 < (p :: rest).length then some rest.dropLast else none)

/-- continuation of a long path (fispact_legacy_out.py:199-220): `l4` and `l5` are the lines four and five after the path -/
def continued (parent daughter : Zaid) (perc : ℚ) (reactions : List Str) (inter : List Zaid) (l4 l5 : Option Str) :
    Except PyErr Pathway :=
  match l4 with
  | none => .error .indexError
  | some l4 =>
    if contains "path continued".toList l4 then
      match getZaids (findAll zaidHere 0 l4) with
      | .error e => .error e
      | .ok others =>
        match others.getLast? with
        | none => .error .indexError
        | some d =>
          match l5 with
          | none => .error .indexError
          | some l5 => mkPathway parent d perc (reactions ++ findAll reactionHere 0 l5) (some (inter ++ [daughter] ++ others.dropLast))
    else .error .assertionError

/-- one path (fispact_legacy_out.py:170-226); `rest` are the lines after it -/
def readPath (num : Str → Option ℚ) (line : Str) (rest : List Str) : Except PyErr Pathway :=
  match search percHere line with
  | none => .error .attributeError
  | some w =>
    match num w with
    | none => .error .valueError
    | some perc =>
      match splitNames (findAll zaidHere 0 line) with
      | .error e => .error e
      | .ok (parent, daughter, inter) =>
        match rest with
        | [] => .error .indexError
        | l1 :: _ =>
          match mkPathway parent daughter perc (findAll reactionHere 0 l1) inter with
          | .ok p => .ok p
          | .error .assertionError =>
            match inter with
            | none => .error .assertionError
            | some l => continued parent daughter perc (findAll reactionHere 0 l1) l rest[3]? rest[4]?
          | .error e => .error e

/-- the loop over the lines (fispact_legacy_out.py:168-226) -/
def readPaths (num : Str → Option ℚ) : List Str → Except PyErr (List Pathway)
  | [] => .ok []
  | l :: ls =>
    if isPathLine l then
      match readPath num l ls with
      | .error e => .error e
      | .ok p =>
        match readPaths num ls with
        | .error e => .error e
        | .ok ps => .ok (p :: ps)
    else readPaths num ls

/-- the last line that contains the start mark, and the last one that contains the end mark but not the start mark
(fispact_legacy_out.py:157-165) -/
def bounds : Nat → List Str → Option Nat × Option Nat → Option Nat × Option Nat
  | _, [], b => b
  | i, l :: ls, b =>
    if contains "Significant loops".toList l then bounds (i + 1) ls (some i, b.2)
    else if contains "G E N E R I C   P A T H W".toList l then bounds (i + 1) ls (b.1, some i)
    else bounds (i + 1) ls b

/-- `PathwayCollection.from_file` (fispact_legacy_out.py:142-228) -/
def fromFile (num : Str → Option ℚ) (lines : List Str) : Except PyErr (List Pathway) :=
  match bounds 0 lines (none, none) with
  | (some s, some e) => readPaths num ((lines.take e).drop (s + 1))
  | _ => .error .unboundLocal

end F4Enix.Fispact
