import Verif.Base.Tokens
import Verif.Base.Dict
import Verif.Base.Find
import Mathlib.Algebra.Field.Rat
/-!
# Model of `src/f4enix/input/xsdirpyne.py` (`Xsdir`, `XsdirTable`) and of `ace.py:_xsdir_to_ace_filepaths`

A file is its list of lines; `readline` behind the end gives the empty text. `float()` is the parameter `pf`;
`int()` is `parseInt`. The Serpent and OpenMC variants and `nucs` (which uses a name that is not imported) are not
modelled.
-/
namespace F4Enix.Xs
open F4Enix

/-- `XsdirTable` (xsdirpyne.py:324-372) -/
structure Table where
  name : Str
  awr : ℚ
  filename : Str
  access : Str
  filetype : ℤ
  address : ℤ
  tablelength : ℤ
  recordlength : Option ℤ := none
  entries : Option ℤ := none
  temperature : Option ℚ := none
  ptable : Bool := false
  deriving DecidableEq

/-- `Xsdir`; `datapath` is missing as an attribute if the first line does not give it (xsdirpyne.py:53-321) -/
structure Xsdir where
  datapath : Option Str
  awr : Dict Str Str
  tables : List Table
  deriving DecidableEq

/-- lower case of the letters A-Z (Python) -/
def lowerStr (s : Str) : Str := s.map (fun c => if 65 ≤ c.toNat ∧ c.toNat ≤ 90 then Char.ofNat (c.toNat + 32) else c)

/-- `line[line.index("=") + 1 :].strip()` (xsdirpyne.py:115-116) -/
def datapathOf (l : Str) : Except PyErr Str :=
  if '=' ∈ l then .ok (strip (l.dropWhile (fun c => c ≠ '=')).tail) else .error .valueError

/-- first section (xsdirpyne.py:110-116) -/
def readDatapath (l : Str) : Except PyErr (Option Str) :=
  match tokens l with
  | [] => .ok none
  | w :: _ =>
    if "datapath".toList.isPrefixOf (lowerStr w) then
      match datapathOf l with
      | .error e => .error e
      | .ok p => .ok (some p)
    else .ok none

/-- `zip(words[::2], words[1::2])` (xsdirpyne.py:126-135) -/
def pairs : List Str → List (Str × Str)
  | a :: b :: r => (a, b) :: pairs r
  | _ => []

/-- second section, the loop (xsdirpyne.py:126-135): the dictionary, the words of the line that ended it, the lines left -/
def awrLoop (d : Dict Str Str) : List Str → Except PyErr (Dict Str Str × List Str × List Str)
  | [] => .error .indexError
  | l :: ls =>
    if (tokens l).length % 2 ≠ 0 then .ok (d, tokens l, ls)
    else match tokens l with
      | [] => .error .indexError
      | w :: ws =>
        if w = "directory".toList then .ok (d, w :: ws, ls)
        else awrLoop (Dict.update d (pairs (w :: ws))) ls

/-- search of the line `directory` (xsdirpyne.py:138-139) -/
def dirLoop : List Str → List Str → Except PyErr (List Str)
  | [], _ => .error .indexError
  | w :: _, ls =>
    if w = "directory".toList then .ok ls
    else match ls with
      | [] => .error .indexError
      | l :: ls => dirLoop (tokens l) ls

/-- continuation lines (xsdirpyne.py:146-149) -/
def joinCont (ws : List Str) : List Str → Except PyErr (List Str × List Str)
  | [] =>
    if (ws.reverse.dropWhile (fun w => w = "+".toList)).reverse = [] then .error .indexError
    else .ok ((ws.reverse.dropWhile (fun w => w = "+".toList)).reverse, [])
  | l :: ls =>
    match ws.getLast? with
    | none => .error .indexError
    | some w => if w = "+".toList then joinCont (ws.dropLast ++ tokens l) ls else .ok (ws, l :: ls)

/-- an optional word (xsdirpyne.py:361-372) -/
def optWord {α : Type} (p : Str → Option α) : Option Str → Except PyErr (Option α)
  | none => .ok none
  | some w => match p w with
    | none => .error .valueError
    | some x => .ok (some x)

/-- the attributes of a table (xsdirpyne.py:150-172) -/
def makeTable (pf : Str → Option ℚ) (ws : List Str) : Except PyErr Table :=
  match ws with
  | n :: a :: f :: acc :: ft :: ad :: tl :: r =>
    match pf a, parseInt ft, parseInt ad, parseInt tl with
    | some a, some ft, some ad, some tl =>
      match optWord parseInt r[0]?, optWord parseInt r[1]?, optWord pf r[2]? with
      | .ok rl, .ok en, .ok te => .ok ⟨n, a, f, acc, ft, ad, tl, rl, en, te, r[3]? = some "ptable".toList⟩
      | _, _, _ => .error .valueError
    | _, _, _, _ => .error .valueError
  | _ => .error .assertionError

/-- third section (xsdirpyne.py:141-172); the number of lines bounds the rounds -/
def tablesLoop (pf : Str → Option ℚ) : Nat → List Str → Except PyErr (List Table)
  | 0, _ => .ok []
  | _, [] => .ok []
  | n + 1, l :: ls =>
    if tokens l = [] then .ok []
    else match joinCont (tokens l) ls with
      | .error e => .error e
      | .ok (ws, ls') =>
        match makeTable pf ws with
        | .error e => .error e
        | .ok t =>
          match tablesLoop pf n ls' with
          | .error e => .error e
          | .ok ts => .ok (t :: ts)

/-- the title of the second section (xsdirpyne.py:119-124) -/
def isTitle (l : Str) : Bool :=
  decide ((tokens l).map lowerStr = ["atomic".toList, "weight".toList, "ratios".toList])

/-- `Xsdir.read` (xsdirpyne.py:105-172) -/
def read (pf : Str → Option ℚ) (lines : List Str) : Except PyErr Xsdir :=
  match readDatapath (lines.headD []) with
  | .error e => .error e
  | .ok dp =>
    if isTitle (lines.tail.headD []) then
      match awrLoop [] lines.tail.tail with
      | .error e => .error e
      | .ok (d, ws, ls) =>
        match dirLoop ws ls with
        | .error e => .error e
        | .ok ls' =>
          match tablesLoop pf ls'.length ls' with
          | .error e => .error e
          | .ok ts => .ok ⟨dp, d, ts⟩
    else .error .assertionError

/-- `(name[:-4], name[-3:])` (xsdirpyne.py:98-101) -/
def splitName (n : Str) : Str × Str := (n.take (n.length - 4), n.drop (n.length - 3))

/-- `tablenames` (xsdirpyne.py:96-102) -/
def tablenames (x : Xsdir) : List (Str × Str) := x.tables.map (fun t => splitName t.name)

/-- one round of `_precompute_available_libs` (xsdirpyne.py:239-242) -/
def addLib (d : Dict Str (List Str)) (z : Str × Str) : Dict Str (List Str) :=
  Dict.set d z.1 (((Dict.get? d z.1).getD []) ++ [z.2])

/-- `_precompute_available_libs` (xsdirpyne.py:237-243) -/
def availableLibs (x : Xsdir) : Dict Str (List Str) := (tablenames x).foldl addLib []

/-- `zaid_has_table` (xsdirpyne.py:214-235) -/
def hasTable (x : Xsdir) (z lib : Str) : Bool :=
  match Dict.get? (availableLibs x) z with
  | none => false
  | some ls => ls.contains lib

/-- `find_table(name, "exact")` (xsdirpyne.py:195-197, 245-251) -/
def findExact (x : Xsdir) (n : Str) : Bool := (tablenames x).any (fun z => n = z.1 ++ ".".toList ++ z.2)

/-- `find_table(name)` (xsdirpyne.py:199-207) -/
def findTable (x : Xsdir) (n : Str) : List Table := x.tables.filter (fun t => n = t.name.take (t.name.length - 4))

/-- `find_table(name, "default-fast")` (xsdirpyne.py:209-210, 253-260) -/
def findFast (x : Xsdir) (n : Str) : List Str := ((tablenames x).filter (fun z => n = z.1)).map Prod.snd

/-- the text behind the last dot: `name.split(".")[-1]` (xsdirpyne.py:280) -/
def lastPart (n : Str) : Str := (n.reverse.takeWhile (fun c => c ≠ '.')).reverse

/-- `find_zaids` (xsdirpyne.py:263-284) -/
def findZaids (x : Xsdir) (lib : Str) : List Table := x.tables.filter (fun t => lib = lastPart t.name)

/-- `XsdirTable.zaid` (xsdirpyne.py:417-420): without a dot `find` is -1 and the last character is cut -/
def Table.zaid (t : Table) : Str :=
  if '.' ∈ t.name then t.name.takeWhile (fun c => c ≠ '.') else t.name.dropLast

/-- `XsdirTable.metastable` (xsdirpyne.py:395-415); `none` is Python's `None` -/
def Table.metastable (t : Table) : Except PyErr (Option ℤ) :=
  if t.name.getLast? = some 'c' then
    if t.zaid = "95242".toList then .ok (some 1)
    else if t.zaid = "95642".toList then .ok (some 0)
    else match parseInt (t.name.takeWhile (fun c => c ≠ '.')) with
      | none => .error .valueError
      | some n => if n % 1000 > 600 then .ok (some 1) else .ok (some 0)
  else .ok none

/-- `table.name.split(".")[1]` (ace.py:66) -/
def suffix (n : Str) : Except PyErr Str :=
  if '.' ∈ n then .ok ((n.dropWhile (fun c => c ≠ '.')).tail.takeWhile (fun c => c ≠ '.')) else .error .indexError

/-- `_xsdir_to_ace_filepaths` (ace.py:59-76): the file name of the first table of each zaid and suffix; the directory of
the xsdir file is put before it (not modelled) -/
def acePaths (d : Dict (Str × Str) Str) : List Table → Except PyErr (Dict (Str × Str) Str)
  | [] => .ok d
  | t :: ts =>
    match suffix t.name with
    | .error e => .error e
    | .ok s =>
      if t.zaid ≠ [] ∧ t.zaid.all isDigit = true then
        if Dict.has d (t.zaid, s) then acePaths d ts else acePaths (Dict.set d (t.zaid, s) t.filename) ts
      else acePaths d ts

end F4Enix.Xs
