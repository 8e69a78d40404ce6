import Verif.Inp.Model
import Verif.Base.Find
import Verif.Base.Tokens
import Mathlib.Data.List.Sort
/-!
# Model of the tallies of an input (`MCNPinput.py`: `add_F_tally`, `get_tally_summary`, `add_stopCard`,
`get_cells_summary`)

Of a data card only `card.input` matters here: its lines without comments. For the cards written by
`add_F_tally` these are the lines themselves (assumed of numjuggler for text without `$` and `&`).
-/
namespace F4Enix.Tally
open F4Enix F4Enix.Find

/-- `Input.other_data` and `Input.tally_keys` (or `fmesh_keys`) (MCNPinput.py:91-263) -/
structure Inp where
  data : Dict Str (List Str)
  tallies : List Nat

/-! ### `add_F_tally` (MCNPinput.py:1614-1702) -/

/-- `particles_str` (MCNPinput.py:1654-1657): the first particle, then every *character* of the second -/
def particlesStr : List Str → Except PyErr Str
  | [] => .error .indexError
  | [p] => .ok p
  | p :: q :: _ => .ok (p ++ q.flatMap (fun c => [',', c]))

/-- `lines[1]`: five blanks, every entry followed by a blank, a newline (MCNPinput.py:1664-1673, 1682-1685) -/
def entryLine (es : List Str) : Str := "     ".toList ++ es.flatMap (fun e => e ++ [' ']) ++ ['\n']

/-- `f"{name}{id}"` (MCNPinput.py:1614-1702) -/
def name (s : String) (id : Nat) : Str := s.toList ++ natStr id

/-- the entries of the tally card: the cells and `T` for the total (MCNPinput.py:1667-1670) -/
def entries (cells : List Str) (total : Bool) : List Str := if total then cells ++ ["T".toList] else cells

/-- `repetitions = len(cells) - 1` and the card (MCNPinput.py:1692-1698) -/
def sdLine (id n : Nat) : Str :=
  if (n : ℤ) - 1 ≠ 0 then name "SD" id ++ " 1 ".toList ++ intStr ((n : ℤ) - 1) ++ "R\n".toList
  else name "SD" id ++ " 1\n".toList

/-- what the caller asks for; `energies` are the numbers as printed by `{:.4e}` (MCNPinput.py:1614-1702) -/
structure Request where
  id : Nat
  particles : List Str
  cells : List Str
  total : Bool := false
  energies : Option (List Str) := none
  description : Option Str := none
  multiplier : Option Str := none
  sd : Bool := true

/-- set a card if there is one (MCNPinput.py:1614-1702) -/
def setOpt (d : Dict Str (List Str)) (k : Str) : Option (List Str) → Dict Str (List Str)
  | none => d
  | some c => Dict.set d k c

/-- `add_F_tally`; `wrap` is `card(wrap=True).splitlines(keepends=True)`. The number is registered
before anything can fail. (MCNPinput.py:1614-1702) -/
def addF (wrap : List Str → List Str) (i : Inp) (r : Request) : Inp × Except PyErr Unit :=
  let ts := i.tallies ++ [r.id]
  match particlesStr r.particles with
  | .error e => ({ i with tallies := ts }, .error e)
  | .ok ps =>
    let d := setOpt i.data (name "FC" r.id)
      (r.description.map fun t => [name "FC" r.id ++ ' ' :: t ++ ['\n']])
    let d := Dict.set d (name "F" r.id)
      (wrap [name "F" r.id ++ ':' :: ps ++ ['\n'], entryLine (entries r.cells r.total)])
    let d := setOpt d (name "E" r.id)
      (r.energies.map fun es => wrap [name "E" r.id ++ ['\n'], entryLine es])
    let d := if r.sd then Dict.set d (name "SD" r.id) [sdLine r.id (entries r.cells r.total).length] else d
    let d := setOpt d (name "FM" r.id)
      (r.multiplier.map fun t => [name "FM" r.id ++ ' ' :: t ++ ['\n']])
    ({ data := d, tallies := ts }, .ok ())

/-! ### `get_tally_summary` (MCNPinput.py:1149-1240) -/

/-- `[a-zA-Z]` (Python, MCNPinput.py:1149-1158) -/
def isLetter (c : Char) : Bool := (65 ≤ c.toNat && c.toNat ≤ 90) || (97 ≤ c.toNat && c.toNat ≤ 122)

/-- `re.match(r"F[a-zA-Z]*{idx}$", key)` (MCNPinput.py:1154): `$` also matches before a final newline -/
def isCardOf (id : Nat) : Str → Bool
  | 'F' :: s => s.dropWhile isLetter == natStr id || s.dropWhile isLetter == natStr id ++ ['\n']
  | _ => false

/-- `_get_tally_cards` (MCNPinput.py:1149-1158) -/
def tallyCards (d : Dict Str (List Str)) (id : Nat) : List Str := d.keys.filter (isCardOf id)

/-- `str.lower()` on ASCII (Python) -/
def lower (s : Str) : Str := s.map Char.toLower

/-- `_retrieve_input` (MCNPinput.py:1160-1165); `input[0]` of a card without lines is an `IndexError` -/
def retrieve (tag : Str) : List Str → Except PyErr Str
  | [] => .error .indexError
  | l :: _ => .ok (strip (removeAll (lower tag) 0 (strip (removeAll tag 0 l))))

/-- `str(first_line)` of a list of words, as Python prints it (Python, MCNPinput.py:1185-1240) -/
def reprWords (ws : List Str) : Str :=
  '[' :: (", ".toList.intercalate (ws.map fun w => '\'' :: w ++ ['\''])) ++ [']']

/-- is it a comment line (`line.startswith("C") or line.startswith("c")`)? (MCNPinput.py:1178-1180) -/
def startsC : Str → Bool
  | c :: _ => c == 'C' || c == 'c'
  | [] => false

/-- `_retrieve_FM` (MCNPinput.py:1167-1183) -/
def retrieveFM (tag : Str) (input : List Str) : Except PyErr (List Str) :=
  match retrieve tag input with
  | .error e => .error e
  | .ok s =>
    match input with
    | [_] => .ok (tokens s)
    | _ =>
      .ok ("N.A.".toList :: (if tokens s = [] then [] else [reprWords (tokens s)]) ++
        ((input.drop 1).filter (fun l => !startsC l)).map strip)

/-- `[nN,pP]` (MCNPinput.py:1185-1240) -/
def isNP (c : Char) : Bool := c == 'n' || c == 'N' || c == ',' || c == 'p' || c == 'P'

/-- `PAT_NP.search(line).group()`, `PAT_NP = (?<=:)[nN,pP]+` (constants.py:49) -/
def searchNP : Str → Option Str
  | [] => none
  | c :: cs =>
    if c = ':' ∧ cs.takeWhile isNP ≠ [] then some (cs.takeWhile isNP) else searchNP cs

/-- a row of the summary; `none` is `pd.NA` (MCNPinput.py:1185-1240) -/
structure Row where
  id : Nat
  particle : Option Str
  description : Option Str
  norm : Option Str
  others : Option (List Str)
  deriving DecidableEq

/-- the variables of the loop over the cards of a tally (MCNPinput.py:1185-1240) -/
structure Acc where
  desc : Option Str := none
  particle : Option Str := none
  mult : Option (List Str) := none

/-- one card of the tally (MCNPinput.py:1217-1224); `tag` is `F` or `FMESH` -/
def cardStep (tag : Str) (d : Dict Str (List Str)) (id : Nat) (a : Acc) (key : Str) : Except PyErr Acc :=
  let input := (Dict.get? d key).getD []
  if key.take 2 = "FC".toList then
    match retrieve key input with
    | .error e => .error e
    | .ok s => .ok { a with desc := some s }
  else if key = tag ++ natStr id then
    match input with
    | [] => .error .indexError
    | l :: _ =>
      match searchNP l with
      | none => .error .attributeError
      | some p => .ok { a with particle := some (Inp.upper p) }
  else if key.take 2 = "FM".toList then
    match retrieveFM key input with
    | .error e => .error e
    | .ok m => .ok { a with mult := some m }
  else .ok a

/-- the loop over the cards (MCNPinput.py:1185-1240) -/
def cardLoop (tag : Str) (d : Dict Str (List Str)) (id : Nat) : Acc → List Str → Except PyErr Acc
  | a, [] => .ok a
  | a, k :: ks =>
    match cardStep tag d id a k with
    | .error e => .error e
    | .ok a => cardLoop tag d id a ks

/-- the row of a tally (MCNPinput.py:1226-1238) -/
def mkRow (id : Nat) (a : Acc) : Except PyErr Row :=
  match a.mult with
  | none => .ok ⟨id, a.particle, a.desc, none, none⟩
  | some [] => .error .indexError
  | some (m :: ms) => .ok ⟨id, a.particle, a.desc, some m, if ms = [] then none else some ms⟩

/-- the row of a tally of the input (MCNPinput.py:1185-1240) -/
def rowOf (tag : Str) (d : Dict Str (List Str)) (id : Nat) : Except PyErr Row :=
  match cardLoop tag d id {} (tallyCards d id) with
  | .error e => .error e
  | .ok a => mkRow id a

/-- the rows in the order of the tallies (MCNPinput.py:1185-1240) -/
def rows (tag : Str) (d : Dict Str (List Str)) : List Nat → Except PyErr (List Row)
  | [] => .ok []
  | t :: ts =>
    match rowOf tag d t with
    | .error e => .error e
    | .ok r =>
      match rows tag d ts with
      | .error e => .error e
      | .ok rs => .ok (r :: rs)

/-- `get_tally_summary` (MCNPinput.py:1185-1240): sorted by number (stable here; pandas promises no order among equal
numbers); `KeyError` when there is no tally -/
def summary (fmesh : Bool) (i : Inp) : Except PyErr (List Row) :=
  match rows (if fmesh then "FMESH".toList else "F".toList) i.data i.tallies with
  | .error e => .error e
  | .ok [] => .error .keyError
  | .ok rs => .ok (rs.insertionSort (fun a b => a.id ≤ b.id))

/-! ### `add_stopCard` (MCNPinput.py:1704-1721) -/

/-- `int(nps)` of a rational: towards zero (Python, MCNPinput.py:1704-1723) -/
def truncR (q : ℚ) : ℤ := q.num.tdiv q.den

/-- `add_stopCard(nps)` (MCNPinput.py:1704-1723) -/
def addStop (d : Dict Str (List Str)) (nps : ℚ) : Dict Str (List Str) :=
  Dict.set d "NPS".toList ["NPS ".toList ++ intStr (truncR nps) ++ " \n".toList]

/-! ### `get_cells_summary` (MCNPinput.py:1126-1147) -/

/-- what the getters of a cell return (numjuggler, MCNPinput.py:1126-1147) -/
structure CellInfo where
  material : ℤ
  density : ℚ
  univ : Option ℤ
  filler : Option ℤ
  deriving DecidableEq

/-- the rows: `int(key)` and the getters (MCNPinput.py:1126-1147) -/
def cellRows : List (Str × CellInfo) → Except PyErr (List (ℤ × CellInfo))
  | [] => .ok []
  | (k, c) :: cs =>
    match parseInt k with
    | none => .error .valueError
    | some n =>
      match cellRows cs with
      | .error e => .error e
      | .ok rs => .ok ((n, c) :: rs)

/-- `get_cells_summary`: `KeyError` when there is no cell (MCNPinput.py:1126-1147) -/
def cellsSummary (cells : List (Str × CellInfo)) : Except PyErr (List (ℤ × CellInfo)) :=
  match cellRows cells with
  | .error e => .error e
  | .ok [] => .error .keyError
  | .ok rs => .ok (rs.insertionSort (fun a b => a.1 ≤ b.1))

end F4Enix.Tally
