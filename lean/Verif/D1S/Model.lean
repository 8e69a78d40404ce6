import Verif.Base.Text
import Verif.Base.Dict
/-!
# Model of `src/f4enix/input/d1suned.py`

D1S-UNED irradiation files and reaction files. Strings are lists of characters, a file on disk is
its text (newlines already translated to `'\n'`, as Python's text mode does). Logging is not
modelled. Operations that mutate the object and may raise return the object *as it is left
behind* together with the outcome.
-/
namespace F4Enix.D1S
open F4Enix

/-- `Irradiation` (d1suned.py:369-409).  The model gives every irradiation its own list of times
(Python objects could share one list object; not modelled). -/
structure Irradiation where
  daughter : Str
  lambd : Str
  times : List Str
  comment : Option Str
  deriving DecidableEq, Repr

/-- The four column widths `formatting` (d1suned.py:41, 121-124). -/
structure Widths where
  w1 : Nat
  w2 : Nat
  w3 : Nat
  w4 : Nat
  deriving DecidableEq, Repr

/-- default `formatting = [11, 14, 13, 9]` (d1suned.py:41) -/
def defaultWidths : Widths := ⟨11, 14, 13, 9⟩

/-- `IrradiationFile` (d1suned.py:35-109). `cols` is `_irrformat`, kept as the list of column
widths of the format string `"{:>w1s}{:>w2s}{:>w3s}…{:>w4s}"`. `name` is not modelled. -/
structure IrradiationFile where
  nsc : Int
  schedules : List Irradiation
  header : Option Str
  formatting : Widths
  cols : List Nat
  deriving DecidableEq, Repr

/-- `_update_irrformat` (d1suned.py:117-132): widths of the columns for `nsc` schedules
(`range(nsc)` is empty for negative `nsc`). -/
def irrCols (w : Widths) (nsc : Int) : List Nat :=
  [w.w1, w.w2] ++ List.replicate nsc.toNat w.w3 ++ [w.w4]

/-- `IrradiationFile.__init__` (d1suned.py:36-109) -/
def IrradiationFile.mk' (nsc : Int) (schedules : List Irradiation) (header : Option Str)
    (formatting : Widths := defaultWidths) : IrradiationFile :=
  ⟨nsc, schedules, header, formatting, irrCols formatting nsc⟩

/-- `get_daughters` (d1suned.py:134-149) -/
def getDaughters (f : IrradiationFile) : List Str := f.schedules.map (·.daughter)

/-- `get_irrad` (d1suned.py:151-171): first schedule with that daughter. -/
def getIrrad (f : IrradiationFile) (d : Str) : Option Irradiation :=
  f.schedules.find? (fun i => d == i.daughter)

/-- `select_daughters_irradiation_file` (d1suned.py:258-281): new object and returned answer. -/
def selectDaughters (f : IrradiationFile) (daughters : List Str) : IrradiationFile × Bool :=
  let new := f.schedules.filter (fun i => daughters.contains i.daughter)
  ({ f with schedules := new }, new.length == daughters.length)

/-- `len({len(t) for t in times_dict.values()}) > 1` (d1suned.py:304-308): the set of lengths has
more than one element iff some value has a length different from the first one. -/
def lengthsDiffer (td : Dict Str (List Str)) : Bool :=
  match td with
  | [] => false
  | (_, t) :: rest => rest.any (fun p => p.2.length != t.length)

/-- `max(len(irradiation.times) for …)` (d1suned.py:332), `none` for the `ValueError` on an empty
sequence. -/
def maxTimes (l : List Irradiation) : Option Nat :=
  match l with
  | [] => none
  | i :: is => some (is.foldl (fun m j => max m j.times.length) i.times.length)

/-- `add_irradiation_times` (d1suned.py:283-338). The loop over the *set* of daughters
(l. 320-324) raises iff some daughter is missing; the order of the set is irrelevant. -/
def addTimes (f : IrradiationFile) (td : Dict Str (List Str)) :
    IrradiationFile × Except PyErr Unit :=
  if lengthsDiffer td then (f, .error .valueError)
  else if td.keys.any (fun k => !(getDaughters f).contains k) then (f, .error .keyError)
  else if (getDaughters f).any (fun d => !td.has d) then (f, .error .keyError)
  else
    let scheds := f.schedules.map (fun i => { i with times := i.times ++ (td.get? i.daughter).getD [] })
    let f := { f with schedules := scheds }
    match maxTimes scheds with
    | none => (f, .error .valueError)
    | some m => ({ f with nsc := m, cols := irrCols f.formatting m }, .ok ())

/-- the loop of `remove_irradiation_time` (d1suned.py:354-360): schedules as they are left
behind, and whether the range check raised. -/
def popAll (index : Int) : List Irradiation → List Irradiation × Except PyErr Unit
  | [] => ([], .ok ())
  | i :: is =>
    if index < 0 ∨ index ≥ i.times.length then (i :: is, .error .indexError)
    else
      let r := popAll index is
      ({ i with times := i.times.eraseIdx index.toNat } :: r.1, r.2)

/-- `remove_irradiation_time` (d1suned.py:340-366) -/
def removeTime (f : IrradiationFile) (index : Int) : IrradiationFile × Except PyErr Unit :=
  match popAll index f.schedules with
  | (s, .error e) => ({ f with schedules := s }, .error e)
  | (s, .ok ()) =>
    ({ f with schedules := s, nsc := f.nsc - 1, cols := irrCols f.formatting (f.nsc - 1) }, .ok ())

/-- `Irradiation.modify_time_val` (d1suned.py:438-458) applied to one irradiation; `v` is the text
`f"{new_value:.3e}"`, whose rendering is not modelled. -/
def Irradiation.modifyTimeVal (i : Irradiation) (index : Int) (v : Str) :
    Irradiation × Except PyErr Unit :=
  if index < 0 ∨ index ≥ i.times.length then (i, .error .indexError)
  else ({ i with times := i.times.set index.toNat v }, .ok ())

/-- `file.irr_schedules[pos].modify_time_val(index, v)`: the usual way to use the previous
function (`get_irrad` returns an element of `irr_schedules`, not a copy). `IndexError` for a `pos`
outside the list. (d1suned.py:151-171) -/
def modifyAt (f : IrradiationFile) (pos : Nat) (index : Int) (v : Str) :
    IrradiationFile × Except PyErr Unit :=
  match f.schedules[pos]? with
  | none => (f, .error .indexError)
  | some i =>
    let r := i.modifyTimeVal index v
    ({ f with schedules := f.schedules.set pos r.1 }, r.2)

/-- Irradiation.__eq__ (d1suned.py:415-436), with `float(·)` as a parameter (`num`); the branch for
non-irradiation operands and failing conversions are not modelled. -/
def Irradiation.pyEq {α : Type} [DecidableEq α] (num : Str → α) (a b : Irradiation) : Bool :=
  a.daughter == b.daughter && (num a.lambd == num b.lambd) &&
    (a.times.length == b.times.length &&
      (a.times.zip b.times).all (fun p => num p.1 == num p.2))

/-! ### writing -/

/-- `fmt.format(*args)` for a format string of right aligned string columns: `IndexError` if there
are fewer arguments than columns, `TypeError` for a `None` argument (`NoneType.__format__` rejects
the specification), superfluous arguments are ignored. -/
def formatCols : List Nat → List (Option Str) → Except PyErr Str
  | [], _ => .ok []
  | _ :: _, [] => .error .indexError
  | _ :: _, none :: _ => .error .typeError
  | w :: ws, some a :: as =>
    match formatCols ws as with
    | .error e => .error e
    | .ok r => .ok (padLeft w a ++ r)

/-- `Irradiation._get_format_args` (d1suned.py:508-513) -/
def formatArgs (i : Irradiation) : List (Option Str) :=
  [some i.daughter, some i.lambd] ++ i.times.map some ++ [i.comment]

/-- arguments of the column titles (d1suned.py:243-246) -/
def titleArgs (nsc : Int) : List (Option Str) :=
  [some "Daught.".toList, some "lambda(1/s)".toList] ++
    (List.range nsc.toNat).map (fun i => some ("time_fact_".toList ++ natStr (i + 1))) ++
    [some "comments".toList]

/-- the loop writing the schedules (d1suned.py:250-252) -/
def writeRows (cols : List Nat) : List Irradiation → Except PyErr Str
  | [] => .ok []
  | i :: is =>
    match formatCols cols (formatArgs i) with
    | .error e => .error e
    | .ok row =>
      match writeRows cols is with
      | .error e => .error e
      | .ok rest => .ok (row ++ '\n' :: rest)

/-- `IrradiationFile.write` (d1suned.py:221-254): the text of the file. If a row cannot be
formatted the exception is reported (the partially written file is in `D1S/Save.lean`). -/
def writeFile (f : IrradiationFile) : Except PyErr Str :=
  match formatCols f.cols (titleArgs f.nsc) with
  | .error e => .error e
  | .ok titles =>
    match writeRows f.cols f.schedules with
    | .error e => .error e
    | .ok rows =>
      .ok (f.header.getD [] ++ "nsc ".toList ++ intStr f.nsc ++ ['\n'] ++
        "C ".toList ++ titles ++ ['\n'] ++ rows)

/-! ### reading -/

/-- `re.compile("(?i)(nsc)").match(line)` (d1suned.py:192, 202); `ſ` is the other character that
matches `s` when case is ignored. -/
def isNscLine : Str → Bool
  | a :: b :: c :: _ =>
    (a == 'n' || a == 'N') && (b == 's' || b == 'S' || b == 'ſ') && (c == 'c' || c == 'C')
  | _ => false

/-- `PAT_BLANK.match(line)` with `[\s\tCc]*\n` (constants.py:37) -/
def isBlankLine (l : Str) : Bool :=
  (l.takeWhile (fun c => isSpace c || c == 'C' || c == 'c')).contains '\n'

/-- `PAT_COMMENT.match(line)` with `[Cc][\s\t\n]+` (constants.py:40) -/
def isCommentLine : Str → Bool
  | a :: b :: _ => (a == 'C' || a == 'c') && isSpace b
  | _ => false

/-- `pieces[j], …` for `n` consecutive indices (d1suned.py:490-494) -/
def takeTimes : Nat → List Str → Except PyErr (List Str × List Str)
  | 0, ps => .ok ([], ps)
  | _ + 1, [] => .error .indexError
  | n + 1, p :: ps =>
    match takeTimes n ps with
    | .error e => .error e
    | .ok (ts, rest) => .ok (p :: ts, rest)

/-- the comment assembled from the remaining pieces (d1suned.py:495-506) -/
def joinComment (rest : List Str) : Option Str :=
  match rest with
  | [] => none
  | _ => some (strip (rest.map (fun p => ' ' :: p)).flatten)

/-- `Irradiation.from_text` (d1suned.py:461-506) -/
def Irradiation.fromText (text : Str) (nsc : Int) : Except PyErr Irradiation :=
  let pieces := splitWs text
  let pieces := if pieces.head? = some [] then pieces.tail else pieces
  match pieces with
  | daughter :: lambd :: rest =>
    match takeTimes nsc.toNat rest with
    | .error e => .error e
    | .ok (times, rest) => .ok ⟨daughter, lambd, times, joinComment rest⟩
  | _ => .error .indexError

/-- state of the reading loop (d1suned.py:194-215); `nsc = none` is "not yet assigned" -/
structure ReadState where
  nsc : Option Int
  inheader : Bool
  header : Str
  scheds : List Irradiation

/-- one iteration of the reading loop (d1suned.py:198-215) -/
def readStep (st : ReadState) (line : Str) : Except PyErr ReadState :=
  if isNscLine line then
    match searchDigits line with
    | none => .error .attributeError
    | some ds => .ok { st with nsc := some (digitsVal ds), inheader := false }
  else if st.inheader then .ok { st with header := st.header ++ line }
  else if isBlankLine line || isCommentLine line then .ok st
  else
    match st.nsc with
    | none => .error .unboundLocal
    | some n =>
      match Irradiation.fromText line n with
      | .error e => .error e
      | .ok i => .ok { st with scheds := st.scheds ++ [i] }

/-- the loop over the lines (d1suned.py:174-219) -/
def readLoop : ReadState → List Str → Except PyErr ReadState
  | st, [] => .ok st
  | st, l :: ls =>
    match readStep st l with
    | .error e => .error e
    | .ok st => readLoop st ls

/-- `IrradiationFile.from_text` (d1suned.py:174-219), from the text of the file -/
def readFile (text : Str) : Except PyErr IrradiationFile :=
  match readLoop ⟨none, true, [], []⟩ (fileLines text) with
  | .error e => .error e
  | .ok st =>
    match st.nsc with
    | none => .error .unboundLocal
    | some n => .ok (IrradiationFile.mk' n st.scheds (some st.header))

/-! ### reaction files -/

/-- `Reaction` (d1suned.py:691-738). `MT` is always `str(int(MT))`, so it is kept as the integer. -/
structure Reaction where
  parent : Str
  mt : Int
  daughter : Str
  comment : Option Str
  deriving DecidableEq, Repr

/-- `s.split(".")[0]` (d1suned.py:599-614) -/
def beforeDot (s : Str) : Str := s.takeWhile (· != '.')

/-- `Reaction.change_lib` (d1suned.py:740-756) -/
def Reaction.changeLib (r : Reaction) (newlib : Str) : Reaction :=
  { r with parent := beforeDot r.parent ++ '.' :: newlib }

/-- `REACFORMAT` (d1suned.py:32) -/
def reacCols : List Nat := [13, 7, 12, 40]

/-- `Reaction._get_text` (d1suned.py:758-776) -/
def Reaction.textPieces (r : Reaction) : List Str :=
  [r.parent, intStr r.mt, r.daughter, r.comment.getD []]

/-- one row of the file: `REACFORMAT.format(*reaction._get_text()) + "\n"` (d1suned.py:675) -/
def Reaction.row (r : Reaction) : Str :=
  (List.zipWith padLeft reacCols r.textPieces).flatten ++ ['\n']

/-- `ReactionFile.write` (d1suned.py:658-676) -/
def writeReactions (rs : List Reaction) : Str := (rs.map Reaction.row).flatten

/-- `Reaction.from_text` (d1suned.py:790-820); `int(MT)` may raise `ValueError`. -/
def Reaction.fromText (text : Str) : Except PyErr Reaction :=
  match splitWs (strip text) with
  | parent :: mt :: daughter :: rest =>
    match parseInt mt with
    | none => .error .valueError
    | some m => .ok ⟨strip parent, m, daughter, some (strip (rest.map (fun p => ' ' :: p)).flatten)⟩
  | _ => .error .indexError

/-- loop of `ReactionFile.from_text` (d1suned.py:587-594) -/
def readReactionLines : List Str → Except PyErr (List Reaction)
  | [] => .ok []
  | l :: ls =>
    if isBlankLine l || isCommentLine l then readReactionLines ls
    else
      match Reaction.fromText l with
      | .error e => .error e
      | .ok r =>
        match readReactionLines ls with
        | .error e => .error e
        | .ok rs => .ok (r :: rs)

/-- `ReactionFile.from_text` (d1suned.py:568-597), from the text of the file -/
def readReactions (text : Str) : Except PyErr (List Reaction) := readReactionLines (fileLines text)

/-- Order of Python strings: lexicographic by code point. (Python) -/
def strLe : Str → Str → Bool
  | [], _ => true
  | _ :: _, [] => false
  | a :: as, b :: bs => a.toNat < b.toNat || (a.toNat == b.toNat && strLe as bs)

/-- insertion into a sorted list (Python) -/
def insertSorted (s : Str) : List Str → List Str
  | [] => [s]
  | t :: ts => if strLe s t then s :: t :: ts else t :: insertSorted s ts

/-- `sorted(l)` for a list of distinct strings (any correct sort gives the same list) (Python, d1suned.py:599-614) -/
def sortStrs (l : List Str) : List Str := l.foldr insertSorted []

/-- the loop `if parent not in parents: parents.append(parent)` (d1suned.py:609-613) -/
def dedupAppend (acc : List Str) : List Str → List Str
  | [] => acc
  | p :: ps => if acc.contains p then dedupAppend acc ps else dedupAppend (acc ++ [p]) ps

/-- `ReactionFile.get_parents` (d1suned.py:599-614) -/
def getParents (rs : List Reaction) : List Str :=
  sortStrs (dedupAppend [] (rs.map (fun r => beforeDot r.parent)))

/-- `re.compile(r'"\d\d[a-zA-Z]"').findall(s)` (d1suned.py:636, 638), without the quotes -/
def findLibs : Str → List Str
  | q :: a :: b :: l :: q' :: rest =>
    if q = '"' ∧ isDigit a ∧ isDigit b ∧ l.isAlpha ∧ q' = '"' then [a, b, l] :: findLibs rest
    else findLibs (a :: b :: l :: q' :: rest)
  | _ => []

/-- the library chosen by `change_lib` (d1suned.py:634-639): `libs[1][1:-1]` of a dictionary in
string form, otherwise the argument -/
def chooseLib (newlib : Str) : Except PyErr Str :=
  match newlib with
  | [] => .error .indexError
  | '{' :: _ =>
    match findLibs newlib with
    | _ :: l :: _ => .ok l
    | _ => .error .indexError
  | _ => .ok newlib

/-- `ReactionFile.change_lib` (d1suned.py:616-656). `libs` is the library manager's `check4zaid`,
`none` when no manager is given. Note that availability is tested for `newlib`, not for the chosen
library (l. 650). -/
def changeLibs (rs : List Reaction) (newlib : Str) (libs : Option (Str → List Str)) :
    Except PyErr (List Reaction) :=
  match chooseLib newlib with
  | .error e => .error e
  | .ok lib =>
    .ok (rs.map (fun r =>
      match libs with
      | none => r.changeLib lib
      | some f => if (f (beforeDot r.parent)).contains newlib then r.changeLib lib else r))

end F4Enix.D1S
