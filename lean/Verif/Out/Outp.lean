import Verif.Base.Find
import Verif.Base.Tokens
import Verif.Base.Dict
import Mathlib.Data.List.Sort
import Mathlib.Data.List.Dedup
import Mathlib.Data.Rat.Defs
import Mathlib.Algebra.Order.Field.Rat
/-!
# Model of src/f4enix/output/MCNPoutput.py: what is extracted from MCNP output files

An output is the list of its lines (each with its newline). Regular expressions are written out for ASCII text,
`float` is a parameter. Excel, csv and vtk writers are not modelled; `pandas.read_fwf` is in `OutpTable`.
-/
namespace F4Enix.Outp
open F4Enix F4Enix.Find

/-- `re.compile(r"\d+").search(line).group()`; no match has no `group` (Python, MCNPoutput.py:201-253) -/
def digitsOf (l : Str) : Except PyErr Str :=
  match searchDigits l with
  | none => .error .attributeError
  | some w => .ok w

/-- `self.lines[i]` for `i ≥ 0` (Python) -/
def lineAt (ls : List Str) (i : Nat) : Except PyErr Str :=
  match ls[i]? with
  | none => .error .indexError
  | some l => .ok l

/-! ### lost particles -/

/-- `TOTAL_LP` (MCNPoutput.py:39) -/
def totalLP : Str := "particles got lost".toList

/-- the loop over the lines, last first, of `get_tot_lp` (MCNPoutput.py:147-160) -/
def totLpLoop : List Str → Option Nat
  | [] => none
  | l :: ls => if contains totalLP l then (searchDigits l).map digitsVal else totLpLoop ls

/-- `get_tot_lp` (MCNPoutput.py:138-162) -/
def getTotLp (lines : List Str) : Option Nat := totLpLoop lines.reverse

/-- `get_NPS` (MCNPoutput.py:164-187). The particle name is taken literally. -/
def getNps (particle : Str) : List Str → Except PyErr Nat
  | [] => .error .valueError
  | l :: ls =>
    if contains (particle ++ " creation".toList) l then
      match lineAt ls 2 with
      | .error e => .error e
      | .ok l3 =>
        match digitsOf l3 with
        | .error e => .error e
        | .ok w => .ok (digitsVal w)
    else getNps particle ls

/-- `get_LPR` (MCNPoutput.py:189-199): dividing `None` is a `TypeError` -/
def getLpr (lines : List Str) : Except PyErr ℚ :=
  match getNps "neutron".toList lines with
  | .error e => .error e
  | .ok nps =>
    match getTotLp lines with
    | none => .error .typeError
    | some lp => if nps = 0 then .error .zeroDivision else .ok ((lp : ℚ) / (nps : ℚ))

/-- `[-+]*\d.\d+E[+-]\d+` (constants.py:47); the classes leave no room for backtracking -/
def sciHere (s : Str) : Option Str :=
  let signs := s.takeWhile (fun c => decide (c = '-' ∨ c = '+'))
  match s.dropWhile (fun c => decide (c = '-' ∨ c = '+')) with
  | d :: p :: r =>
    let ds := r.takeWhile isDigit
    match r.dropWhile isDigit with
    | e :: g :: r2 =>
      let es := r2.takeWhile isDigit
      if isDigit d ∧ p ≠ '\n' ∧ ds ≠ [] ∧ e = 'E' ∧ (g = '-' ∨ g = '+') ∧ es ≠ [] then
        some (signs ++ [d, p] ++ ds ++ [e, g] ++ es)
      else none
    | _ => none
  | _ => none

/-- a row of the table of lost particles (MCNPoutput.py:201-253) -/
structure LpRow where
  surface : Str
  cell : Str
  point : ℚ × ℚ × ℚ
  cosines : Option (ℚ × ℚ × ℚ)
  univ : Option (Option ℤ)
  deriving DecidableEq, Repr

/-- `float(found[0])`, `float(found[1])`, `float(found[2])` (MCNPoutput.py:201-253) -/
def three (num : Str → Option ℚ) (ws : List Str) : Except PyErr (ℚ × ℚ × ℚ) :=
  match ws with
  | a :: b :: c :: _ =>
    match num a, num b, num c with
    | some x, some y, some z => .ok (x, y, z)
    | _, _, _ => .error .valueError
  | _ => .error .indexError

/-- `SURFACE_ID` (MCNPoutput.py:36) -/
def surfaceId : Str := "currently being tracked has reached surface".toList

/-- one lost particle (MCNPoutput.py:220-239): `ls` are the lines after the one that was found; `cells` gives the
universe of the cells of the input, if an input was given -/
def lpRow (num : Str → Option ℚ) (cosine : Bool) (cells : Option (Dict Str (Option ℤ))) (l : Str) (ls : List Str) :
    Except PyErr LpRow := do
  let surface ← digitsOf l
  let l1 ← lineAt ls 0
  let cell ← digitsOf l1
  let univ ← match cells with
    | none => pure none
    | some d => match Dict.get? d cell with
      | none => .error .keyError
      | some u => pure (some u)
  let l6 ← lineAt ls 5
  let l7 ← lineAt ls 6
  let point ← three num (findAll sciHere 0 l6)
  let cosines ← if cosine then (three num (findAll sciHere 0 l7)).map some else pure none
  pure ⟨surface, cell, point, cosines, univ⟩

/-- `get_lp_debug_df` (MCNPoutput.py:201-253): the rows of the frame -/
def lpTable (num : Str → Option ℚ) (cosine : Bool) (cells : Option (Dict Str (Option ℤ))) : List Str → Except PyErr (List LpRow)
  | [] => .ok []
  | l :: ls =>
    if contains surfaceId l then
      match lpRow num cosine cells l ls with
      | .error e => .error e
      | .ok r =>
        match lpTable num cosine cells ls with
        | .error e => .error e
        | .ok rs => .ok (r :: rs)
    else lpTable num cosine cells ls

/-! ### statistical checks -/

/-- the three outcomes (MCNPoutput.py:332-382) -/
inductive Check where
  | missed | passed | allZeros
  deriving DecidableEq, Repr

/-- `\s*\t*\s*\d+` matched at the beginning of the line, as a number (MCNPoutput.py:350, 364) -/
def tallyNumber (l : Str) : Option Nat :=
  match (l.dropWhile isSpace).takeWhile isDigit with
  | [] => none
  | ds => some (digitsVal ds)

/-- MCNPoutput.py:365-370 -/
def outcome (l : Str) : Option Check :=
  if contains "missed".toList l then some .missed
  else if contains "passed".toList l then some .passed
  else if contains "no nonzero".toList l then some .allZeros
  else none

/-- the loop of `get_statistical_checks_tfc_bins` (MCNPoutput.py:354-380). `res` is the variable `result`, which keeps
its value from one line to the next and is unbound at first. -/
def tfcLoop : List Str → Bool → Option Check → Dict Nat Check → Except PyErr (Dict Nat Check)
  | [], _, _, d => .ok d
  | l :: ls, flag, res, d =>
    if contains "result of statistical checks".toList l then tfcLoop ls true res d
    else if flag then
      match tallyNumber l with
      | some n =>
        match (match outcome l with | some r => some r | none => res) with
        | none => .error .unboundLocal
        | some r => tfcLoop ls flag (some r) (Dict.set d n r)
      | none =>
        if contains "the 10 statistical checks are only".toList l then .ok d
        else tfcLoop ls flag res d
    else tfcLoop ls flag res d

/-- `get_statistical_checks_tfc_bins` (MCNPoutput.py:332-382) -/
def tfcBins (lines : List Str) : Except PyErr (Dict Nat Check) := tfcLoop lines false none []

/-- the beginning of the title of the table of a tally (MCNPoutput.py:402) -/
def titleStart : Str := "           results of 10 statistical ".toList

/-- `re.compile("           results of 10 statistical .+\s{}\n".format(tally)).match(line)`; a line has its newline at the
end only, so the pattern is a beginning and an end with at least one character between (MCNPoutput.py:384-442) -/
def isTitle (tally : Nat) (l : Str) : Bool :=
  titleStart.isPrefixOf l &&
  (let r := (l.drop titleStart.length).reverse
   let tail := '\n' :: (natStr tally).reverse
   tail.isPrefixOf r &&
   (match r.drop tail.length with
    | w :: _ :: _ => isSpace w
    | _ => false))

/-- the lines after the first title of the tally (MCNPoutput.py:384-442) -/
def afterTitle (tally : Nat) : List Str → Option (List Str)
  | [] => none
  | l :: ls => if isTitle tally l then some ls else afterTitle tally ls

/-- a row of the table: label and ten cells, `none` is NaN (MCNPoutput.py:384-442) -/
abbrev CheckRow := Str × List (Option Str)

/-- `pd.DataFrame(rows)`, the eleven column names, and the first column as index (MCNPoutput.py:421-427): rows are
filled up to the longest one, which must have eleven words -/
def checkFrame (rows : List (List Str)) : Except PyErr (List CheckRow) :=
  let w := (rows.map List.length).foldl max 0
  if w = 11 then
    .ok (rows.map (fun r => (r.headD [], r.tail.map some ++ List.replicate (10 - r.tail.length) none)))
  else .error .valueError

/-- MCNPoutput.py:430-440 for one of the two rows: if the last cell (PDF slope) is empty, the eighth (FoM value) is
moved there -/
def shiftRow (passed : Bool) (cells : List (Option Str)) : List (Option Str) :=
  match cells with
  | [a, b, c, d, e, f, g, fom, beh, none] =>
    if passed then [a, b, c, d, e, f, g, some "yes".toList, some "yes".toList, fom]
    else [a, b, c, d, e, f, g, none, beh, fom]
  | _ => cells

/-- apply to the row with this label; `df.loc` of a label that is not there is a `KeyError`, and of one that is
there twice gives a frame, the truth value of which is a `ValueError` (pandas, MCNPoutput.py:384-442) -/
def shiftLabel (label : Str) (passed : Bool) (t : List CheckRow) : Except PyErr (List CheckRow) :=
  match (t.filter (fun r => decide (r.1 = label))).length with
  | 0 => .error .keyError
  | 1 => .ok (t.map (fun r => if r.1 = label then (r.1, shiftRow passed r.2) else r))
  | _ => .error .valueError

/-- `get_tally_stat_checks` (MCNPoutput.py:384-442) -/
def tallyChecks (lines : List Str) (tally : Nat) : Except PyErr (List CheckRow) :=
  match afterTitle tally lines with
  | none => .error .valueError
  | some ls =>
    match lineAt ls 4, lineAt ls 5, lineAt ls 6 with
    | .ok a, .ok b, .ok c =>
      match checkFrame [tokens a, tokens b, tokens c] with
      | .error e => .error e
      | .ok t =>
        match shiftLabel "observed".toList false t with
        | .error e => .error e
        | .ok t => shiftLabel "passed?".toList true t
    | _, _, _ => .error .indexError

/-- `table.loc["passed?"].values` (MCNPoutput.py:444-481) -/
def passedRow (t : List CheckRow) : Except PyErr (List (Option Str)) :=
  match t.find? (fun r => decide (r.1 = "passed?".toList)) with
  | none => .error .keyError
  | some r => .ok r.2

/-- a row of the summary table: tally, ten checks, outcome of the other bins (MCNPoutput.py:444-481) -/
structure SummaryRow where
  tally : Nat
  checks : List (Option Str)
  other : Check
  deriving DecidableEq, Repr

/-- the body of the `try` (MCNPoutput.py:461-463) -/
def passedOf (lines : List Str) (n : Nat) : Except PyErr (List (Option Str)) :=
  match tallyChecks lines n with
  | .error e => .error e
  | .ok t => passedRow t

/-- one tally of the summary (MCNPoutput.py:459-473) -/
def summaryRow (lines : List Str) (x : Nat × Check) : Except PyErr SummaryRow :=
  match passedOf lines x.1 with
  | .ok cs => .ok ⟨x.1, cs, x.2⟩
  | .error .valueError => if x.2 = .allZeros then .ok ⟨x.1, List.replicate 10 none, x.2⟩ else .error .valueError
  | .error e => .error e

/-- `summaryRows` (MCNPoutput.py:444-481) -/
def summaryRows (lines : List Str) : List (Nat × Check) → Except PyErr (List SummaryRow)
  | [] => .ok []
  | x :: xs =>
    match summaryRow lines x with
    | .error e => .error e
    | .ok r =>
      match summaryRows lines xs with
      | .error e => .error e
      | .ok rs => .ok (r :: rs)

/-- `get_stat_checks_table` (MCNPoutput.py:444-481): a frame without rows has no columns to be named (`ValueError`) -/
def statTable (lines : List Str) : Except PyErr (List SummaryRow) :=
  match tfcBins lines with
  | .error e => .error e
  | .ok summary =>
    match summaryRows lines summary with
    | .error e => .error e
    | .ok [] => .error .valueError
    | .ok rows => .ok (rows.insertionSort (fun a b => a.tally ≤ b.tally))

/-- number and comment lines of a tally (MCNPoutput.py:483-519) -/
structure TallyInfo where
  number : Nat
  comment : List Str
  deriving DecidableEq, Repr

/-- the inner loop of `assign_tally_description` (MCNPoutput.py:505-515): the variable `tdescr` -/
def describe (tallies : List TallyInfo) (n : Nat) (old : Option Str) : Option Str :=
  tallies.foldl (fun cur t => if t.number = n then some (t.comment.headD []) else cur) old

/-- `assign_tally_description` (MCNPoutput.py:483-519); `tdescr` keeps its value from one tally to the next -/
def assignLoop (tallies : List TallyInfo) : List (Nat × Check) → Option Str → Dict Str Check → Except PyErr (Dict Str Check)
  | [], _, d => .ok d
  | (n, r) :: xs, old, d =>
    match describe tallies n old with
    | none => .error .unboundLocal
    | some t => assignLoop tallies xs (some t) (Dict.set d (t ++ " [".toList ++ natStr n ++ "]".toList) r)

/-- `assignDescriptions` (MCNPoutput.py:483-519) -/
def assignDescriptions (checks : Dict Nat Check) (tallies : List TallyInfo) : Except PyErr (Dict Str Check) :=
  assignLoop tallies checks none []

/-! ### tables -/

/-- the loop of `_get_fwf_format_from_string` (MCNPoutput.py:622-635): `new` is `new_datum` -/
def fwfLoop : Str → Bool → Nat → List Nat → List Nat
  | [], _, counter, ws => ws ++ [counter]
  | c :: cs, new, counter, ws =>
    if c = ' ' ∧ new = false then fwfLoop cs true 1 (ws ++ [counter])
    else fwfLoop cs (if c ≠ ' ' then false else new) (counter + 1) ws

/-- `_get_fwf_format_from_string` (MCNPoutput.py:618-639) -/
def fwfWidths (l : Str) : List Nat := (fwfLoop l false 0 []).tail

/-- where a table is: lines to skip, number of rows to read (MCNPoutput.py:550-552) -/
structure TableInst where
  skip : Nat
  nrows : ℤ
  deriving DecidableEq, Repr

/-- the loop of `get_table` (MCNPoutput.py:553-573). `i` is the line number, `skip` the value set by the last title
not yet closed by a line with "total". -/
def tableLoop (table : Nat) : Nat → List Str → Option Nat → List TableInst → List TableInst
  | _, [], _, acc => acc
  | i, l :: ls, skip, acc =>
    let (skip, acc) := match skip with
      | none => (none, acc)
      | some s => if contains "total".toList l then (none, acc ++ [⟨s, (i : ℤ) - (s : ℤ) - 2⟩]) else (some s, acc)
    let skip := if contains ("table ".toList ++ natStr table) l then some (i + 1) else skip
    tableLoop table (i + 1) ls skip acc

/-- the instances of a table found by `get_table` (MCNPoutput.py:541-576) -/
def tableInstances (table : Nat) (lines : List Str) : Except PyErr (List TableInst) :=
  match tableLoop table 0 lines none [] with
  | [] => .error .valueError
  | t :: ts => .ok (t :: ts)

/-! ### warnings and errors -/

/-- `not_interesting` (MCNPoutput.py:695) -/
def notInteresting : List Str := ["so far".toList, "the tally in the tally fluctuation".toList]

/-- `PAT_WARNING` (MCNPoutput.py:42) and the texts of `general` (MCNPoutput.py:696-699) -/
def warnMark : Str := "warning.".toList
/-- `unusedMark` (MCNPoutput.py:681-715) -/
def unusedMark : Str := "not used for anything".toList
/-- `unusedName` (MCNPoutput.py:681-715) -/
def unusedName : Str := "unused surfaces".toList
/-- `replacedMark` (MCNPoutput.py:681-715) -/
def replacedMark : Str := "this surface has been replaced".toList
/-- `replacedName` (MCNPoutput.py:681-715) -/
def replacedName : Str := "replaced surfaces".toList
/-- `fatalMark` (MCNPoutput.py:43) -/
def fatalMark : Str := "fatal error.".toList

/-- `general` (MCNPoutput.py:696-699) -/
def general : List (Str × Str) := [(unusedMark, unusedName), (replacedMark, replacedName)]

/-- the text recorded for a line with a warning (MCNPoutput.py:702-713). The `continue` at lines 704-706 continues the
loop over `not_interesting`, so that nothing is left out. -/
def warningText (collapse : Bool) (l : Str) : Str :=
  let l := notInteresting.foldl (fun l _ => l) l
  let l := if collapse then general.foldl (fun l g => if contains g.1 l then g.2 else l) l else l
  strip (removeAll warnMark 0 l)

/-- the list `warnings` (MCNPoutput.py:700-713) -/
def warningList (collapse : Bool) (lines : List Str) : List Str :=
  (lines.filter (contains warnMark)).map (warningText collapse)

/-- order of strings in Python: by code points (Python, MCNPoutput.py:715) -/
def textLe : Str → Str → Bool
  | [], _ => true
  | _ :: _, [] => false
  | a :: s, b :: t => if a = b then textLe s t else a.toNat < b.toNat

/-- `df.groupby("Warning").size()`: number of occurrences of every text, the groups in the order of their texts
(pandas, MCNPoutput.py:714-715) -/
def groupSizes (l : List Str) : List (Str × Nat) :=
  (l.dedup.insertionSort (fun a b => textLe a b = true)).map (fun t => (t, l.count t))

/-- `get_warnings` (MCNPoutput.py:681-715) -/
def getWarnings (collapse : Bool) (lines : List Str) : List (Str × Nat) := groupSizes (warningList collapse lines)

/-- `re.compile(r"[\s\t]+fatal error").match(line)` (MCNPoutput.py:43) -/
def isFatal (l : Str) : Bool := startsSpace l && "fatal error".toList.isPrefixOf (l.dropWhile isSpace)

/-- `get_fatal_errors` (MCNPoutput.py:717-731) -/
def fatalErrors (lines : List Str) : List Str :=
  (lines.filter isFatal).map (fun l => strip (lastPiece fatalMark 0 l []))

/-! ### version of the code -/

/-- `(?<=MCNP_)[\d.]+` at this place (the text before it is `MCNP_`) (Python, MCNPoutput.py:641-679) -/
def mcnpHere (s : Str) : Option Str :=
  if "MCNP_".toList.isPrefixOf s then
    match (s.drop 5).takeWhile (fun c => isDigit c || decide (c = '.')) with
    | [] => none
    | w => some w
  else none

/-- `d1suned\s+version\s+\d+` at this place; the digits (Python, MCNPoutput.py:641-679) -/
def d1sHere (s : Str) : Option Str :=
  if "d1suned".toList.isPrefixOf s then
    let r := s.drop 7
    let r2 := r.dropWhile isSpace
    if startsSpace r ∧ "version".toList.isPrefixOf r2 then
      let r3 := r2.drop 7
      if startsSpace r3 then
        match (r3.dropWhile isSpace).takeWhile isDigit with
        | [] => none
        | w => some w
      else none
    else none
  else none

/-- `(?<=version)\s+\d+` at this place (after `version`), stripped (Python, MCNPoutput.py:641-679) -/
def versionHere (s : Str) : Option Str :=
  if "version".toList.isPrefixOf s then
    if startsSpace (s.drop 7) then
      match ((s.drop 7).dropWhile isSpace).takeWhile isDigit with
      | [] => none
      | w => some w
    else none
  else none

/-- `.strip("0")` (Python, MCNPoutput.py:641-679) -/
def stripZeros (s : Str) : Str :=
  ((s.dropWhile (fun c => decide (c = '0'))).reverse.dropWhile (fun c => decide (c = '0'))).reverse

/-- first part of `get_code_version` (MCNPoutput.py:648-651) -/
def d1sVersion : List Str → Option Str
  | [] => none
  | l :: ls =>
    match search d1sHere l with
    | none => d1sVersion ls
    | some _ => (search versionHere l).map ("d1suned".toList ++ ·)

/-- second part (MCNPoutput.py:654-658): every turn of the loop looks at the first line of the file -/
def mcnpVersion (lines : List Str) : List Str → Option Str
  | [] => none
  | _ :: ls =>
    match search mcnpHere (lines.headD []) with
    | some w => some (stripZeros w)
    | none => mcnpVersion lines ls

/-- `get_code_version` (MCNPoutput.py:641-679) for a file whose folder holds no other file that could tell:
`ValueError` then -/
def codeVersion (lines : List Str) : Except PyErr Str :=
  match d1sVersion (lines.take 34) with
  | some v => .ok v
  | none =>
    match mcnpVersion lines (lines.take 4) with
    | some v => .ok v
    | none => .error .valueError

end F4Enix.Outp
