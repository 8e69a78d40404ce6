import Verif.Out.OutpStats
/-!
# Model of `Output.get_table` with the reading of the rows, and of `get_code_version` with the files of the folder

`src/f4enix/output/MCNPoutput.py:521-679`. `pandas.read_fwf` (python engine) is modelled as it reads a file with given widths, without a header: some
lines that are not empty are read ahead (`ahead`, two or three depending on the version of pandas), the number of rows counts all lines after them,
empty lines included, and empty lines are left out at the end. Cells are their stripped texts, empty ones are `none`. The conversion of
columns to numbers and the texts that pandas takes for missing values (`NA`, `nan`, ...) are not modelled.
-/
namespace F4Enix.Outp
open F4Enix F4Enix.Find

/-- `self.lines[i - 2]` (MCNPoutput.py:565): with `i = 1` this is the last line -/
def inferLine (all : List Str) (i : ℕ) : Str := if 2 ≤ i then all.getD (i - 2) [] else all.getLastD []

/-- the loop of `get_table` (MCNPoutput.py:553-573) with the variable `widths` -/
def tableLoopW (table : ℕ) (all : List Str) : ℕ → List Str → Option ℕ → List TableInst → List ℕ → List TableInst × List ℕ
  | _, [], _, acc, w => (acc, w)
  | i, l :: ls, skip, acc, w =>
    let (skip, acc, w) := match skip with
      | none => (none, acc, w)
      | some s =>
        if contains "total".toList l then (none, acc ++ [⟨s, (i : ℤ) - (s : ℤ) - 2⟩], fwfWidths (inferLine all i)) else (some s, acc, w)
    let skip := if contains ("table ".toList ++ natStr table) l then some (i + 1) else skip
    tableLoopW table all (i + 1) ls skip acc w

/-- the characters that `read_fwf` strips (pandas) -/
def isPad (c : Char) : Bool := c == ' ' || c == '\t' || c == '\n' || c == '\r'

/-- a cell: its stripped text, `none` if it is empty (pandas) -/
def cellText (s : Str) : Option Str :=
  match ((s.dropWhile isPad).reverse.dropWhile isPad).reverse with
  | [] => none
  | t => some t

/-- the cells of a line cut at the widths (pandas: `FixedWidthReader.__next__`) (pandas) -/
def fields : List ℕ → Str → List (Option Str)
  | [], _ => []
  | w :: ws, l => cellText (l.take w) :: fields ws (l.drop w)

/-- is there something in the row? (pandas: `FixedWidthFieldParser._remove_empty_lines`) (pandas) -/
def full (r : List (Option Str)) : Bool := r.any Option.isSome

/-- the rows that are read ahead, and the lines after them (pandas: `PythonParser._next_line`) (pandas) -/
def readAhead : ℕ → List (List (Option Str)) → List (List (Option Str)) × List (List (Option Str))
  | 0, rs => ([], rs)
  | _ + 1, [] => ([], [])
  | k + 1, r :: rs => if full r then let q := readAhead k rs; (r :: q.1, q.2) else readAhead (k + 1) rs

/-- `pd.read_fwf(path, skiprows, nrows, widths, header=None)`: without any row an `EmptyDataError` (a `ValueError`) (pandas, MCNPoutput.py:521-616) -/
def readFwf (ahead : ℕ) (lines : List Str) (skip : ℕ) (nrows : ℤ) (widths : List ℕ) : Except PyErr (List (List (Option Str))) :=
  if nrows < 0 then .error .valueError
  else
    let q := readAhead ahead ((lines.drop skip).map (fields widths))
    if q.1 = [] then .error .valueError
    else if nrows.toNat ≤ q.1.length then .ok (q.1.take nrows.toNat)
    else .ok (q.1 ++ (q.2.take (nrows.toNat - q.1.length)).filter full)

/-- the loop over the header (MCNPoutput.py:589-607): number of the row at which it ends, titles -/
def headLoop : ℕ → ℕ → List (List (Option Str)) → List Str → Except PyErr (ℕ × List Str)
  | 0, i, _, cols => .ok (i - 1, cols)
  | _ + 1, _, [], _ => .error .indexError
  | k + 1, i, r :: rs, cols =>
    if (r.headD none).isSome then .ok (i, cols)
    else headLoop k (i + 1) rs (if i = 0 then r.map (fun c => c.getD []) else List.zipWith (fun t c => t ++ ' ' :: c.getD []) cols r)

/-- a table: titles of the columns, rows (pandas, MCNPoutput.py:521-616) -/
structure Frame where
  columns : List Str
  rows : List (List (Option Str))
  deriving DecidableEq, Repr

/-- `df.dropna(axis=1, how="all")`: the columns with something in them (pandas, MCNPoutput.py:521-616) -/
def dropEmpty (f : Frame) : Frame :=
  let keep := (List.range f.columns.length).filter (fun j => f.rows.any (fun r => (r.getD j none).isSome))
  ⟨keep.map (fun j => f.columns.getD j []), f.rows.map (fun r => keep.map (fun j => r.getD j none))⟩

/-- what is made of the rows read (MCNPoutput.py:589-616); a row has one cell per column, so the number of titles must be that of the columns -/
def makeFrame (ncols : ℕ) (rows : List (List (Option Str))) : Except PyErr Frame :=
  match headLoop 10 0 rows [] with
  | .error e => .error e
  | .ok (i, cols) => if cols.length ≠ ncols then .error .valueError else .ok (dropEmpty ⟨cols, rows.drop i⟩)

/-- `get_table` (MCNPoutput.py:521-616) -/
def getTable (ahead table : ℕ) (idx : ℤ) (lines : List Str) : Except PyErr Frame :=
  match tableLoopW table lines 0 lines none [] [] with
  | ([], _) => .error .valueError
  | (t :: ts, widths) =>
    match (if 0 ≤ idx then (t :: ts)[idx.toNat]? else if (-idx).toNat ≤ (t :: ts).length then (t :: ts)[(t :: ts).length - (-idx).toNat]? else none) with
    | none => .error .indexError
    | some inst =>
      match readFwf ahead lines inst.skip inst.nrows widths with
      | .error e => .error e
      | .ok rows => makeFrame widths.length rows

/-! ### version of the code -/

/-- `(?<=d1suned  ver=)\d+` at this place (Python, MCNPoutput.py:641-679) -/
def d1sVerHere (s : Str) : Option Str :=
  if "d1suned  ver=".toList.isPrefixOf s then
    match (s.drop 13).takeWhile isDigit with
    | [] => none
    | w => some w
  else none

/-- a line of another file (MCNPoutput.py:668-673) -/
def lineVersion (l : Str) : Option Str :=
  match search d1sVerHere l with
  | some v => some ("d1suned".toList ++ v)
  | none => (search mcnpHere l).map stripZeros

/-- `file.endswith(".out") or file.endswith(".dump")` (Python, MCNPoutput.py:641-679) -/
def isAux (name : Str) : Bool := ".out".toList.isSuffixOf name || ".dump".toList.isSuffixOf name

/-- the search in the files of the folder, in the order of `os.listdir` (MCNPoutput.py:664-677): the fourth line is the last one looked at -/
def folderVersion : List (Str × List Str) → Option Str
  | [] => none
  | f :: fs =>
    match (if isAux f.1 then (f.2.take 4).findSome? lineVersion else none) with
    | some v => some v
    | none => folderVersion fs

/-- `get_code_version` (MCNPoutput.py:641-679). `folder` is `none` if the path of the output has no folder: `os.listdir("")` fails. -/
def codeVersionIn (folder : Option (List (Str × List Str))) (lines : List Str) : Except PyErr Str :=
  match codeVersion lines with
  | .ok v => .ok v
  | .error _ =>
    match folder with
    | none => .error .ioError
    | some fs =>
      match folderVersion fs with
      | some v => .ok v
      | none => .error .valueError

end F4Enix.Outp
