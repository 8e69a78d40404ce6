import Verif.Base.Text
import Verif.Base.Dict
import Mathlib.Data.Rat.Floor
import Mathlib.Algebra.Order.Floor.Ring
/-!
# Model of the export of mesh tallies and of their transformation by the input

`src/f4enix/output/meshtal/fmesh.py` (`write`, `_write_vtk`, `_write_csv`, `_write_point_cloud`, `_write_fluent`, `_clean_path`) and
`src/f4enix/output/meshtal/meshtal.py` (`write_all`, `transform_fmesh`, `transform_multiple_fmesh`).

Numbers are exact and finite (no `nan`). A folder is a dictionary from the names of its files to their texts. pyvista is reduced to
the arrays of a grid (`grid[name]` looks at the cell arrays first); the text of a vtk file is a parameter.
-/
namespace F4Enix.FmeshW
open F4Enix

/-! ### numbers -/

/-- `|x|` in thousandths, to the nearest, halves to the even (Python, fmesh.py:541-566) -/
def thousandths (x : ℚ) : ℕ :=
  let y := |x| * 1000
  let f := ⌊y⌋.toNat
  let r := y - (f : ℚ)
  if r < 1 / 2 then f else if 1 / 2 < r then f + 1 else if f % 2 = 0 then f else f + 1

/-- `f"{x:.3f}"` (Python, fmesh.py:541-566) -/
def fmt3 (x : ℚ) : Str :=
  let t := thousandths x
  (if x < 0 then ['-'] else []) ++ natStr (t / 1000) ++ ['.', digitChar (t % 1000 / 100), digitChar (t % 100 / 10), digitChar (t % 10)]

/-! ### grids -/

/-- `Pt` (pyvista) -/
abbrev Pt := ℚ × ℚ × ℚ

/-- a grid of pyvista: its points, the centres of its cells, its arrays and `array_names` (pyvista, fmesh.py:463-527) -/
structure Grid where
  points : List Pt
  centres : List Pt
  cellData : Dict Str (List ℚ)
  pointData : Dict Str (List ℚ)
  names : List Str
  deriving DecidableEq, Repr

/-- `grid[name]` (pyvista, fmesh.py:541-566) -/
def Grid.array (g : Grid) (n : Str) : Except PyErr (List ℚ) :=
  match Dict.get? g.cellData n with
  | some a => .ok a
  | none => match Dict.get? g.pointData n with
    | some a => .ok a
    | none => .error .keyError

/-! ### csv -/

/-- the values of a row: the texts of the arrays at place `i` (fmesh.py:563-564) -/
def rowValues (g : Grid) (i : ℕ) : List Str → Except PyErr (List Str)
  | [] => .ok []
  | n :: ns =>
    match g.array n with
    | .error e => .error e
    | .ok a =>
      match a[i]? with
      | none => .error .indexError
      | some x =>
        match rowValues g i ns with
        | .error e => .error e
        | .ok r => .ok ((' ' :: fmt3 x) :: r)

/-- `','.join` (Python, fmesh.py:541-566) -/
def commas : List Str → Str
  | [] => []
  | [w] => w
  | w :: ws => w ++ ',' :: commas ws

/-- the rows from number `i` on (fmesh.py:557-565): what is in the file, and the failure if there is one; no field needs quotes -/
def csvRows (g : Grid) (names : List Str) : ℕ → List Pt → Str × Option PyErr
  | _, [] => ([], none)
  | i, p :: ps =>
    match rowValues g i names with
    | .error e => ([], some e)
    | .ok vs =>
      match csvRows g names (i + 1) ps with
      | (t, e) => (commas (fmt3 p.1 :: (' ' :: fmt3 p.2.1) :: (' ' :: fmt3 p.2.2) :: vs) ++ '\r' :: '\n' :: t, e)

/-- `_write_csv` (fmesh.py:541-566) -/
def writeCsv (g : Grid) (path : Str) (pts : List Pt) (names : List Str) (files : Dict Str Str) : Dict Str Str × Option PyErr :=
  match csvRows g names 0 pts with
  | (t, e) => (Dict.set files (path ++ ".csv".toList) t, e)

/-! ### point clouds and fluent -/

/-- `_clean_path` (fmesh.py:734-738) -/
def cleanPath (n : Str) : Str := n.filter (fun c => !(c == '[' || c == ']' || c == '\\' || c == '/'))

/-- the lines of a point cloud (fmesh.py:578-582); on a missing value the line is left as far as it was written -/
def cloudLines (vals : List ℚ) : ℕ → List Pt → Str × Option PyErr
  | _, [] => ([], none)
  | i, p :: ps =>
    let head := fmt3 p.1 ++ ',' :: (fmt3 p.2.1 ++ ',' :: (fmt3 p.2.2 ++ [',']))
    match vals[i]? with
    | none => (head, some .indexError)
    | some x =>
      match cloudLines vals (i + 1) ps with
      | (t, e) => (head ++ (fmt3 x ++ '\n' :: t), e)

/-- the text of a point cloud (fmesh.py:575-582) -/
def cloudText (vals : List ℚ) (pts : List Pt) : Str × Option PyErr :=
  match cloudLines vals 0 pts with
  | (t, e) => ("x, y, z, value\n".toList ++ t, e)

/-- a block of numbers, one in a line (fmesh.py:585-619) -/
def block (xs : List ℚ) : Str := '(' :: (xs.flatMap (fun x => fmt3 x ++ ['\n']) ++ ")\n".toList)

/-- the text for fluent (fmesh.py:590-617) -/
def fluentText (vals : List ℚ) (pts : List Pt) : Str × Option PyErr :=
  let head := "3\n3\n".toList ++ natStr pts.length ++ "\n1\nuds-0\n".toList ++ block (pts.map (fun p => p.1)) ++ block (pts.map (fun p => p.2.1)) ++
    block (pts.map (fun p => p.2.2))
  if pts.length ≤ vals.length then (head ++ block (vals.take pts.length), none)
  else (head ++ '(' :: vals.flatMap (fun x => fmt3 x ++ ['\n']), some .indexError)

/-- the loop over the arrays (fmesh.py:571-583, 588-618): one file for each -/
def writeEach (text : List ℚ → List Pt → Str × Option PyErr) (g : Grid) (path : Str) (pts : List Pt) :
    List Str → Dict Str Str → Dict Str Str × Option PyErr
  | [], files => (files, none)
  | n :: ns, files =>
    match g.array n with
    | .error e => (files, some e)
    | .ok vals =>
      match text vals pts with
      | (t, some e) => (Dict.set files (path ++ '_' :: cleanPath n ++ ".txt".toList) t, some e)
      | (t, none) => writeEach text g path pts ns (Dict.set files (path ++ '_' :: cleanPath n ++ ".txt".toList) t)

/-! ### write -/

/-- a mesh: its number, its grid and the kind of the grid (fmesh.py:239-285) -/
structure Mesh where
  tally : ℕ
  grid : Grid
  kind : Str
  deriving DecidableEq, Repr

/-- the extension of a vtk file (fmesh.py:530-537) -/
def vtkExt (kind : Str) : Str :=
  if kind = "StructuredGrid".toList then ".vts".toList
  else if kind = "UnstructuredGrid".toList then ".vtu".toList
  else if kind = "RectilinearGrid".toList then ".vtr".toList
  else ".vtk".toList

/-- `write` (fmesh.py:463-527) -/
def write (vtk : Grid → Str) (m : Mesh) (names : Option (List Str)) (fmt : Str) (outfile : Option Str) (files : Dict Str Str) :
    Dict Str Str × Option PyErr :=
  let names := names.getD m.grid.names
  let path := outfile.getD ("Tally_".toList ++ natStr m.tally ++ '_' :: fmt)
  if fmt = "vtk".toList then (Dict.set files (path ++ vtkExt m.kind) (vtk m.grid), none)
  else
    match (if 0 < m.grid.cellData.length ∧ m.grid.pointData.length = 0 then some m.grid.centres
      else if 0 < m.grid.pointData.length then some m.grid.points else none) with
    | none => (files, some .valueError)
    | some pts =>
      if fmt = "csv".toList then writeCsv m.grid path pts names files
      else if fmt = "point_cloud".toList then writeEach cloudText m.grid path pts names files
      else if fmt = "ip_fluent".toList then writeEach fluentText m.grid path pts names files
      else (files, some .keyError)

/-- `write_all` (meshtal.py:115-128) -/
def writeAll (vtk : Grid → Str) (fmt : Str) : List Mesh → Dict Str Str → Dict Str Str × Option PyErr
  | [], files => (files, none)
  | m :: ms, files =>
    match write vtk m none fmt none files with
    | (files', some e) => (files', some e)
    | (files', none) => writeAll vtk fmt ms files'

/-! ### transformations of the input -/

/-- `\s*\d+` at the start: the blanks and the digits (meshtal.py:208) -/
def blanksDigits (s : Str) : Option Str :=
  let b := s.takeWhile isSpace
  let d := (s.dropWhile isSpace).takeWhile isDigit
  if d = [] then none else some (b ++ d)

/-- `tr\s*=\s*\d+` at the start of the text: what stands after the equals sign (Python, meshtal.py:196-224) -/
def trAt : Str → Option Str
  | 't' :: 'r' :: s =>
    match s.dropWhile isSpace with
    | '=' :: r => blanksDigits r
    | _ => none
  | _ => none

/-- `re.search` with it: the first place that matches (Python, meshtal.py:196-224) -/
def trSearch : Str → Option Str
  | [] => none
  | c :: s =>
    match trAt (c :: s) with
    | some r => some r
    | none => trSearch s

/-- the first line that has it (meshtal.py:215-219) -/
def trOfCard (lines : List Str) : Option Str := lines.findSome? trSearch

/-- a data card: key, number, lines (numjuggler, meshtal.py:196-224) -/
structure DataCard where
  key : Str
  name : ℕ
  lines : List Str
  deriving DecidableEq, Repr

/-- `"FMESH" in key` (meshtal.py:196-224) -/
def hasFmesh (key : Str) : Bool := key.tails.any (fun t => "FMESH".toList.isPrefixOf t)

/-- the dictionary of transformations (meshtal.py:207-223) -/
def trDict {T M : Type} (trs : Dict Str T) (mesh : Dict ℕ M) : List DataCard → Dict ℕ T → Except PyErr (Dict ℕ T)
  | [], d => .ok d
  | c :: cs, d =>
    if hasFmesh c.key && Dict.has mesh c.name then
      match trOfCard c.lines with
      | none => trDict trs mesh cs d
      | some w =>
        match Dict.get? trs ("TR".toList ++ w) with
        | none => .error .keyError
        | some t => trDict trs mesh cs (Dict.set d c.name t)
    else trDict trs mesh cs d

/-- `transform_multiple_fmesh` (meshtal.py:226-239); `app` is `apply_transformation` -/
def transformMany {T M : Type} (app : M → T → Except PyErr M) : Dict ℕ T → Dict ℕ M → Dict ℕ M × Option PyErr
  | [], mesh => (mesh, none)
  | (k, t) :: r, mesh =>
    match Dict.get? mesh k with
    | none => (mesh, some .keyError)
    | some m =>
      match app m t with
      | .error e => (mesh, some e)
      | .ok m' => transformMany app r (Dict.set mesh k m')

/-- `transform_fmesh` (meshtal.py:196-224) -/
def transformFmesh {T M : Type} (app : M → T → Except PyErr M) (trs : Dict Str T) (cards : List DataCard) (mesh : Dict ℕ M) :
    Dict ℕ M × Option PyErr :=
  match trDict trs mesh cards [] with
  | .error e => (mesh, some e)
  | .ok d => transformMany app d mesh

end F4Enix.FmeshW
