import Verif.Out.Meshtal
import Verif.Base.Dict
import Mathlib.Data.List.Sort
/-!
# Model of src/f4enix/output/meshinfo.py: the masses in the voxels of a cell-under-voxel mesh

Text is character lists, numbers are exact rationals read by a parameter (`float`), `2π` is a parameter `tau`.
A data frame with the index (Voxel, Material, Cell) and the column of masses is the list of its rows; its
`sort_index` is a stable sort of the rows. A folder is a pair of optional files.
-/
namespace F4Enix.MInfo
open F4Enix F4Enix.Mesh

/-- a row of the mass data frame (meshinfo.py:555-563) -/
structure Row where
  voxel : ℤ
  mat : ℤ
  cell : ℤ
  mass : ℚ
  deriving DecidableEq, Repr

/-- order of the index of the data frame: voxel, then material, then cell (pandas, meshinfo.py:47-80) -/
def rowLe (a b : Row) : Bool :=
  decide (a.voxel < b.voxel) || (decide (a.voxel = b.voxel) && (decide (a.mat < b.mat) ||
    (decide (a.mat = b.mat) && decide (a.cell ≤ b.cell))))

/-- `DataMass.__init__` (meshinfo.py:45-76): `dataframe.sort_index()`. The check of the format
(meshinfo.py:78-96) cannot fail here: a list of rows has the right columns by construction. -/
def dataMass (rows : List Row) : List Row := rows.insertionSort (fun a b => rowLe a b = true)

/-- `get_filtered_dataframe` (meshinfo.py:104-137): the mask is the product of the masks of the given filters -/
def filtered (df : List Row) (voxels materials cells : Option (List ℤ)) : List Row :=
  let mask := df.map (fun _ => true)
  let mask := match voxels with
    | none => mask
    | some l => List.zipWith (fun m r => m && l.contains r.voxel) mask df
  let mask := match materials with
    | none => mask
    | some l => List.zipWith (fun m r => m && l.contains r.mat) mask df
  let mask := match cells with
    | none => mask
    | some l => List.zipWith (fun m r => m && l.contains r.cell) mask df
  ((List.zip mask df).filter Prod.fst).map Prod.snd

/-- `Index.unique`: first occurrences, in order (pandas, meshinfo.py:139-155) -/
def unique : List ℤ → List ℤ
  | [] => []
  | x :: xs => x :: (unique xs).filter (fun y => decide (y ≠ x))

/-- `get_cells_from_materials` (meshinfo.py:139-156) -/
def cellsOf (df : List Row) (materials : Option (List ℤ)) : List ℤ :=
  unique ((filtered df none materials none).map Row.cell)

/-- `materials` (meshinfo.py:101-104): the level of the index, i.e. its distinct values in ascending order -/
def materialsOf (df : List Row) : List ℤ := (unique (df.map Row.mat)).insertionSort (· ≤ ·)

/-- `MeshInfo` and `MeshInfoCyl` (meshinfo.py:189-381, 319-381). `pos` is origin, axis and vec of a `MeshInfoCyl` -/
structure Info where
  cyl : Bool
  mass : Option (List Row)
  vi : List ℚ
  vj : List ℚ
  vk : List ℚ
  pos : Option (List ℚ × List ℚ × List ℚ)
  deriving DecidableEq, Repr

/-! ### reading -/

/-- `int(word)` (Python, meshinfo.py:524-564) -/
def toInt (w : Str) : Except PyErr ℤ :=
  match parseInt w with
  | none => .error .valueError
  | some i => .ok i

/-- `_read_cell_part` (meshinfo.py:567-575) -/
def readCell (num : ParseNum) (volume : ℚ) (line : Str) : Except PyErr (ℤ × ℤ × ℚ) := do
  match tokens line with
  | [c, d, m, f] => do
    let cell ← toInt c
    let density ← toNum num d
    let mat ← toInt m
    let frac ← toNum num f
    let cellVolume := volume * frac
    pure (cell, mat, cellVolume * density)
  | _ => .error .valueError

/-- the inner loop over the cells of a voxel (meshinfo.py:541-546); `readline` at the end of the file gives "" -/
def readCells (num : ParseNum) (voxel : ℤ) (volume : ℚ) : Nat → List Str → Except PyErr (List Row × List Str)
  | 0, ls => .ok ([], ls)
  | n + 1, ls =>
    match readCell num volume (ls.headD []) with
    | .error e => .error e
    | .ok (cell, mat, mass) =>
      match readCells num voxel volume n ls.tail with
      | .error e => .error e
      | .ok (rows, ls) => .ok (⟨voxel, mat, cell, mass⟩ :: rows, ls)

/-- the line of a voxel (meshinfo.py:537-540) -/
def readHead (num : ParseNum) (line : Str) : Except PyErr (ℤ × ℚ × ℤ) := do
  match tokens line with
  | [v, vol, n] => do
    let v ← toInt v
    let vol ← toNum num vol
    let n ← toInt n
    pure (v, vol, n)
  | _ => .error .valueError

/-- the loop over the voxels (meshinfo.py:536-546) -/
def readVoxels (num : ParseNum) : Nat → List Str → Except PyErr (List Row × List Str)
  | 0, ls => .ok ([], ls)
  | k + 1, ls =>
    match readHead num (ls.headD []) with
    | .error e => .error e
    | .ok (v, vol, n) =>
      match readCells num v vol n.toNat ls.tail with
      | .error e => .error e
      | .ok (rows, ls) =>
        match readVoxels num k ls with
        | .error e => .error e
        | .ok (more, ls) => .ok (rows ++ more, ls)

/-- `range((len(i) - 1) * (len(j) - 1) * (len(k) - 1))` (meshinfo.py:531-536) -/
def voxelCount (m : Info) : Nat :=
  (((m.vi.length : ℤ) - 1) * ((m.vj.length : ℤ) - 1) * ((m.vk.length : ℤ) - 1)).toNat

/-- `_read_voxels` (meshinfo.py:524-565) -/
def readMass (num : ParseNum) (tau : ℚ) (m : Info) (ls : List Str) : Except PyErr (List Row × List Str) :=
  match readVoxels num (voxelCount m) ls with
  | .error e => .error e
  | .ok (rows, ls) =>
    let rows := if m.cyl then rows.map (fun r => { r with mass := r.mass / tau }) else rows
    .ok (dataMass rows, ls)

/-- does `\d\.\d{8}` match here? (Python, meshinfo.py:480-504) -/
def angleHere : Str → Bool
  | d :: p :: ds => isDigit d && decide (p = '.') && decide (8 ≤ ds.length) && (ds.take 8).all isDigit
  | _ => false

/-- `re.findall(r"\d\.\d{8}", line)`: the first argument is the number of characters still covered by the
last match (Python, meshinfo.py:480-504) -/
def findAngles : Nat → Str → List Str
  | _, [] => []
  | n + 1, _ :: cs => findAngles n cs
  | 0, c :: cs => if angleHere (c :: cs) then (c :: cs).take 10 :: findAngles 9 cs else findAngles 0 cs

/-- `_read_header_cyl` (meshinfo.py:480-504) -/
def headerCyl (num : ParseNum) (tau : ℚ) (words : List Str) (ls : List Str) : Except PyErr (Info × List Str) := do
  let origin ← rowNums num ((words.drop 2).take 3)
  let axis ← rowNums num ((words.drop 7).take 3)
  let vec ← rowNums num ((words.drop 13).take 3)
  let vi ← rowNums num ((tokens (ls.headD [])).drop 2)
  let vj ← rowNums num ((tokens (ls.tail.headD [])).drop 2)
  let vk ← rowNums num (findAngles 0 (ls.tail.tail.headD []))
  pure (⟨true, none, vi, vj, vk.map (· / tau), some (origin, axis, vec)⟩, ls.tail.tail.tail)

/-- `_read_header_cart` (meshinfo.py:507-521) -/
def headerCart (num : ParseNum) (words : List Str) (ls : List Str) : Except PyErr (Info × List Str) := do
  let vi ← rowNums num (words.drop 2)
  let vj ← rowNums num ((tokens (ls.headD [])).drop 2)
  let vk ← rowNums num ((tokens (ls.tail.headD [])).drop 2)
  pure (⟨false, none, vi, vj, vk, none⟩, ls.tail.tail)

/-- `_read_individual_mesh` (meshinfo.py:466-477) -/
def readMesh (num : ParseNum) (tau : ℚ) (ls : List Str) : Except PyErr (Info × List Str) :=
  let ls := ls.drop 3
  let words := tokens (ls.headD [])
  match words with
  | [] => .error .indexError
  | w :: _ =>
    match (if w = "origin".toList then headerCyl num tau words ls.tail else headerCart num words ls.tail) with
    | .error e => .error e
    | .ok (m, ls) =>
      match readMass num tau m ls with
      | .error e => .error e
      | .ok (rows, ls) => .ok ({ m with mass := some rows }, ls)

/-- `sub in line` (Python, meshinfo.py:434-457) -/
def contains (sub : Str) : Str → Bool
  | [] => sub.isEmpty
  | c :: cs => sub.isPrefixOf (c :: cs) || contains sub cs

/-- the loop of `from_file` (meshinfo.py:448-456); every turn takes a line, so the number of lines is fuel enough -/
def fileLoop (num : ParseNum) (tau : ℚ) : Nat → List Str → Dict ℤ Info → Except PyErr (Dict ℤ Info)
  | 0, _, d => .ok d
  | _ + 1, [], d => .ok d
  | fuel + 1, l :: ls, d =>
    if contains "Mesh tally number:".toList l then
      match (tokens l).getLast? with
      | none => .error .indexError
      | some w =>
        match toInt w with
        | .error e => .error e
        | .ok i =>
          match readMesh num tau ls with
          | .error e => .error e
          | .ok (m, ls) => fileLoop num tau fuel ls (Dict.set d i m)
    else fileLoop num tau fuel ls d

/-- `MeshInfoFile.from_file` (meshinfo.py:433-457) -/
def fromFile (num : ParseNum) (tau : ℚ) (lines : List Str) : Except PyErr (Dict ℤ Info) :=
  fileLoop num tau lines.length lines []

/-! ### comparison -/

/-- `(a == b).all()` on one-dimensional arrays: element-wise with broadcasting of length one, `ValueError` for
other lengths (numpy 1.25 and later; before, the comparison gave `False`, which has no `all`: `AttributeError`) (numpy, meshinfo.py:297-315) -/
def allEq (a b : List ℚ) : Except PyErr Bool :=
  if a.length = b.length then .ok ((List.zipWith (fun x y => decide (x = y)) a b).all id)
  else if a.length = 1 then .ok (b.all (fun y => decide (a.headD 0 = y)))
  else if b.length = 1 then .ok (a.all (fun x => decide (x = b.headD 0)))
  else .error .valueError

/-- `assert cond` inside `try … except AssertionError: return False` (Python, meshinfo.py:297-315) -/
def andThen (c : Except PyErr Bool) (k : Except PyErr Bool) : Except PyErr Bool :=
  match c with
  | .error e => .error e
  | .ok false => .ok false
  | .ok true => k

/-- the last part of `__eq__` (meshinfo.py:307-310): origin, axis and vec, if this is a `MeshInfoCyl` -/
def eqPos (a b : Option (List ℚ × List ℚ × List ℚ)) : Except PyErr Bool :=
  match a with
  | none => .ok true
  | some (o, ax, v) =>
    match b with
    | none => .error .attributeError
    | some (o', ax', v') =>
      andThen (allEq o o') <| andThen (allEq ax ax') <| andThen (allEq v v') <| .ok true

/-- `__eq__` (meshinfo.py:297-316), for two `MeshInfo` or `MeshInfoCyl`. A missing `data_mass` has no `df`
(`AttributeError`); a `MeshInfoCyl` compared with a `MeshInfo` asks for an `origin` that is not there. -/
def eqInfo (a b : Info) : Except PyErr Bool :=
  andThen (.ok (decide (a.cyl = b.cyl))) <|
  andThen (allEq a.vi b.vi) <| andThen (allEq a.vj b.vj) <| andThen (allEq a.vk b.vk) <|
  andThen (match a.mass, b.mass with
    | some x, some y => .ok (decide (x = y))
    | _, _ => .error .attributeError) <|
  eqPos a.pos b.pos

/-! ### saving and loading -/

/-- a folder: `meshinfo_parameters.json` and `data_mass.hdf5` (meshinfo.py:236-256) -/
structure Folder where
  json : Option Info := none
  hdf : Option (List Row) := none
  deriving DecidableEq, Repr

/-- `save` (meshinfo.py:236-256 and 383-408): parameters, then the masses if there are any. The json file never
holds the masses. `tolist`/`json` keep floats exactly; `to_hdf` and `read_hdf` keep the frame. -/
def save (m : Info) (f : Folder) : Folder :=
  let f := { f with json := some { m with mass := none } }
  match m.mass with
  | none => f
  | some rows => { f with hdf := some rows }

/-- `load` (meshinfo.py:258-295) -/
def load (f : Folder) : Except PyErr Info :=
  match f.hdf with
  | none => .error .ioError
  | some rows =>
    match f.json with
    | none => .error .ioError
    | some m =>
      if m.cyl then
        match m.pos with
        | none => .error .keyError
        | some _ => .ok { m with mass := some (dataMass rows) }
      else .ok { m with mass := some (dataMass rows), pos := none }

end F4Enix.MInfo
