import Verif.Base.Text
import Verif.Base.Tokens
import Verif.Base.Loops
import Mathlib.Data.Rat.Defs
import Mathlib.Algebra.Order.Ring.Rat
import Mathlib.Algebra.Order.Ring.Abs
/-!
# Model of the mesh tally objects and readers, `src/f4enix/output/meshtal/*`

Numbers are exact (`ℚ`); `float(str)` is a parameter (`none` is the `ValueError`). An array of shape
`(nt, ne, nx3, nx2, nx1, 2)` is a function from the five bin indices (a list, in this order) to the pair
(value, error); what `np.ndarray(shape)` contains before it is filled is a parameter. vtk/pyvista objects are
reduced to named arrays.
-/
namespace F4Enix.Mesh
open F4Enix

/-- `float(s)` (Python) -/
abbrev ParseNum := Str → Option ℚ

/-- the kinds of bin accepted by `ExtraBin` (aux_meshtal_functions.py:60-73); others raise `ValueError` -/
inductive Tag where
  | erg | tme | dtme | nuc | cel | line
  deriving DecidableEq

/-- `ExtraBin` (aux_meshtal_functions.py:46-108) -/
structure EBin where
  data : List ℚ
  tag : Tag
  explicit : Bool := true
  deriving DecidableEq

/-- `binbound` (aux_meshtal_functions.py:96-100) -/
def EBin.bound (b : EBin) : Bool :=
  match b.tag with
  | .erg | .tme => true
  | _ => false

/-- `totalbin` (aux_meshtal_functions.py:103-107) -/
def EBin.total (b : EBin) : Bool :=
  match b.tag with
  | .erg | .tme => decide (b.data.length ≠ 2)
  | .dtme => false
  | _ => decide (b.data.length ≠ 1)

/-- number of bins including the total one (fmesh.py:49-58) -/
def EBin.count (b : EBin) : Nat :=
  ((b.data.length : ℤ) - (if b.bound then 1 else 0) + (if b.total then 1 else 0)).toNat

/-- value and error per `[t, e, k3, k2, k1]` (fmesh.py:25-69) -/
abbrev Data := List Nat → ℚ × ℚ

/-- `MeshData` (fmesh.py:22-68) -/
structure MeshData where
  cyl : Bool
  x1 : List ℚ
  x2 : List ℚ
  x3 : List ℚ
  ebin : EBin
  tbin : EBin
  data : Data

/-- `MeshData.ne` (fmesh.py:135-139) -/
def MeshData.ne (m : MeshData) : Nat := m.ebin.count
/-- `MeshData.nt` (fmesh.py:142-146) -/
def MeshData.nt (m : MeshData) : Nat := m.tbin.count
/-- `MeshData.nx1` (fmesh.py:114-118) -/
def MeshData.nx1 (m : MeshData) : Nat := m.x1.length - 1
/-- `MeshData.nx2` (fmesh.py:121-125) -/
def MeshData.nx2 (m : MeshData) : Nat := m.x2.length - 1
/-- `MeshData.nx3` (fmesh.py:128-132) -/
def MeshData.nx3 (m : MeshData) : Nat := m.x3.length - 1

/-- `data.shape` without the last axis (fmesh.py:25-69) -/
def MeshData.shape (m : MeshData) : List Nat := [m.nt, m.ne, m.nx3, m.nx2, m.nx1]

/-! ### selection of energy and time bins -/

/-- `ebin < 0` handling and range checks (fmesh.py:163-169, 187-188): the bin as a natural number -/
def binIndex (n : Nat) (i : ℤ) : Except PyErr Nat :=
  if i < 0 then
    if -i < (n : ℤ) + 1 then
      if i + n < (n : ℤ) then .ok (i + n).toNat else .error .typeError
    else .error .typeError
  else if i < (n : ℤ) then .ok i.toNat else .error .typeError

/-- the bins of the selection (fmesh.py:170-186) -/
def selectBin (b : EBin) (i : Nat) : EBin :=
  if b.total = true ∧ i + 1 = b.count then
    if b.bound then { data := [b.data.headD 0, b.data.getLastD 0], tag := b.tag }
    else { data := [-1], tag := b.tag }
  else if b.bound then { data := (b.data.drop i).take 2, tag := b.tag }
  else { data := (b.data.drop i).take 1, tag := b.tag }

/-- one axis of the selection: index used for the data and the new bins (fmesh.py:155-235) -/
def axisSelect (b : EBin) : Option ℤ → Except PyErr (Nat × EBin)
  | none => .ok (0, b)
  | some i =>
    match binIndex b.count i with
    | .error e => .error e
    | .ok k => .ok (k, selectBin b k)

/-- `get_etbin_data` (fmesh.py:155-229); `junk` is the content of the fresh array -/
def getEtbin (junk : Data) (m : MeshData) (ebin tbin : Option ℤ) : Except PyErr MeshData :=
  match axisSelect m.ebin ebin with
  | .error e => .error e
  | .ok (e, eb) =>
    match axisSelect m.tbin tbin with
    | .error err => .error err
    | .ok (t, tb) =>
      .ok { m with
            ebin := eb, tbin := tb
            data := fun idx =>
              match idx with
              | [i, j, c, b, a] =>
                if eb.count = 1 ∧ tb.count = 1 then
                  if i = 0 ∧ j = 0 then m.data [t, e, c, b, a] else junk idx
                else if eb.count = 1 then
                  if j = 0 then m.data [i, e, c, b, a] else junk idx
                else if tb.count = 1 then
                  if i = 0 then m.data [t, j, c, b, a] else junk idx
                else m.data [i, j, c, b, a]
              | _ => junk idx }

/-! ### labels -/

/-- `f"{n:03d}"` (Python, aux_meshtal_functions.py:399-457) -/
def pad3 (n : Nat) : Str := List.replicate (3 - (natStr n).length) '0' ++ natStr n

/-- a label with the given suffix, for the value and for the error (aux_meshtal_functions.py:399-457) -/
def lab (l : Str × Str) (suffix : Str) : Str × Str := (l.1 ++ suffix, l.2 ++ suffix)

/-- `_get_labels` (aux_meshtal_functions.py:399-450) -/
def getLabels (nt ne : Nat) (l : Str × Str) : List (List (Str × Str)) :=
  if 1 < nt ∧ 1 < ne then
    (List.range (nt - 1)).map (fun it =>
      (List.range (ne - 1)).map (fun ie => lab l ("_t".toList ++ pad3 (it + 1) ++ ("_e".toList ++ pad3 (ie + 1)))) ++
        [lab l ("_t".toList ++ pad3 (it + 1) ++ "_eTot".toList)]) ++
    [(List.range (ne - 1)).map (fun ie => lab l ("_tTot".toList ++ ("_e".toList ++ pad3 (ie + 1)))) ++
        [lab l ("_tTot".toList ++ "_eTot".toList)]]
  else if 1 < nt then
    (List.range (nt - 1)).map (fun it => [lab l ("_t".toList ++ pad3 (it + 1))]) ++ [[lab l "_tTot".toList]]
  else if 1 < ne then
    [(List.range (ne - 1)).map (fun ie => lab l ("_e".toList ++ pad3 (ie + 1))) ++ [lab l "_eTot".toList]]
  else [[lab l []]]

/-! ### grids -/

/-- `COLUMN_LABELS` (aux_meshtal_functions.py:14-16) -/
def columnLabels : Str × Str := ("Value - Total".toList, "Error - Total".toList)

/-- the cell arrays of a grid: name and values, in the order of vtk cells (`ravel` of the data of a bin:
`k3` slowest, `k1` fastest) (pyvista, aux_meshtal_functions.py:460-486) -/
abbrev Arrays := List (Str × List ℚ)

/-- the values of one bin in vtk order (`mesh.data[it, ie, :, :, :, j]` ravelled) (numpy, aux_meshtal_functions.py:460-486) -/
def ravel (m : MeshData) (it ie : Nat) (j : ℚ × ℚ → ℚ) : List ℚ :=
  (loops [m.nx3, m.nx2, m.nx1]).map (fun is => j (m.data (it :: ie :: is)))

/-- the arrays added to the grid (aux_meshtal_functions.py:470-480, 534-544) -/
def gridArrays (m : MeshData) (l : Str × Str) : Arrays :=
  (loops [m.nt, m.ne]).flatMap (fun b =>
    let it := b.getD 0 0
    let ie := b.getD 1 0
    let name := ((getLabels m.nt m.ne l).getD it []).getD ie ([], [])
    [(name.1, ravel m it ie Prod.fst), (name.2, ravel m it ie Prod.snd)])

/-- the split of the first angular bin of a cylindrical mesh done while the grid is built
(aux_meshtal_functions.py:500-505); `IndexError` on a mesh without angular bin -/
def splitTheta (m : MeshData) : Except PyErr MeshData :=
  if m.cyl then
    match m.x3 with
    | a :: b :: rest =>
      if 1 / 2 < b then
        .ok { m with x3 := a :: (1 / 2) :: b :: rest
                     data := fun idx =>
                       match idx with
                       | [t, e, c, b, a] => m.data [t, e, c - 1, b, a]
                       | _ => m.data idx }
      else .ok m
    | _ => .error .indexError
  else .ok m

/-! ### column format -/

/-- `line.split()[-k]` for `k = 1, 2, …` (Python, aux_meshtal_functions.py:177-203) -/
def fromEnd (ws : List Str) (k : Nat) : Except PyErr Str :=
  match ws.reverse[k - 1]? with
  | none => .error .indexError
  | some w => .ok w

/-- `float(w)` (Python, aux_meshtal_functions.py:177-203) -/
def toNum (num : ParseNum) (w : Str) : Except PyErr ℚ :=
  match num w with
  | none => .error .valueError
  | some q => .ok q

/-- value and error of one line of the column format (`ival = -2`, `ierr = -1`) (aux_meshtal_functions.py:177-203) -/
def columnLine (num : ParseNum) (l : Str) : Except PyErr (ℚ × ℚ) :=
  match fromEnd (tokens l) 2 with
  | .error e => .error e
  | .ok a =>
    match toNum num a with
    | .error e => .error e
    | .ok va =>
      match fromEnd (tokens l) 1 with
      | .error e => .error e
      | .ok b =>
        match toNum num b with
        | .error e => .error e
        | .ok vb => .ok (va, vb)

/-- the body of the loops: one line per index (the end of the file reads as an empty line) (aux_meshtal_functions.py:177-203) -/
def columnLoop (num : ParseNum) : List (List Nat) → List Str → Data → Except PyErr Data
  | [], _, d => .ok d
  | i :: is, ls, d =>
    match columnLine num (ls.headD []) with
    | .error e => .error e
    | .ok v => columnLoop num is ls.tail (fun j => if j = i then v else d j)

/-- `_get_column_data` (aux_meshtal_functions.py:177-205) for type `col`. The loops are
energy, time, first, second, third axis; the array is indexed `[it, ie, i1, i2, i3]` and its third and
fifth axes are then exchanged. -/
def readColumn (num : ParseNum) (junk : Data) (nt ne nx3 nx2 nx1 : Nat) (lines : List Str) : Except PyErr Data :=
  match columnLoop num (loops [ne, nt, nx1, nx2, nx3]) lines.tail junk with
  | .error e => .error e
  | .ok d =>
    .ok (fun idx =>
      match idx with
      | [t, e, c, b, a] => d [e, t, a, b, c]
      | _ => junk idx)

/-! ### matrix format -/

/-- the numbers of a line after its first word, `[float(x) for x in line.split()[1:]]` (aux_meshtal_functions.py:110-117) -/
def rowNums (num : ParseNum) : List Str → Except PyErr (List ℚ)
  | [] => .ok []
  | w :: ws =>
    match toNum num w with
    | .error e => .error e
    | .ok q =>
      match rowNums num ws with
      | .error e => .error e
      | .ok qs => .ok (q :: qs)

/-- the rows of half a block: `array[i, :, j] = …` needs `nc` numbers, or one that is repeated (aux_meshtal_functions.py:110-117) -/
def readRows (num : ParseNum) (nc : Nat) : Nat → List Str → Except PyErr (List (List ℚ) × List Str)
  | 0, ls => .ok ([], ls)
  | n + 1, ls =>
    match rowNums num (tokens (ls.headD [])).tail with
    | .error e => .error e
    | .ok row =>
      if row.length = nc ∨ row.length = 1 then
        match readRows num nc n ls.tail with
        | .error e => .error e
        | .ok (rows, ls) => .ok ((if row.length = nc then row else List.replicate nc (row.headD 0)) :: rows, ls)
      else .error .valueError

/-- `_read_block` (aux_meshtal_functions.py:110-117): values and errors -/
def readBlock (num : ParseNum) (nl nc : Nat) (ls : List Str) :
    Except PyErr ((List (List ℚ) × List (List ℚ)) × List Str) :=
  match readRows num nc nl (ls.drop 4) with
  | .error e => .error e
  | .ok (vals, ls) =>
    match readRows num nc nl (ls.drop 3) with
    | .error e => .error e
    | .ok (errs, ls) => .ok ((vals, errs), ls.drop 1)

/-- the loop over the blocks of one bin, each followed by one line (aux_meshtal_functions.py:120-174) -/
def readBlocks (num : ParseNum) (nl nc : Nat) :
    Nat → List Str → Except PyErr (List (List (List ℚ) × List (List ℚ)) × List Str)
  | 0, ls => .ok ([], ls)
  | n + 1, ls =>
    match readBlock num nl nc ls with
    | .error e => .error e
    | .ok (b, ls) =>
      match readBlocks num nl nc n (ls.drop 1) with
      | .error e => .error e
      | .ok (bs, ls) => .ok (b :: bs, ls)

/-- bins, each with `skip` lines before its blocks and one after (aux_meshtal_functions.py:120-174) -/
def readBins (num : ParseNum) (nb nl nc : Nat) :
    Nat → List Str → Except PyErr (List (List (List (List ℚ) × List (List ℚ))) × List Str)
  | 0, ls => .ok ([], ls)
  | n + 1, ls =>
    match readBlocks num nl nc nb (ls.drop 2) with
    | .error e => .error e
    | .ok (bs, ls) =>
      match readBins num nb nl nc n (ls.drop 1) with
      | .error e => .error e
      | .ok (r, ls) => .ok (bs :: r, ls)

/-- energies with explicit times: three lines, then the time bins (aux_meshtal_functions.py:120-174) -/
def readTimeBins (num : ParseNum) (nt nb nl nc : Nat) :
    Nat → List Str → Except PyErr (List (List (List (List (List ℚ) × List (List ℚ)))) × List Str)
  | 0, ls => .ok ([], ls)
  | n + 1, ls =>
    match readBins num nb nl nc nt (ls.drop 3) with
    | .error e => .error e
    | .ok (bs, ls) =>
      match readTimeBins num nt nb nl nc n ls with
      | .error e => .error e
      | .ok (r, ls) => .ok (bs :: r, ls)

/-- the three orientations of the matrix format (aux_meshtal_functions.py:120-174) -/
inductive Orient where
  | ij | ik | jk
  deriving DecidableEq

/-- entry of a block: row, column (aux_meshtal_functions.py:120-174) -/
def blockAt (b : List (List ℚ) × List (List ℚ)) (i c : Nat) : ℚ × ℚ :=
  ((b.1.getD i []).getD c 0, (b.2.getD i []).getD c 0)

/-- number of blocks, rows, columns (aux_meshtal_functions.py:129-140) -/
def blockShape (o : Orient) (nx3 nx2 nx1 : Nat) : Nat × Nat × Nat :=
  match o with
  | .ij => (nx3, nx2, nx1)
  | .ik => (nx2, nx3, nx1)
  | .jk => (nx1, nx3, nx2)

/-- block, row and column of a voxel after the axes have been moved (aux_meshtal_functions.py:169-172) -/
def blockIdx (o : Orient) (c b a : Nat) : Nat × Nat × Nat :=
  match o with
  | .ij => (c, b, a)
  | .ik => (b, c, a)
  | .jk => (a, c, b)

/-- `_get_block_data` (aux_meshtal_functions.py:120-174). Without explicit times only time 0 is filled. -/
def readBlockData (num : ParseNum) (junk : Data) (o : Orient) (explicit : Bool) (nt ne nx3 nx2 nx1 : Nat)
    (lines : List Str) : Except PyErr Data :=
  let s := blockShape o nx3 nx2 nx1
  if explicit then
    match readTimeBins num nt s.1 s.2.1 s.2.2 ne lines with
    | .error e => .error e
    | .ok (r, _) =>
      .ok (fun idx =>
        match idx with
        | [t, e, c, b, a] =>
          let p := blockIdx o c b a
          blockAt (((r.getD e []).getD t []).getD p.1 ([], [])) p.2.1 p.2.2
        | _ => junk idx)
  else
    match readBins num s.1 s.2.1 s.2.2 ne lines with
    | .error e => .error e
    | .ok (r, _) =>
      .ok (fun idx =>
        match idx with
        | [t, e, c, b, a] =>
          let p := blockIdx o c b a
          if t = 0 then blockAt ((r.getD e []).getD p.1 ([], [])) p.2.1 p.2.2 else junk idx
        | _ => junk idx)

/-! ### comparisons and derived meshes -/

/-- `np.any(abs(bin1 - bin2) > 1e-12)` for arrays of equal length (numpy, fmesh.py:621-646) -/
def farApart (a b : List ℚ) : Bool := (List.zipWith (fun x y => decide (1 / 1000000000000 < |x - y|)) a b).any id

/-- `sameMesh` (fmesh.py:621-645) -/
def sameMesh (m n : MeshData) : Bool :=
  if m.cyl ≠ n.cyl then false
  else if m.shape ≠ n.shape then false
  else if farApart m.x1 n.x1 then false
  else if farApart m.x2 n.x2 then false
  else if farApart m.x3 n.x3 then false
  else true

end F4Enix.Mesh
