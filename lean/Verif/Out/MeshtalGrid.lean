import Verif.Out.Meshtal
import Verif.Base.Dict
/-!
# Model of the mesh tally objects: grids, transformations, derived meshes

`src/f4enix/output/meshtal/{fmesh,meshtal}.py` and the grid part of `aux_meshtal_functions.py`.
`cos(2πt)` and `sin(2πt)` are parameters. Here coordinates are exact; the 32 bit floats of structured grids are in Out/GridSingle.lean.
-/
namespace F4Enix.Mesh
open F4Enix

/-- a vector of three numbers (numpy) -/
structure Vec where
  x : ℚ
  y : ℚ
  z : ℚ
  deriving DecidableEq

/-- `Vec.add` (numpy) -/
def Vec.add (a b : Vec) : Vec := ⟨a.x + b.x, a.y + b.y, a.z + b.z⟩
/-- `Vec.sub` (numpy) -/
def Vec.sub (a b : Vec) : Vec := ⟨a.x - b.x, a.y - b.y, a.z - b.z⟩
/-- `Vec.dot` (numpy) -/
def Vec.dot (a b : Vec) : ℚ := a.x * b.x + a.y * b.y + a.z * b.z
/-- `np.cross` (numpy) -/
def Vec.cross (a b : Vec) : Vec := ⟨a.y * b.z - a.z * b.y, a.z * b.x - a.x * b.z, a.x * b.y - a.y * b.x⟩
/-- `Vec.zero` (numpy) -/
def Vec.zero : Vec := ⟨0, 0, 0⟩

/-- origin and rotation matrix (rows) of a mesh (aux_meshtal_functions.py:573-633) -/
structure Trsf where
  origin : Vec
  rot : Vec × Vec × Vec
  deriving DecidableEq

/-- `_get_transformation(line)` for cylindrical meshes (aux_meshtal_functions.py:574-634), after the numbers
of the line have been read. `axs.cross` does not exist for arrays (`_get_rotation_matrix`, 548-561). -/
def getTransformation (origin axis : Vec) (vec : Option Vec) : Except PyErr (Option Trsf) :=
  let axisZ := decide (|axis.z - 1| < 1 / 1000000000000)
  let axisX := decide (|axis.x - 1| < 1 / 1000000000000)
  let small := decide (origin.dot origin < 1 / 1000000000000000000000000)
  match vec with
  | none =>
    if axisZ then
      if small then .ok none else .ok (some ⟨origin, ⟨1, 0, 0⟩, ⟨0, 1, 0⟩, ⟨0, 0, 1⟩⟩)
    else .error .attributeError
  | some v =>
    if axisZ && axisX then
      if small then .ok none else .ok (some ⟨origin, ⟨1, 0, 0⟩, ⟨0, 1, 0⟩, ⟨0, 0, 1⟩⟩)
    else .ok (some ⟨origin, v, axis.cross v, axis⟩)

/-- the same for rectangular meshes (`cyl=False`, aux_meshtal_functions.py:608-634): `vec` and `axis` are never assigned -/
def getTransformationRec (origin vecX vecY : Vec) : Except PyErr (Option Trsf) :=
  if |vecX.x - 1| < 1 / 1000000000000 ∧ |vecY.y - 1| < 1 / 1000000000000 ∧
      origin.dot origin < 1 / 1000000000000000000000000 then .ok none
  else .error .unboundLocal

/-- the points of the grid, first axis fastest (aux_meshtal_functions.py:453-468 and 488-530); only the
origin of the transformation is used -/
def gridPoints (cs sn : ℚ → ℚ) (m : MeshData) (trsf : Option Trsf) : List Vec :=
  let o := match trsf with
    | none => Vec.zero
    | some t => t.origin
  if m.cyl then
    m.x3.flatMap (fun t => m.x2.flatMap (fun z => m.x1.map (fun r => ⟨r * cs t + o.x, r * sn t + o.y, z + o.z⟩)))
  else
    m.x3.flatMap (fun z => m.x2.flatMap (fun y => m.x1.map (fun x => ⟨x + o.x, y + o.y, z + o.z⟩)))

/-- an `Fmesh`: the mesh data (with the first angular bin split), the transformation, the points and the
arrays of the grid, the tally number and the comments (fmesh.py:232-272, 431-446) -/
structure FMesh where
  mesh : MeshData
  trsf : Option Trsf
  points : List Vec
  arrays : Arrays

/-- `Fmesh(mesh, label, trsf, binlabels)`. A rectangular mesh without transformation gives a rectilinear
grid, all others a structured one; both have these points. (fmesh.py:239-285) -/
def mkFmesh (cs sn : ℚ → ℚ) (m : MeshData) (trsf : Option Trsf) (labels : Option (Str × Str)) : Except PyErr FMesh :=
  let l := labels.getD columnLabels
  match splitTheta m with
  | .error e => .error e
  | .ok m => .ok { mesh := m, trsf := trsf, points := gridPoints cs sn m trsf, arrays := gridArrays m l }

/-- `create_filtered_mesh` (meshtal.py:46-78): the transformation is not passed on -/
def filteredMesh (cs sn : ℚ → ℚ) (junk : Data) (f : FMesh) (labels : Str × Str) (ebin tbin : Option ℤ) :
    Except PyErr FMesh :=
  match getEtbin junk f.mesh ebin tbin with
  | .error e => .error e
  | .ok m => mkFmesh cs sn m none (some labels)

/-- `collapse_grids` (meshtal.py:130-194) for meshes in the order of the dictionary, each with its two new
names. The result is the points and the arrays; a name used twice overwrites. Simplification: the new names of
the first mesh are not the old names of its other array (pyvista would then merge the two). -/
def collapseGrids (fs : List (FMesh × Str × Str)) : Except PyErr (List Vec × Dict Str (List ℚ)) :=
  match fs with
  | [] => .error .unboundLocal
  | (f, n) :: fs =>
    if (fs.all (fun g => sameMesh f.mesh g.1.mesh)) = false then .error .runtimeError
    else if ((f, n) :: fs).any (fun g => decide (g.1.arrays.map Prod.fst ≠ [columnLabels.1, columnLabels.2])) then
      .error .runtimeError
    else
      let arr := fun (g : FMesh) (l : Str) => (Dict.get? g.arrays l).getD []
      .ok (f.points, fs.foldl
        (fun d g => Dict.set (Dict.set d g.2.1 (arr g.1 columnLabels.1)) g.2.2 (arr g.1 columnLabels.2))
        (Dict.set (Dict.set [] n.1 (arr f columnLabels.1)) n.2 (arr f columnLabels.2)))

/-- the bins shown by `print_info` (fmesh.py:368-388) -/
def infoBins (m : MeshData) : List ℚ × List ℚ × List ℚ := (m.x1, m.x1, m.x1)

/-- the frame of `convert2tally` (fmesh.py:374-429): the column, the row labels, values and errors.
pandas refuses columns of different lengths. -/
def convert2tally (f : FMesh) : Except PyErr (Str × List ℚ × List ℚ × List ℚ) :=
  let m := f.mesh
  let frame := fun (col : Str) (idx vals errs : List ℚ) =>
    if idx.length = vals.length ∧ vals.length = errs.length then Except.ok (col, idx, vals, errs)
    else Except.error PyErr.valueError
  let fromGrid := fun (col : Str) (idx : Nat) (bins : List ℚ) =>
    match Dict.get? f.arrays columnLabels.1 with
    | none => Except.error PyErr.keyError
    | some v =>
      match Dict.get? f.arrays columnLabels.2 with
      | none => Except.error PyErr.keyError
      | some e => frame col bins.tail (v.take idx) (e.take idx)
  if m.nx1 = 1 ∧ m.nx2 = 1 ∧ 2 < m.ebin.data.length then
    if (m.cyl = true ∧ m.nx3 = 2) ∨ m.nx3 = 1 then
      frame "Energy".toList m.ebin.data.tail
        ((List.range (m.ne - 1)).map (fun e => (m.data [0, e, 0, 0, 0]).1))
        ((List.range (m.ne - 1)).map (fun e => (m.data [0, e, 0, 0, 0]).2))
    else .error .unboundLocal
  else if m.nx1 = 1 ∧ m.nx2 = 1 then fromGrid "Cor C".toList m.nx3 m.x3
  else if m.nx1 = 1 ∧ m.nx3 = 1 then fromGrid "Cor B".toList m.nx2 m.x2
  else if m.nx2 = 1 ∧ m.nx3 = 1 then fromGrid "Cor A".toList m.nx1 m.x1
  else if m.nx1 = 1 ∧ m.nx3 = 2 ∧ m.cyl = true then fromGrid "Cor B".toList m.nx2 m.x2
  else if m.nx2 = 1 ∧ m.nx3 = 2 ∧ m.cyl = true then fromGrid "Cor A".toList m.nx1 m.x1
  else .error .runtimeError

/-- a transformation card: is it one, how many numbers, displacement and matrix rows (`*TR` angles already
turned into cosines, `cosd` being that conversion) (numjuggler, fmesh.py:653-731) -/
structure TrCard where
  isTr : Bool
  nvalues : Nat
  star : Bool
  o : Vec
  rows : Vec × Vec × Vec

/-- determinant (numpy) -/
def det (r : Vec × Vec × Vec) : ℚ := r.1.dot (r.2.1.cross r.2.2)

/-- `np.linalg.inv(np.transpose(B))`: its rows are the cross products of the rows of `B` over the determinant (numpy, fmesh.py:653-731) -/
def invTranspose (r : Vec × Vec × Vec) : Vec × Vec × Vec :=
  let d := det r
  let s := fun (v : Vec) => (⟨v.x / d, v.y / d, v.z / d⟩ : Vec)
  (s (r.2.1.cross r.2.2), s (r.2.2.cross r.1), s (r.1.cross r.2.1))

/-- product with a matrix given by rows (numpy, fmesh.py:653-731) -/
def mulVec (r : Vec × Vec × Vec) (v : Vec) : Vec := ⟨r.1.dot v, r.2.1.dot v, r.2.2.dot v⟩

/-- `apply_transformation` (fmesh.py:652-731) on the points; `cosd` is `np.cos(np.radians(·))`. A singular
matrix leaves the inverse unassigned. -/
def applyTransformation (cosd : ℚ → ℚ) (tr : TrCard) (pts : List Vec) : Except PyErr (List Vec) :=
  if tr.isTr = false then .error .valueError
  else if tr.nvalues ≠ 4 ∧ tr.nvalues ≠ 13 then .error .valueError
  else if tr.nvalues = 13 then
    let c := fun (v : Vec) => if tr.star then (⟨cosd v.x, cosd v.y, cosd v.z⟩ : Vec) else v
    let b := (c tr.rows.1, c tr.rows.2.1, c tr.rows.2.2)
    if det b = 0 then .error .unboundLocal
    else .ok (pts.map (fun p => (mulVec (invTranspose b) p).add tr.o))
  else .ok (pts.map (fun p => p.add tr.o))

end F4Enix.Mesh
