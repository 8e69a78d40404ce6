import Verif.WW.State
import Verif.WW.Parser
import Verif.Out.MeshtalGrid
/-!
# Model of weight windows made from mesh tallies: `read_meshtally_file` and its helpers
(`src/f4enix/input/ww_gvr/ww_parser.py:186-286`), `create_gvr_from_meshtally_file` (`weight_window.py:76-112`)

A file is the dictionary of its tallies, each with the result of reading it (`Meshtal.readMesh`, `MeshtalParser.get_FMesh`, modelled
in `Out/Meshtal.lean` and `Out/MeshtalGrid.lean`).
-/
namespace F4Enix.WW
open F4Enix F4Enix.Mesh

/-- what `read_meshtally_file` uses of an `Fmesh`: the mesh (with the first angular bin split) and, if there is a transformation, the
attributes `origin`, `axis`, `vec` of it (aux_meshtal_functions.py:566-573, 629-633) -/
structure GTally where
  mesh : MeshData
  trsf : Option (Vec × Vec × Option Vec)

/-- a tally number as passed by the caller (ww_parser.py:186-208) -/
inductive PyNum where
  | int (n : ℤ)
  | float (q : ℚ)

/-- `PyNum.val` (ww_parser.py:186-208) -/
def PyNum.val : PyNum → ℚ
  | .int n => n
  | .float q => q

/-- `meshtal.mesh_ids[0]` (meshtal.py:241-244): the smallest number -/
def firstId (f : Dict ℤ (Except PyErr GTally)) : Option ℤ :=
  match Dict.keys f with
  | [] => none
  | k :: ks => some (ks.foldl min k)

/-- `readMesh(mesh=n)` and `mesh[n]` for an `int` (meshtal.py:80-116, mesh_parser.py:70-72) -/
def getTally (f : Dict ℤ (Except PyErr GTally)) (n : ℤ) : Except PyErr GTally :=
  match Dict.get? f n with
  | none => .error .keyError
  | some r => r

/-- the choice of the tally (ww_parser.py:187-194). `readMesh` does nothing for a number that is no `int`, so that `mesh[tally_id]`
raises `KeyError`. -/
def readTally (f : Dict ℤ (Except PyErr GTally)) (id : PyNum) : Except PyErr GTally :=
  if id.val = 0 then
    match firstId f with
    | none => .error .indexError
    | some n => getTally f n
  else
    match id with
    | .int n => getTally f n
    | .float _ => .error .keyError

/-- `_read_header_from_meshtally_file` (ww_parser.py:211-269) -/
def gvrHeader (t : GTally) : Except PyErr Header :=
  if 1 < (t.mesh.ebin.data.length : ℤ) - 1 then .error .valueError
  else
    let n1 : ℤ := (t.mesh.x1.length : ℤ) - 1
    let n2 : ℤ := (t.mesh.x2.length : ℤ) - 1
    let n3 : ℤ := (t.mesh.x3.length : ℤ) - 1
    let h := fun (nr : ℤ) (o : List ℚ) (d : Option (List ℚ × List ℚ)) =>
      ({ if_ := 1, iv := 1, ni := 1, nr := nr, probid := "Generated by f4enix_ww".toList, ne := [1], nfx := n1, nfy := n2, nfz := n3,
         origin := o, ncx := n1, ncy := n2, ncz := n3, directors := d } : Header)
    let origin : List ℚ := match t.trsf with
      | some (o, _, _) => if o.x ≠ 0 ∨ o.y ≠ 0 ∨ o.z ≠ 0 then [o.z, o.y, o.x] else [0, 0, 0]
      | none => [0, 0, 0]
    if t.mesh.cyl = false then .ok (h 10 [0, 0, 0] none)
    else
      match t.trsf with
      | none => .error .attributeError
      | some (_, a, v) =>
        .ok (h 16 origin (some ([a.x, a.y, a.z],
          match v with
          | some v => [v.x, v.y, v.z]
          | none => if a.x ≠ 1 then [1, 0, 0] else [0, 1, 0])))

/-- `np.ones(n)` (numpy, ww_parser.py:271-284) -/
def onesOf (n : Nat) : List ℤ := List.replicate n 1

/-- `mesh.data[0, 0, :, :, :, 0].flatten()` (ww_parser.py:201) -/
def fluxValues (m : MeshData) : List ℚ :=
  (Arr3.tab m.nx3 m.nx2 m.nx1 (fun k j i => (m.data [0, 0, k, j, i]).1)).data

/-- `read_meshtally_file` behind the choice of the tally (ww_parser.py:196-208, 272-286) -/
def gvrParse (t : GTally) : Except PyErr ParseResult :=
  match gvrHeader t with
  | .error e => .error e
  | .ok h =>
    match compose t.mesh.x1 (onesOf t.mesh.nx1) with
    | .error e => .error e
    | .ok bi =>
      match compose t.mesh.x2 (onesOf t.mesh.nx2) with
      | .error e => .error e
      | .ok bj =>
        match compose t.mesh.x3 (onesOf t.mesh.nx3) with
        | .error e => .error e
        | .ok bk => .ok { header := h, b2i := bi, b2j := bj, b2k := bk, energies := [[100]], values := [fluxValues t.mesh] }

/-- the vectors of the geometry (`_create_geometry`, weight_window.py:114-117; `Geometry.vectors`, geometry.py:151-153) -/
def geomVector (b2 : List ℚ) : Except PyErr (List ℚ) :=
  match decompose b2 with
  | .error e => .error e
  | .ok (c, f) => build1d c f

/-- `create_gvr_from_meshtally_file` (weight_window.py:76-112) -/
def gvrFromFile (pw : ℚ → ℚ → ℚ) (f : Dict ℤ (Except PyErr GTally)) (id : PyNum) (r soft : ℚ) : Except PyErr (Header × Window) :=
  match readTally f id with
  | .error e => .error e
  | .ok t =>
    match gvrParse t with
    | .error e => .error e
    | .ok p =>
      match nested p.header.ni p.header.nfz.toNat p.header.nfy.toNat p.header.nfx.toNat p.energies p.values with
      | .error e => .error e
      | .ok v =>
        match createGvr pw (decide (p.header.directors ≠ none)) ((Dict.get? v .neutron).getD []) r soft with
        | .error e => .error e
        | .ok w => .ok (p.header, w)

end F4Enix.WW
