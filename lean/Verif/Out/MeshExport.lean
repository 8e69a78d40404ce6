import Verif.Out.MeshFileProps
import Verif.Out.FmeshWriteProps
import Verif.Out.MeshtalGridProps
/-!
# From a meshtal file to a csv file

The tally read from the file (`MeshFile`), its grid (`Mesh`) and the export (`FmeshW`) together. pyvista keeps a grid of `n1 × n2 × n3` cells with the
cell `(c, b, a)` at place `(c * n2 + b) * n1 + a`, and takes as the centre of a cell the mean of its eight corners. vtk keeps coordinates and values as
floats of 32 or 64 bits; here they are exact.
-/
namespace F4Enix.MeshFile
open F4Enix F4Enix.Mesh

/-! ### Model -/

/-- a point as pyvista gives it (pyvista, fmesh.py:463-527) -/
def ptOf (v : Vec) : FmeshW.Pt := (v.x, v.y, v.z)

/-- the point `(c, b, a)` of a grid (vtk, fmesh.py:463-527) -/
def corner (f : FMesh) (c b a : ℕ) : Vec := f.points.getD ((c * (f.mesh.nx2 + 1) + b) * (f.mesh.nx1 + 1) + a) Vec.zero

/-- the mean of a coordinate over the corners of the cell `(c, b, a)` (vtk, fmesh.py:501-507) -/
def meanCorner (f : FMesh) (c b a : ℕ) (g : Vec → ℚ) : ℚ :=
  (g (corner f c b a) + g (corner f c b (a + 1)) + g (corner f c (b + 1) a) + g (corner f c (b + 1) (a + 1)) +
    g (corner f (c + 1) b a) + g (corner f (c + 1) b (a + 1)) + g (corner f (c + 1) (b + 1) a) + g (corner f (c + 1) (b + 1) (a + 1))) / 8

/-- the centre of the cell `(c, b, a)` (vtk, fmesh.py:501-507) -/
def cellCentre (f : FMesh) (c b a : ℕ) : FmeshW.Pt :=
  (meanCorner f c b a (fun v => v.x), meanCorner f c b a (fun v => v.y), meanCorner f c b a (fun v => v.z))

/-- `grid.cell_centers().points` (pyvista, fmesh.py:501-507) -/
def cellCentres (f : FMesh) : List FmeshW.Pt :=
  (loops [f.mesh.nx3, f.mesh.nx2, f.mesh.nx1]).map (fun i => cellCentre f (i.getD 0 0) (i.getD 1 0) (i.getD 2 0))

/-- the grid of a tally (fmesh.py:444-461, aux_meshtal_functions.py:460-546): `AddArray` puts an array in the place of one with its name. The
first array is the active one, so `array_names` has the order of the arrays. -/
def gridOf (f : FMesh) : FmeshW.Grid :=
  let cells := f.arrays.foldl (fun d (x : Str × List ℚ) => Dict.set d x.1 x.2) ([] : Dict Str (List ℚ))
  { points := f.points.map ptOf, centres := cellCentres f, cellData := cells, pointData := [], names := Dict.keys cells }

/-- the class of the grid (fmesh.py:444-461) -/
def kindOf (f : FMesh) : Str :=
  if f.mesh.cyl = false ∧ f.trsf.isNone then "RectilinearGrid".toList else "StructuredGrid".toList

/-- a tally with its number, as `write` uses it (fmesh.py:463-527) -/
def exported (n : ℕ) (f : FMesh) : FmeshW.Mesh := { tally := n, grid := gridOf f, kind := kindOf f }

/-! ### Specification -/

/-- a row of the csv file for a voxel: its point, then value and error for every time and energy, each within half a thousandth (specification) -/
structure VoxelRow (p : FmeshW.Pt) (nt ne : ℕ) (v : ℕ → ℕ → ℚ × ℚ) (row : List Str) : Prop where
  length : row.length = 3 + 2 * (nt * ne)
  x : ∃ w, row[0]? = some w ∧ FmeshW.Shows w p.1
  y : ∃ w, row[1]? = some w ∧ FmeshW.Shows w p.2.1
  z : ∃ w, row[2]? = some w ∧ FmeshW.Shows w p.2.2
  value : ∀ t e, t < nt → e < ne → ∃ w, row[3 + 2 * (t * ne + e)]? = some w ∧ FmeshW.Shows w (v t e).1
  error : ∀ t e, t < nt → e < ne → ∃ w, row[3 + (2 * (t * ne + e) + 1)]? = some w ∧ FmeshW.Shows w (v t e).2

/-! ### Arrays -/

theorem foldl_set_nodup (l : List (Str × List ℚ)) (d : Dict Str (List ℚ)) (h : (d.map Prod.fst ++ l.map Prod.fst).Nodup) :
    l.foldl (fun d (x : Str × List ℚ) => Dict.set d x.1 x.2) d = d ++ l := by
  induction l generalizing d with
  | nil => simp
  | cons x l ih =>
    have hx : x.1 ∉ d.map Prod.fst := by
      rw [List.map_cons, List.nodup_append] at h
      intro hm
      exact h.2.2 x.1 hm x.1 (by simp) rfl
    have hs : Dict.set d x.1 x.2 = d ++ [x] := by
      clear h ih
      induction d with
      | nil => rfl
      | cons y d ihd =>
        simp only [List.map_cons, List.mem_cons, not_or] at hx
        rw [Dict.set.eq_def]
        simp only
        rw [if_neg (fun e => hx.1 e.symm), ihd hx.2]
        rfl
    rw [List.foldl_cons, hs, ih]
    · simp
    · simpa using h

theorem cells_eq {f : FMesh} (ha : f.arrays = gridArrays f.mesh columnLabels) : (gridOf f).cellData = gridArrays f.mesh columnLabels := by
  show f.arrays.foldl (fun d (x : Str × List ℚ) => Dict.set d x.1 x.2) ([] : Dict Str (List ℚ)) = _
  rw [foldl_set_nodup _ _ (by rw [ha]; simpa using grid_names_nodup f.mesh columnLabels (by decide)), ha]
  rfl

theorem names_eq {f : FMesh} (ha : f.arrays = gridArrays f.mesh columnLabels) :
    (gridOf f).names = (gridArrays f.mesh columnLabels).map Prod.fst := by
  show Dict.keys (gridOf f).cellData = _
  rw [cells_eq ha]
  rfl

theorem loops_two_get {nt ne t e : ℕ} (ht : t < nt) (he : e < ne) : (loops [nt, ne])[t * ne + e]? = some [t, e] := by
  have h := loops_get (ns := [nt, ne]) (is := [t, e]) (.cons ht (.cons he .nil))
  have hr : rank [nt, ne] [t, e] = t * ne + e := by simp [rank]
  rwa [hr] at h

/-- the arrays of a bin stand at the places of the bin -/
theorem array_at {m : MeshData} {t e : ℕ} (ht : t < m.nt) (he : e < m.ne) :
    (gridArrays m columnLabels)[2 * (t * m.ne + e)]? = some (columnLabels.1 ++ suffix m.nt m.ne t e, ravel m t e Prod.fst) ∧
    (gridArrays m columnLabels)[2 * (t * m.ne + e) + 1]? = some (columnLabels.2 ++ suffix m.nt m.ne t e, ravel m t e Prod.snd) := by
  unfold gridArrays
  constructor
  · rw [show 2 * (t * m.ne + e) = (t * m.ne + e) * 2 + 0 by ring, flatMap_get _ _ 2 (by simp) _ 0 (by omega), loops_two_get ht he]
    simp only [Option.bind_some, List.getD_cons_zero, List.getD_cons_succ]
    rw [labels_exact columnLabels ht he]
    rfl
  · rw [show 2 * (t * m.ne + e) + 1 = (t * m.ne + e) * 2 + 1 by ring, flatMap_get _ _ 2 (by simp) _ 1 (by omega), loops_two_get ht he]
    simp only [Option.bind_some, List.getD_cons_zero, List.getD_cons_succ]
    rw [labels_exact columnLabels ht he]
    rfl

theorem arrays_length (m : MeshData) : (gridArrays m columnLabels).length = 2 * (m.nt * m.ne) := by
  unfold gridArrays
  rw [List.length_flatMap]
  have : ∀ l : List (List ℕ), (l.map (fun b => ([((((getLabels m.nt m.ne columnLabels).getD (b.getD 0 0) []).getD (b.getD 1 0) ([], [])).1, ravel m (b.getD 0 0) (b.getD 1 0) Prod.fst),
      ((((getLabels m.nt m.ne columnLabels).getD (b.getD 0 0) []).getD (b.getD 1 0) ([], [])).2, ravel m (b.getD 0 0) (b.getD 1 0) Prod.snd)] : Arrays).length)).sum = 2 * l.length := by
    intro l
    simp [mul_comm]
  rw [this, loops_length]
  simp [mul_comm]

theorem ravel_length (m : MeshData) (t e : ℕ) (j : ℚ × ℚ → ℚ) : (ravel m t e j).length = m.nx3 * (m.nx2 * m.nx1) := by
  unfold ravel
  rw [List.length_map, loops_length]
  simp

theorem centres_length (f : FMesh) : (cellCentres f).length = f.mesh.nx3 * (f.mesh.nx2 * f.mesh.nx1) := by
  unfold cellCentres
  rw [List.length_map, loops_length]
  simp

theorem centre_at {f : FMesh} {c b a : ℕ} (hc : c < f.mesh.nx3) (hb : b < f.mesh.nx2) (ha : a < f.mesh.nx1) :
    (cellCentres f)[(c * f.mesh.nx2 + b) * f.mesh.nx1 + a]? = some (cellCentre f c b a) := by
  unfold cellCentres
  have hi : InLoops [f.mesh.nx3, f.mesh.nx2, f.mesh.nx1] [c, b, a] := .cons hc (.cons hb (.cons ha .nil))
  have hr : rank [f.mesh.nx3, f.mesh.nx2, f.mesh.nx1] [c, b, a] = (c * f.mesh.nx2 + b) * f.mesh.nx1 + a := by
    simp only [rank, List.foldr_cons, List.foldr_nil]
    ring
  rw [← hr, List.getElem?_map, loops_get hi]
  rfl

theorem cellGrid {f : FMesh} (ha : f.arrays = gridArrays f.mesh columnLabels) (ht : 0 < f.mesh.nt) (he : 0 < f.mesh.ne) :
    FmeshW.CellGrid (gridOf f) := by
  refine ⟨⟨?_, ?_⟩, rfl, ?_⟩
  · intro n a h
    rw [cells_eq ha] at h
    obtain ⟨t, e, _, _, hx | hx⟩ := mem_gridArrays.1 (Dict.mem_of_get? h) <;>
    · simp only [Prod.mk.injEq] at hx
      rw [hx.2, ravel_length]
      exact (centres_length f).symm
  · intro n a h
    exact absurd h (by simp [gridOf])
  · rw [cells_eq ha]
    intro h
    have := arrays_length f.mesh
    rw [h] at this
    have h2 : 0 < f.mesh.nt * f.mesh.ne := Nat.mul_pos ht he
    simp at this
    omega

/-! ### Export -/

/-- the csv file of a tally: one row for each voxel, the first axis fastest -/
theorem export_csv {f : FMesh} (ha : f.arrays = gridArrays f.mesh columnLabels) (ht : 0 < f.mesh.nt) (he : 0 < f.mesh.ne) (vtk : FmeshW.Grid → Str)
    (n : ℕ) (files : Dict Str Str) :
    ∃ rows : List (List Str), FmeshW.write vtk (exported n f) none "csv".toList none files =
        (Dict.set files ("Tally_".toList ++ natStr n ++ "_csv.csv".toList) (rows.map (fun r => FmeshW.commas r ++ ['\r', '\n'])).flatten, none) ∧
      rows.length = f.mesh.nx3 * (f.mesh.nx2 * f.mesh.nx1) ∧ (∀ r ∈ rows, FmeshW.fieldsOf (FmeshW.commas r) = r) ∧
      ∀ c b a, c < f.mesh.nx3 → b < f.mesh.nx2 → a < f.mesh.nx1 → ∃ row, rows[(c * f.mesh.nx2 + b) * f.mesh.nx1 + a]? = some row ∧
        VoxelRow (cellCentre f c b a) f.mesh.nt f.mesh.ne (fun t e => f.mesh.data [t, e, c, b, a]) row := by
  have hg : FmeshW.CellGrid (exported n f).grid := cellGrid ha ht he
  have hw : Dict.WF (gridArrays f.mesh columnLabels) := grid_names_nodup f.mesh columnLabels (by decide)
  obtain ⟨rows, h1, h2, h3, h4⟩ := FmeshW.csv_exact_partial vtk (exported n f) none none files hg (by
    intro x hx
    change x ∈ Dict.keys (gridOf f).cellData at hx
    exact (Dict.has_iff _ _).2 hx)
  refine ⟨rows, ?_, ?_, h3, ?_⟩
  · rw [h1]
    simp [FmeshW.baseName, exported]
  · rw [h2]; exact centres_length f
  · intro c b a hc hb hA
    obtain ⟨row, r1, r2, rx, ry, rz, rv⟩ := h4 _ _ (centre_at hc hb hA)
    have hn : (Option.getD (none : Option (List Str)) (exported n f).grid.names) = (gridArrays f.mesh columnLabels).map Prod.fst := names_eq ha
    rw [hn] at r2 rv
    have hcell : ∀ {nm : Str} {k : ℕ} {arr : List ℚ}, (gridArrays f.mesh columnLabels)[k]? = some (nm, arr) →
        ∃ x w, arr[(c * f.mesh.nx2 + b) * f.mesh.nx1 + a]? = some x ∧ row[3 + k]? = some w ∧ FmeshW.Shows w x := by
      intro nm k arr hk
      obtain ⟨a', x, w, q1, q2, q3, q4⟩ := rv k nm (by rw [List.getElem?_map, hk]; rfl)
      have hga : (exported n f).grid.array nm = .ok arr := by
        unfold FmeshW.Grid.array
        have : Dict.get? (exported n f).grid.cellData nm = some arr := by
          show Dict.get? (gridOf f).cellData nm = some arr
          rw [cells_eq ha]
          exact Dict.get?_of_mem hw (List.mem_of_getElem? hk)
        rw [this]
      rw [hga] at q1
      cases q1
      exact ⟨x, w, q2, q3, q4⟩
    refine ⟨row, r1, ?_, rx, ry, rz, ?_, ?_⟩
    · rw [r2, List.length_map, arrays_length]
    · intro t e h1 h2
      obtain ⟨x, w, q1, q2, q3⟩ := hcell (array_at h1 h2).1
      rw [ravel_get _ hc hb hA] at q1
      cases q1
      exact ⟨w, q2, q3⟩
    · intro t e h1 h2
      obtain ⟨x, w, q1, q2, q3⟩ := hcell (array_at h1 h2).2
      rw [ravel_get _ hc hb hA] at q1
      cases q1
      exact ⟨w, q2, q3⟩

end F4Enix.MeshFile
