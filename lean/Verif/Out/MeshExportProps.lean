import Verif.Out.MeshExport
import Verif.Out.MeshFileEx
/-!
# What the csv file of a tally of a meshtal file shows

Rectangular meshes: the centre and the values of every voxel of the file. Cylindrical meshes: the point of a row is the mean of the corners of
the voxel, which is nearer to the axis than the voxel when the angular bin is wide.
-/
namespace F4Enix.MeshFile
open F4Enix F4Enix.Mesh

/-- the boundaries of bin `i` of an axis (specification) -/
def BinOf (l : List ℚ) (i : ℕ) (lo hi : ℚ) : Prop := l[i]? = some lo ∧ l[i + 1]? = some hi

theorem bin_exists {l : List ℚ} {i : ℕ} (h : i < l.length - 1) : ∃ lo hi, BinOf l i lo hi :=
  ⟨l[i]'(by omega), l[i + 1]'(by omega), List.getElem?_eq_getElem _, List.getElem?_eq_getElem _⟩

theorem BinOf.pos {l : List ℚ} {i : ℕ} {lo hi : ℚ} (h : BinOf l i lo hi) : l.length = l.length - 1 + 1 := by
  have := (List.getElem?_eq_some_iff.1 h.1).1
  omega

/-! ### Centres -/

theorem corner_of {f : FMesh} {P : ℚ → ℚ → ℚ → Vec} {x y z : ℚ} {c b a : ℕ} (h1 : f.mesh.x1.length = f.mesh.nx1 + 1) (h2 : f.mesh.x2.length = f.mesh.nx2 + 1)
    (h : f.points[(c * f.mesh.x2.length + b) * f.mesh.x1.length + a]? = some (P x y z)) : corner f c b a = P x y z := by
  unfold corner
  rw [List.getD_eq_getElem?_getD, ← h1, ← h2, h]
  rfl

/-- the centre of a voxel of a rectangular mesh is the middle of its boundaries -/
theorem rect_centre {cs sn : ℚ → ℚ} {f : FMesh} {tr : Option Trsf} (hp : f.points = gridPoints cs sn f.mesh tr) (hc : f.mesh.cyl = false) {c b a : ℕ}
    {x0 x1 y0 y1 z0 z1 : ℚ} (hx : BinOf f.mesh.x1 a x0 x1) (hy : BinOf f.mesh.x2 b y0 y1) (hz : BinOf f.mesh.x3 c z0 z1) :
    cellCentre f c b a = ((x0 + x1) / 2 + (originOf tr).x, (y0 + y1) / 2 + (originOf tr).y, (z0 + z1) / 2 + (originOf tr).z) := by
  have key : ∀ {c b a : ℕ} {x y z : ℚ}, f.mesh.x1[a]? = some x → f.mesh.x2[b]? = some y → f.mesh.x3[c]? = some z →
      corner f c b a = (⟨x, y, z⟩ : Vec).add (originOf tr) := by
    intro c b a x y z h1 h2 h3
    exact corner_of (P := fun x y z => (⟨x, y, z⟩ : Vec).add (originOf tr)) (x := x) (y := y) (z := z) hx.pos hy.pos
      (by rw [hp]; exact rect_point cs sn tr hc h1 h2 h3)
  unfold cellCentre meanCorner
  simp only [key hx.1 hy.1 hz.1, key hx.2 hy.1 hz.1, key hx.1 hy.2 hz.1, key hx.2 hy.2 hz.1, key hx.1 hy.1 hz.2, key hx.2 hy.1 hz.2,
    key hx.1 hy.2 hz.2, key hx.2 hy.2 hz.2, Vec.add, Prod.mk.injEq]
  refine ⟨?_, ?_, ?_⟩ <;> ring

/-- the centre of a voxel of a cylindrical mesh -/
theorem cyl_centre {cs sn : ℚ → ℚ} {f : FMesh} {tr : Option Trsf} (hp : f.points = gridPoints cs sn f.mesh tr) (hc : f.mesh.cyl = true) {c b a : ℕ}
    {r0 r1 z0 z1 t0 t1 : ℚ} (hr : BinOf f.mesh.x1 a r0 r1) (hz : BinOf f.mesh.x2 b z0 z1) (ht : BinOf f.mesh.x3 c t0 t1) :
    cellCentre f c b a = ((r0 + r1) / 2 * ((cs t0 + cs t1) / 2) + (originOf tr).x, (r0 + r1) / 2 * ((sn t0 + sn t1) / 2) + (originOf tr).y,
      (z0 + z1) / 2 + (originOf tr).z) := by
  have key : ∀ {c b a : ℕ} {r z t : ℚ}, f.mesh.x1[a]? = some r → f.mesh.x2[b]? = some z → f.mesh.x3[c]? = some t →
      corner f c b a = ⟨r * cs t + (originOf tr).x, r * sn t + (originOf tr).y, z + (originOf tr).z⟩ := by
    intro c b a r z t h1 h2 h3
    exact corner_of (P := fun r z t => ⟨r * cs t + (originOf tr).x, r * sn t + (originOf tr).y, z + (originOf tr).z⟩) (x := r) (y := z) (z := t) hr.pos hz.pos
      (by rw [hp]; exact cyl_point cs sn tr hc h1 h2 h3)
  unfold cellCentre meanCorner
  simp only [key hr.1 hz.1 ht.1, key hr.2 hz.1 ht.1, key hr.1 hz.2 ht.1, key hr.2 hz.2 ht.1, key hr.1 hz.1 ht.2, key hr.2 hz.1 ht.2,
    key hr.1 hz.2 ht.2, key hr.2 hz.2 ht.2, Prod.mk.injEq]
  refine ⟨?_, ?_, ?_⟩ <;> ring

theorem mkFmesh_arrays {cs sn : ℚ → ℚ} {m : MeshData} {p : Option Trsf} {f : FMesh} (h : mkFmesh cs sn m p none = .ok f) :
    f.arrays = gridArrays f.mesh columnLabels := by
  unfold Mesh.mkFmesh at h
  cases hs : splitTheta m with
  | error e => rw [hs] at h; simp at h
  | ok m' => rw [hs] at h; simp only [Except.ok.injEq] at h; rw [← h]; rfl

/-! ### Rectangular meshes -/

/-- the text of the rows of a csv file (specification) -/
def csvText (rows : List (List Str)) : Str := (rows.map (fun r => FmeshW.commas r ++ ['\r', '\n'])).flatten

/-- **C196.** Opening a meshtal file and exporting a rectangular tally of it to csv: whatever tallies precede and follow, the file written has one
line for each voxel, the first axis fastest, with the middle of the boundaries of the voxel and then value and error of every time and energy bin, as
the meshtal file shows them, each within half a thousandth. Other files are as before. -/
theorem file_to_csv_rect (cs sn : ℚ → ℚ) {num : ParseNum} (junk : Data) {pre post : List (Nat × TallyText)} {n : Nat} {t : TallyText} {file : List Str}
    (h : IsFile (pre ++ (n, t) :: post) file) (hn : ∀ x ∈ post, x.1 ≠ n) {b : Bounds} (hb : ShowsBounds num b t.bins) (hu : Usable b)
    {v : Nat → Nat → Nat → Nat → Nat → ℚ × ℚ} (hv : ShowsValues num b v t.data) (hc : b.cyl = false) (hnt : 0 < b.nt) (hne : 0 < b.ne)
    (vtk : FmeshW.Grid → Str) (files : Dict Str Str) :
    ∃ d r rows, scan .outside file [] = .ok d ∧ getFMesh cs sn num junk d (natStr n) = .ok r ∧
      FmeshW.write vtk (exported n r.fm) none "csv".toList none files =
        (Dict.set files ("Tally_".toList ++ natStr n ++ "_csv.csv".toList) (csvText rows), none) ∧
      rows.length = b.n3 * (b.n2 * b.n1) ∧ (∀ r ∈ rows, FmeshW.fieldsOf (FmeshW.commas r) = r) ∧
      ∀ k3 k2 k1 z0 z1 y0 y1 x0 x1, BinOf b.x3 k3 z0 z1 → BinOf b.x2 k2 y0 y1 → BinOf b.x1 k1 x0 x1 →
        ∃ row, rows[(k3 * b.n2 + k2) * b.n1 + k1]? = some row ∧
          VoxelRow ((x0 + x1) / 2, (y0 + y1) / 2, (z0 + z1) / 2) b.nt b.ne (fun t e => v t e k3 k2 k1) row := by
  obtain ⟨d, r, h1, h2, h3⟩ := tally_exact cs sn junk h hn hb hu hv
  obtain ⟨q0, q1, q2, q3, q4, q5, q6⟩ := tally_rect h3 hc
  obtain ⟨p1, -⟩ := tally_points h3
  have ha : r.fm.arrays = gridArrays r.fm.mesh columnLabels := mkFmesh_arrays h3.mesh.choose_spec.1
  have hpl : b.place = none := by
    obtain ⟨pl, l1, l2, l3, ex, _, _, _, _, hs, _⟩ := hb
    rw [hc] at hs
    generalize b.place = q at hs ⊢
    cases hs
    rfl
  have ent : r.fm.mesh.nt = b.nt := by unfold MeshData.nt Bounds.nt; rw [q5]
  have ene : r.fm.mesh.ne = b.ne := by unfold MeshData.ne Bounds.ne; rw [q4]
  have e1 : r.fm.mesh.nx1 = b.n1 := by unfold MeshData.nx1 Bounds.n1; rw [q1]
  have e2 : r.fm.mesh.nx2 = b.n2 := by unfold MeshData.nx2 Bounds.n2; rw [q2]
  have e3 : r.fm.mesh.nx3 = b.n3 := by unfold MeshData.nx3 Bounds.n3; rw [q3]
  obtain ⟨rows, w1, w2, w3, w4⟩ := export_csv ha (by omega) (by omega) vtk n files
  rw [ent, ene, e1, e2, e3] at w4
  rw [e1, e2, e3] at w2
  refine ⟨d, r, rows, h1, h2, w1, w2, w3, ?_⟩
  intro k3 k2 k1 z0 z1 y0 y1 x0 x1 hz hy hx
  have l3 : k3 < b.n3 := by have := (List.getElem?_eq_some_iff.1 hz.2).1; unfold Bounds.n3; omega
  have l2 : k2 < b.n2 := by have := (List.getElem?_eq_some_iff.1 hy.2).1; unfold Bounds.n2; omega
  have l1 : k1 < b.n1 := by have := (List.getElem?_eq_some_iff.1 hx.2).1; unfold Bounds.n1; omega
  obtain ⟨row, r1, r2⟩ := w4 k3 k2 k1 l3 l2 l1
  have hcen := rect_centre p1 q0 (q1 ▸ hx) (q2 ▸ hy) (q3 ▸ hz)
  rw [hpl] at hcen
  simp only [Option.map_none, originOf, Vec.zero, add_zero] at hcen
  rw [hcen] at r2
  refine ⟨row, r1, r2.length, r2.x, r2.y, r2.z, ?_, ?_⟩
  · intro t e ht he
    have := r2.value t e ht he
    rwa [q6 t e k3 k2 k1 ht he l3 l2 l1] at this
  · intro t e ht he
    have := r2.error t e ht he
    rwa [q6 t e k3 k2 k1 ht he l3 l2 l1] at this

/-- **C197 (rectangular meshes).** The point of a voxel is between its boundaries. -/
theorem rect_between {cs sn : ℚ → ℚ} {f : FMesh} {tr : Option Trsf} (hp : f.points = gridPoints cs sn f.mesh tr) (hc : f.mesh.cyl = false) {c b a : ℕ}
    {x0 x1 y0 y1 z0 z1 : ℚ} (hx : BinOf f.mesh.x1 a x0 x1) (hy : BinOf f.mesh.x2 b y0 y1) (hz : BinOf f.mesh.x3 c z0 z1) (h1 : x0 < x1) (h2 : y0 < y1)
    (h3 : z0 < z1) : ∃ p : Vec, (cellCentre f c b a) = (p.x + (originOf tr).x, p.y + (originOf tr).y, p.z + (originOf tr).z) ∧
      (x0 < p.x ∧ p.x < x1) ∧ (y0 < p.y ∧ p.y < y1) ∧ (z0 < p.z ∧ p.z < z1) :=
  ⟨⟨(x0 + x1) / 2, (y0 + y1) / 2, (z0 + z1) / 2⟩, rect_centre hp hc hx hy hz, ⟨by simp only; linarith, by simp only; linarith⟩,
    ⟨by simp only; linarith, by simp only; linarith⟩, ⟨by simp only; linarith, by simp only; linarith⟩⟩

/-! ### Cylindrical meshes -/

/-- squared distance of a point from the line through `o` along z (specification) -/
def axisDist2 (o : Vec) (p : FmeshW.Pt) : ℚ := (p.1 - o.x) ^ 2 + (p.2.1 - o.y) ^ 2

/-- **C197.** The distance from the axis of the point of a voxel of a cylindrical mesh: the mean radius times the cosine of half the angle of its bin (the
square of the latter is `(1 + D) / 2`, with `D` the cosine of the angle). -/
theorem cyl_distance {cs sn : ℚ → ℚ} {f : FMesh} {tr : Option Trsf} (hp : f.points = gridPoints cs sn f.mesh tr) (hc : f.mesh.cyl = true) {c b a : ℕ}
    {r0 r1 z0 z1 t0 t1 D : ℚ} (hr : BinOf f.mesh.x1 a r0 r1) (hz : BinOf f.mesh.x2 b z0 z1) (ht : BinOf f.mesh.x3 c t0 t1)
    (u0 : cs t0 ^ 2 + sn t0 ^ 2 = 1) (u1 : cs t1 ^ 2 + sn t1 ^ 2 = 1) (hD : cs t0 * cs t1 + sn t0 * sn t1 = D) :
    axisDist2 (originOf tr) (cellCentre f c b a) = ((r0 + r1) / 2) ^ 2 * ((1 + D) / 2) := by
  rw [cyl_centre hp hc hr hz ht, ← hD]
  unfold axisDist2
  simp only
  have : ((r0 + r1) / 2 * ((cs t0 + cs t1) / 2) + (originOf tr).x - (originOf tr).x) ^ 2 + ((r0 + r1) / 2 * ((sn t0 + sn t1) / 2) + (originOf tr).y - (originOf tr).y) ^ 2 =
      ((r0 + r1) / 2) ^ 2 * (((cs t0 ^ 2 + sn t0 ^ 2) + (cs t1 ^ 2 + sn t1 ^ 2) + 2 * (cs t0 * cs t1 + sn t0 * sn t1)) / 4) := by ring
  rw [this, u0, u1]
  ring

/-- **C197 (partial).** The point of the row is between the radii of its voxel exactly when the inner radius is not above the mean radius times the cosine of
half the angle. -/
theorem cyl_between_partial {cs sn : ℚ → ℚ} {f : FMesh} {tr : Option Trsf} (hp : f.points = gridPoints cs sn f.mesh tr) (hc : f.mesh.cyl = true) {c b a : ℕ}
    {r0 r1 z0 z1 t0 t1 D : ℚ} (hr : BinOf f.mesh.x1 a r0 r1) (hz : BinOf f.mesh.x2 b z0 z1) (ht : BinOf f.mesh.x3 c t0 t1)
    (u0 : cs t0 ^ 2 + sn t0 ^ 2 = 1) (u1 : cs t1 ^ 2 + sn t1 ^ 2 = 1) (hD : cs t0 * cs t1 + sn t0 * sn t1 = D) (h0 : 0 ≤ r0) (h1 : r0 ≤ r1) :
    (r0 ^ 2 ≤ axisDist2 (originOf tr) (cellCentre f c b a) ∧ axisDist2 (originOf tr) (cellCentre f c b a) ≤ r1 ^ 2) ↔
      r0 ^ 2 ≤ ((r0 + r1) / 2) ^ 2 * ((1 + D) / 2) := by
  rw [cyl_distance hp hc hr hz ht u0 u1 hD]
  refine ⟨fun h => h.1, fun h => ⟨h, ?_⟩⟩
  have hD1 : D ≤ 1 := by nlinarith [sq_nonneg (cs t0 - cs t1), sq_nonneg (sn t0 - sn t1)]
  have e1 : ((r0 + r1) / 2) ^ 2 * ((1 + D) / 2) ≤ ((r0 + r1) / 2) ^ 2 * 1 := mul_le_mul_of_nonneg_left (by linarith) (sq_nonneg _)
  have e2 : ((r0 + r1) / 2) ^ 2 ≤ r1 ^ 2 := pow_le_pow_left₀ (by linarith) (by linarith) 2
  linarith

/-- the height of the point is the middle of the boundaries -/
theorem cyl_height {cs sn : ℚ → ℚ} {f : FMesh} {tr : Option Trsf} (hp : f.points = gridPoints cs sn f.mesh tr) (hc : f.mesh.cyl = true) {c b a : ℕ}
    {r0 r1 z0 z1 t0 t1 : ℚ} (hr : BinOf f.mesh.x1 a r0 r1) (hz : BinOf f.mesh.x2 b z0 z1) (ht : BinOf f.mesh.x3 c t0 t1) :
    (cellCentre f c b a).2.2 = (z0 + z1) / 2 + (originOf tr).z := by
  rw [cyl_centre hp hc hr hz ht]

/-- cosine and sine of `2πt` after half a turn and after a whole one (specification) -/
structure Turns (cs sn : ℚ → ℚ) : Prop where
  half : ∀ t, cs (t + 1 / 2) = -cs t ∧ sn (t + 1 / 2) = -sn t

/-- **C197 fails**: opening a meshtal file and exporting a cylindrical tally with a single angular bin, as for every mesh in radius and height, gives a csv
file in which the points of all voxels lie on the axis, whatever their radii: the radius of a value cannot be told from the file. Each voxel has two rows, one
for each half of the turn. -/
theorem rz_on_axis (cs sn : ℚ → ℚ) (hT : Turns cs sn) {num : ParseNum} (junk : Data) {pre post : List (Nat × TallyText)} {n : Nat} {t : TallyText} {file : List Str}
    (h : IsFile (pre ++ (n, t) :: post) file) (hn : ∀ x ∈ post, x.1 ≠ n) {b : Bounds} (hb : ShowsBounds num b t.bins) (hu : Usable b)
    {v : Nat → Nat → Nat → Nat → Nat → ℚ × ℚ} (hv : ShowsValues num b v t.data) (hc : b.cyl = true) (h3 : b.x3 = [0, 1]) (hnt : 0 < b.nt) (hne : 0 < b.ne)
    (vtk : FmeshW.Grid → Str) (files : Dict Str Str) :
    ∃ d r rows, scan .outside file [] = .ok d ∧ getFMesh cs sn num junk d (natStr n) = .ok r ∧
      FmeshW.write vtk (exported n r.fm) none "csv".toList none files =
        (Dict.set files ("Tally_".toList ++ natStr n ++ "_csv.csv".toList) (csvText rows), none) ∧
      rows.length = 2 * (b.n2 * b.n1) ∧ (∀ r ∈ rows, FmeshW.fieldsOf (FmeshW.commas r) = r) ∧
      ∀ k3 k2 k1 z0 z1 r0 r1, k3 < 2 → BinOf b.x2 k2 z0 z1 → BinOf b.x1 k1 r0 r1 →
        ∃ row, rows[(k3 * b.n2 + k2) * b.n1 + k1]? = some row ∧
          VoxelRow ((originOf (b.place.map (·.trsf))).x, (originOf (b.place.map (·.trsf))).y, (z0 + z1) / 2 + (originOf (b.place.map (·.trsf))).z)
            b.nt b.ne (fun t e => v t e 0 k2 k1) row := by
  obtain ⟨d, r, h1, h2, hr⟩ := tally_exact cs sn junk h hn hb hu hv
  obtain ⟨q0, q1, q2, q4, q5, -, q6⟩ := tally_cyl hr hc h3
  obtain ⟨q3, q6⟩ := q6 (by norm_num)
  obtain ⟨p1, -⟩ := tally_points hr
  have ha : r.fm.arrays = gridArrays r.fm.mesh columnLabels := mkFmesh_arrays hr.mesh.choose_spec.1
  have ent : r.fm.mesh.nt = b.nt := by unfold MeshData.nt Bounds.nt; rw [q5]
  have ene : r.fm.mesh.ne = b.ne := by unfold MeshData.ne Bounds.ne; rw [q4]
  have e1 : r.fm.mesh.nx1 = b.n1 := by unfold MeshData.nx1 Bounds.n1; rw [q1]
  have e2 : r.fm.mesh.nx2 = b.n2 := by unfold MeshData.nx2 Bounds.n2; rw [q2]
  have e3 : r.fm.mesh.nx3 = 2 := by unfold MeshData.nx3; rw [q3]; rfl
  obtain ⟨rows, w1, w2, w3, w4⟩ := export_csv ha (by omega) (by omega) vtk n files
  rw [ent, ene, e1, e2, e3] at w4
  rw [e1, e2, e3] at w2
  refine ⟨d, r, rows, h1, h2, w1, w2, w3, ?_⟩
  intro k3 k2 k1 z0 z1 r0 r1 l3 hz hr'
  have l2 : k2 < b.n2 := by have := (List.getElem?_eq_some_iff.1 hz.2).1; unfold Bounds.n2; omega
  have l1 : k1 < b.n1 := by have := (List.getElem?_eq_some_iff.1 hr'.2).1; unfold Bounds.n1; omega
  obtain ⟨row, s1, s2⟩ := w4 k3 k2 k1 l3 l2 l1
  have hh0 := hT.half 0
  have hh1 := hT.half (1 / 2)
  rw [zero_add] at hh0
  rw [show (1 / 2 : ℚ) + 1 / 2 = 1 by norm_num] at hh1
  have hcen : cellCentre r.fm k3 k2 k1 = ((originOf (b.place.map (·.trsf))).x, (originOf (b.place.map (·.trsf))).y, (z0 + z1) / 2 + (originOf (b.place.map (·.trsf))).z) := by
    have h01 : k3 = 0 ∨ k3 = 1 := by omega
    rcases h01 with rfl | rfl
    · rw [cyl_centre p1 q0 (q1 ▸ hr') (q2 ▸ hz) (t0 := 0) (t1 := 1 / 2) ⟨by rw [q3]; rfl, by rw [q3]; rfl⟩, hh0.1, hh0.2]
      simp
    · rw [cyl_centre p1 q0 (q1 ▸ hr') (q2 ▸ hz) (t0 := 1 / 2) (t1 := 1) ⟨by rw [q3]; rfl, by rw [q3]; rfl⟩, hh1.1, hh1.2]
      simp
  rw [hcen] at s2
  have l3' : k3 < b.n3 + 1 := by unfold Bounds.n3; rw [h3]; simpa using l3
  have k0 : k3 - 1 = 0 := by omega
  refine ⟨row, s1, s2.length, s2.x, s2.y, s2.z, ?_, ?_⟩
  · intro t e ht he
    have := s2.value t e ht he
    rwa [q6 t e k3 k2 k1 ht he l3' l2 l1, k0] at this
  · intro t e ht he
    have := s2.error t e ht he
    rwa [q6 t e k3 k2 k1 ht he l3' l2 l1, k0] at this

/-! ### Concrete files -/

/-- a file with two rectangular tallies meets all the hypotheses of `file_to_csv_rect` -/
example (cs sn : ℚ → ℚ) (junk : Data) (vtk : FmeshW.Grid → Str) : ∃ d r rows row,
    scan .outside (fileOf ["mcnp", ""] ++ allLines [(14, tally14), (4, tally4')]) [] = .ok d ∧ getFMesh cs sn digit junk d (natStr 4) = .ok r ∧
    FmeshW.write vtk (exported 4 r.fm) none "csv".toList none [] = ([("Tally_4_csv.csv".toList, csvText rows)], none) ∧ rows.length = 2 ∧
    rows[1]? = some row ∧ VoxelRow (3 / 2, 5 / 2, 3 / 2) 1 1 (fun _ _ => (8, 2)) row := by
  obtain ⟨d, r, rows, h1, h2, h3, h4, -, h5⟩ := file_to_csv_rect cs sn (num := digit) junk (pre := [(14, tally14)]) (post := []) (n := 4) (t := tally4')
    (file := fileOf ["mcnp", ""] ++ allLines [(14, tally14), (4, tally4')])
    ⟨by
      intro x hx
      simp only [List.cons_append, List.nil_append, List.mem_cons, List.not_mem_nil, or_false] at hx
      rcases hx with rfl | rfl
      · exact isTally14
      · exact isTally4', _, rfl, by decide +kernel⟩ (by simp) (b := theBounds) showsBounds4 usableBounds showsValues4 rfl (by decide) (by decide) vtk []
  obtain ⟨row, r1, r2⟩ := h5 0 0 1 0 3 0 5 1 2 ⟨rfl, rfl⟩ ⟨rfl, rfl⟩ ⟨rfl, rfl⟩
  have e : (((1 : ℚ) + 2) / 2, ((0 : ℚ) + 5) / 2, ((0 : ℚ) + 3) / 2) = (3 / 2, 5 / 2, 3 / 2) := by norm_num
  rw [e] at r2
  exact ⟨d, r, rows, row, h1, h2, h3, h4, r1, r2⟩

/-- the text of the csv file of that tally -/
example : (getFMesh id id digit (fun _ => (0, 0)) (catalog [(4, tally4')] []) "4".toList).toOption.map
    (fun r => FmeshW.write (fun _ => []) (exported 4 r.fm) none "csv".toList none []) =
  some ([("Tally_4_csv.csv".toList, "0.500, 2.500, 1.500, 7.000, 1.000\r\n1.500, 2.500, 1.500, 8.000, 2.000\r\n".toList)], none) := by decide +kernel

/-- tally 24: a mesh in radius (0, 1, 2) and height, at the point (1, 2, 3) (example) -/
def tallyRz : TallyText where
  first := ln " Mesh Tally Number        24"
  comment := []
  kind := ln " This is a neutron mesh tally."
  more := []
  gap := ln ""
  title := ln " Tally bin boundaries:"
  bins := fileOf ["   origin at   1  2  3 axis in  0 0 1 direction, VEC direction  1 0 0", "    R direction:   0  1  2", "    Z direction:   0  5",
    "    Theta direction (revolutions):   0  1", "    Energy bin boundaries:  0 9"]
  gap2 := ln "  "
  data := fileOf ["   R  Z  Theta  Result  Rel Error", " 0 2 1  7 1", " 1 2 1  8 2"]

theorem isTallyRz : IsTally 24 tallyRz where
  first := ⟨8, by decide, by decide⟩
  comment := by decide +kernel
  kind := by decide +kernel
  more := by decide +kernel
  gap := ⟨0, by decide⟩
  title := by decide +kernel
  bins := by decide +kernel
  gap2 := ⟨2, by decide⟩
  data := by decide +kernel

/-- the place of that tally (example) -/
def placeRz : Trsf := ⟨⟨1, 2, 3⟩, ⟨1, 0, 0⟩, (⟨0, 0, 1⟩ : Vec).cross ⟨1, 0, 0⟩, ⟨0, 0, 1⟩⟩

/-- the bins of that tally (example) -/
def boundsRz : Bounds :=
  ⟨true, (some placeRz).map (fun t => ⟨t, ⟨0, 0, 1⟩, some ⟨1, 0, 0⟩⟩), [0, 1, 2], [0, 5], [0, 1], { data := [0, 9], tag := .erg }, noTime⟩

theorem showsBoundsRz : ShowsBounds digit boundsRz tallyRz.bins :=
  ⟨[ln "   origin at   1  2  3 axis in  0 0 1 direction, VEC direction  1 0 0"], ln "    R direction:   0  1  2", ln "    Z direction:   0  5",
    ln "    Theta direction (revolutions):   0  1", [ln "    Energy bin boundaries:  0 9"],
    "    R direction".toList, "    Z direction".toList, "    Theta direction (revolutions)".toList, rfl,
    .cyl6 (o := ⟨1, 2, 3⟩) (a := ⟨0, 0, 1⟩) (v := ⟨1, 0, 0⟩) (p := some placeRz)
      ⟨3, "   1  2  3 ".toList, "  0 0 1 ".toList, ln "  1 0 0", by decide +kernel, by decide +kernel, by decide +kernel, by decide +kernel, by decide +kernel,
        by decide +kernel, by decide +kernel⟩ (by
        unfold getTransformation
        simp only
        rw [if_neg (by decide +kernel)]
        rfl),
    ⟨by decide, ln "   0  1  2", by decide, by decide +kernel⟩, ⟨by decide, ln "   0  5", by decide, by decide +kernel⟩,
    ⟨by decide, ln "   0  1", by decide, by decide +kernel⟩,
    .one ⟨rfl, "    Energy bin boundaries".toList, (by decide +kernel : "Energy".toList <:+: "    Energy bin boundaries".toList), by decide,
      ln "  0 9", by decide, by decide +kernel⟩ (by decide +kernel), (by intro h; exact absurd h (by decide))⟩

theorem showsValuesRz : ShowsValues digit boundsRz values4 tallyRz.data := by
  refine .column (title := ln "   R  Z  Theta  Result  Rel Error") (ls := fileOf [" 0 2 1  7 1", " 1 2 1  8 2"]) (by decide +kernel) (by decide) ?_
  intro t e k3 k2 k1 ht he h3 h2 h1
  have n1 : t = 0 := by have : boundsRz.nt = 1 := by decide
                        omega
  have n2 : e = 0 := by have : boundsRz.ne = 1 := by decide
                        omega
  have n3 : k3 = 0 := by have : boundsRz.n3 = 1 := by decide
                         omega
  have n4 : k2 = 0 := by have : boundsRz.n2 = 1 := by decide
                         omega
  have n5 : k1 < 2 := h1
  subst n1 n2 n3 n4
  rcases (show k1 = 0 ∨ k1 = 1 by omega) with rfl | rfl
  · exact ⟨["0".toList, "2".toList, "1".toList], "7".toList, "1".toList, by decide, by decide +kernel, by decide +kernel⟩
  · exact ⟨["1".toList, "2".toList, "1".toList], "8".toList, "2".toList, by decide, by decide +kernel, by decide +kernel⟩

/-- the file of that tally meets the hypotheses of `rz_on_axis`: the voxels with radii from 0 to 1 and from 1 to 2 have the same point in the csv file, with
different values -/
example (cs sn : ℚ → ℚ) (hT : Turns cs sn) (junk : Data) (vtk : FmeshW.Grid → Str) : ∃ d r rows row row',
    scan .outside (fileOf ["mcnp", ""] ++ allLines [(24, tallyRz)]) [] = .ok d ∧ getFMesh cs sn digit junk d (natStr 24) = .ok r ∧
    FmeshW.write vtk (exported 24 r.fm) none "csv".toList none [] = ([("Tally_24_csv.csv".toList, csvText rows)], none) ∧ rows.length = 4 ∧
    rows[0]? = some row ∧ VoxelRow (1, 2, 11 / 2) 1 1 (fun _ _ => (7, 1)) row ∧ rows[1]? = some row' ∧ VoxelRow (1, 2, 11 / 2) 1 1 (fun _ _ => (8, 2)) row' := by
  obtain ⟨d, r, rows, h1, h2, h3, h4, -, h5⟩ := rz_on_axis cs sn hT (num := digit) junk (pre := []) (post := []) (n := 24) (t := tallyRz)
    (file := fileOf ["mcnp", ""] ++ allLines [(24, tallyRz)])
    ⟨by
      intro x hx
      simp only [List.nil_append, List.mem_cons, List.not_mem_nil, or_false] at hx
      subst hx
      exact isTallyRz, _, rfl, by decide +kernel⟩ (by simp) (b := boundsRz) showsBoundsRz ⟨by decide, by decide, by decide, by decide⟩ showsValuesRz rfl rfl
    (by decide) (by decide) vtk []
  obtain ⟨row, r1, r2⟩ := h5 0 0 0 0 5 0 1 (by omega) ⟨rfl, rfl⟩ ⟨rfl, rfl⟩
  obtain ⟨row', s1, s2⟩ := h5 0 0 1 0 5 1 2 (by omega) ⟨rfl, rfl⟩ ⟨rfl, rfl⟩
  have e : ((1 : ℚ), (2 : ℚ), ((0 : ℚ) + 5) / 2 + 3) = (1, 2, 11 / 2) := by norm_num
  rw [show (originOf (boundsRz.place.map (·.trsf))).x = 1 from rfl, show (originOf (boundsRz.place.map (·.trsf))).y = 2 from rfl,
    show (originOf (boundsRz.place.map (·.trsf))).z = 3 from rfl, e] at r2 s2
  exact ⟨d, r, rows, row, row', h1, h2, h3, h4, r1, r2, s1, s2⟩

/-- a function with the turns of the cosine and one with those of the sine at the quarters of a turn -/
example : ∃ cs sn : ℚ → ℚ, Turns cs sn ∧ cs 0 = 1 ∧ sn (1 / 4) = 1 := by
  refine ⟨fun t => if Int.fract t < 1 / 2 then 1 - 4 * Int.fract t else 4 * Int.fract t - 3,
    fun t => if Int.fract t < 1 / 2 then 4 * Int.fract t else 2 - 4 * Int.fract t, ⟨?_⟩, ?_, ?_⟩
  · intro t
    have h0 := Int.fract_nonneg t
    have h1 := Int.fract_lt_one t
    have key : Int.fract (t + 1 / 2) = if Int.fract t < 1 / 2 then Int.fract t + 1 / 2 else Int.fract t - 1 / 2 := by
      split
      · rw [Int.fract_eq_iff]
        refine ⟨by linarith, by linarith, ⌊t⌋, ?_⟩
        have := Int.self_sub_floor t
        linarith
      · rw [Int.fract_eq_iff]
        refine ⟨by linarith, by linarith, ⌊t⌋ + 1, ?_⟩
        have := Int.self_sub_floor t
        push_cast
        linarith
    rw [key]
    by_cases h : Int.fract t < 1 / 2
    · rw [if_pos h, if_pos h, if_neg (by linarith), if_pos h, if_neg (by linarith)]
      constructor <;> ring
    · rw [if_neg h, if_neg h, if_pos (by linarith), if_neg h, if_pos (by linarith)]
      constructor <;> ring
  · norm_num
  · have : Int.fract (1 / 4 : ℚ) = 1 / 4 := by rw [Int.fract_eq_self]; norm_num
    simp only [this]
    norm_num

end F4Enix.MeshFile
