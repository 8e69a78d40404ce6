import Verif.WW.MeshgridsProps
import Verif.Out.GridSingle
/-!
# Rectangular windows in single precision

`create_cartesian_grid` makes singles of the boundaries before anything else (`np.asarray(v, "float32")`).
-/
namespace F4Enix.Grid3
open F4Enix

/-! ## Specification -/

/-- what numpy and vtk do with numbers that are floats: boundaries become singles, and the sum of a single and a coordinate of the origin, a
double, becomes a single (specification) -/
def Single32 (rnd : ℝ → ℝ) (plus : ℝ → ℝ → ℝ) : Prop :=
  (∀ q : ℚ, rnd q = (sgl q : ℚ)) ∧ ∀ p q : ℚ, plus p q = (sgl (dbl (p + q)) : ℚ)

/-- there are such functions -/
theorem single32_exists : ∃ rnd plus, Single32 rnd plus := by
  classical
  refine ⟨fun r => if h : ∃ q : ℚ, (q : ℝ) = r then (sgl h.choose : ℚ) else 0,
    fun a b => if h : ∃ p : ℚ × ℚ, (p.1 : ℝ) = a ∧ (p.2 : ℝ) = b then (sgl (dbl (h.choose.1 + h.choose.2)) : ℚ) else 0, fun q => ?_, fun p q => ?_⟩
  · have h : ∃ q' : ℚ, (q' : ℝ) = q := ⟨q, rfl⟩
    have e : h.choose = q := by exact_mod_cast h.choose_spec
    simp only [dif_pos h, e]
  · have h : ∃ r : ℚ × ℚ, (r.1 : ℝ) = p ∧ (r.2 : ℝ) = q := ⟨(p, q), rfl, rfl⟩
    have e1 : h.choose.1 = p := by exact_mod_cast h.choose_spec.1
    have e2 : h.choose.2 = q := by exact_mod_cast h.choose_spec.2
    simp only [dif_pos h, e1, e2]

/-! ## Proofs -/

/-- a boundary and a coordinate of the origin, added in single precision -/
theorem moved_near (x o : ℚ) : |sgl (dbl (sgl x + o)) - (x + o)| ≤ (|x| + |o|) / 2 ^ 22 + (2 : ℚ) ^ (-148 : ℤ) := by
  obtain ⟨h8, h149⟩ := Mesh.small_powers
  have h148 : (2 : ℚ) ^ (-148 : ℤ) = 4 * (2 : ℚ) ^ (-150 : ℤ) := by
    rw [show (-148 : ℤ) = 2 + -150 by rfl, zpow_add₀ (by norm_num)]
    norm_num
  have hE := (two_zpow_pos (-1075)).le
  have hD := (two_zpow_pos (-150)).le
  have a1 := Mesh.sgl_near_all x
  have a2 := Mesh.dbl_near_all (sgl x + o)
  have a3 := Mesh.sgl_near_all (dbl (sgl x + o))
  rw [h148]
  generalize (2 : ℚ) ^ (-1075 : ℤ) = E at *
  generalize (2 : ℚ) ^ (-150 : ℤ) = D at *
  generalize sgl (dbl (sgl x + o)) = d3 at *
  generalize dbl (sgl x + o) = d2 at *
  generalize sgl x = d1 at *
  have t1 : |d1| ≤ |x| + |d1 - x| := by
    have := abs_add_le x (d1 - x); rwa [add_sub_cancel] at this
  have t2 : |d1 + o| ≤ |d1| + |o| := abs_add_le _ _
  have t3 : |d2| ≤ |d1 + o| + |d2 - (d1 + o)| := by
    have := abs_add_le (d1 + o) (d2 - (d1 + o)); rwa [add_sub_cancel] at this
  have t4 : |d3 - (x + o)| ≤ |d3 - d2| + |d2 - (d1 + o)| + |d1 - x| := by
    have e : d3 - (x + o) = (d3 - d2) + (d2 - (d1 + o)) + (d1 - x) := by ring
    rw [e]
    exact (abs_add_le _ _).trans (by linarith [abs_add_le (d3 - d2) (d2 - (d1 + o))])
  have hp := abs_nonneg x
  have ho := abs_nonneg o
  norm_num at a1 a2 a3 ⊢
  linarith

/-- **C139 (C218).** Every point of the grid of a rectangular window is near to the boundaries of its numbers, moved by the origin. -/
theorem cartesian_near {rnd : ℝ → ℝ} {plus : ℝ → ℝ → ℝ} (hs : Single32 rnd plus) (vi vj vk : List ℚ) (ox oy oz : ℚ) {i j k : ℕ} {x y z : ℚ}
    (hx : vi[i]? = some x) (hy : vj[j]? = some y) (hz : vk[k]? = some z) :
    ∃ px py pz : ℚ, (cartesianGrid rnd plus (vi.map (↑)) (vj.map (↑)) (vk.map (↑)) (some ⟨ox, oy, oz⟩)).points[(k * vj.length + j) * vi.length + i]? =
        some ⟨px, py, pz⟩ ∧
      |px - (x + ox)| ≤ (|x| + |ox|) / 2 ^ 22 + (2 : ℚ) ^ (-148 : ℤ) ∧ |py - (y + oy)| ≤ (|y| + |oy|) / 2 ^ 22 + (2 : ℚ) ^ (-148 : ℤ) ∧
      |pz - (z + oz)| ≤ (|z| + |oz|) / 2 ^ 22 + (2 : ℚ) ^ (-148 : ℤ) := by
  have h := cartesian_point rnd plus (vi := vi.map (↑)) (vj := vj.map (↑)) (vk := vk.map (↑)) ⟨ox, oy, oz⟩ (i := i) (j := j) (k := k) (x := (x : ℝ))
    (y := (y : ℝ)) (z := (z : ℝ)) (by simp [hx]) (by simp [hy]) (by simp [hz])
  simp only [List.length_map, hs.1, hs.2] at h
  exact ⟨_, _, _, h, moved_near x ox, moved_near y oy, moved_near z oz⟩

/-- a grid with an origin keeps the order of the boundaries -/
theorem cartesian_order (o : ℚ) {x y : ℚ} (h : x ≤ y) : sgl x ≤ sgl y ∧ sgl (dbl (sgl x + o)) ≤ sgl (dbl (sgl y + o)) := by
  have := sgl_mono h
  exact ⟨this, sgl_mono (dbl_mono (by linarith))⟩

/-- Without an origin every point is the nearest one whose coordinates are singles. -/
theorem cartesian_nearest {rnd : ℝ → ℝ} {plus : ℝ → ℝ → ℝ} (hs : Single32 rnd plus) (vi vj vk : List ℚ) {i j k : ℕ} {x y z : ℚ}
    (hx : vi[i]? = some x) (hy : vj[j]? = some y) (hz : vk[k]? = some z) :
    ∃ px py pz : ℚ, (cartesianGrid rnd plus (vi.map (↑)) (vj.map (↑)) (vk.map (↑)) none).points[(k * vj.length + j) * vi.length + i]? = some ⟨px, py, pz⟩ ∧
      (∀ s, IsSingle s → |px - x| ≤ |s - x|) ∧ (∀ s, IsSingle s → |py - y| ≤ |s - y|) ∧ (∀ s, IsSingle s → |pz - z| ≤ |s - z|) := by
  have h := cartesian_point0 rnd plus (vi := vi.map (↑)) (vj := vj.map (↑)) (vk := vk.map (↑)) (i := i) (j := j) (k := k) (x := (x : ℝ))
    (y := (y : ℝ)) (z := (z : ℝ)) (by simp [hx]) (by simp [hy]) (by simp [hz])
  simp only [List.length_map, hs.1] at h
  exact ⟨_, _, _, h, fun s => sgl_nearest x, fun s => sgl_nearest y, fun s => sgl_nearest z⟩

/-- False of the code: two layers of a window with different boundaries can be drawn as one -/
theorem thin_layer_flat {rnd : ℝ → ℝ} {plus : ℝ → ℝ → ℝ} (hs : Single32 rnd plus) (vi vj : List ℚ) {i j : ℕ} {x y : ℚ}
    (hx : vi[i]? = some x) (hy : vj[j]? = some y) :
    let g := cartesianGrid rnd plus (vi.map (↑)) (vj.map (↑)) (([0, 1000, 1000 + 1 / 65536] : List ℚ).map (↑)) none
    ∃ p : V3, g.points[(1 * vj.length + j) * vi.length + i]? = some p ∧ g.points[(2 * vj.length + j) * vi.length + i]? = some p := by
  have e1 : sgl 1000 = 1000 := by decide +kernel
  have e2 : sgl (1000 + 1 / 65536) = 1000 := by decide +kernel
  intro g
  refine ⟨⟨(sgl x : ℚ), (sgl y : ℚ), ((1000 : ℚ) : ℝ)⟩, ?_, ?_⟩
  · have h := cartesian_point0 rnd plus (vi := vi.map (↑)) (vj := vj.map (↑)) (vk := ([0, 1000, 1000 + 1 / 65536] : List ℚ).map (↑)) (i := i) (j := j)
      (k := 1) (x := (x : ℝ)) (y := (y : ℝ)) (z := ((1000 : ℚ) : ℝ)) (by simp [hx]) (by simp [hy]) rfl
    simp only [List.length_map, hs.1, e1] at h
    exact h
  · have h := cartesian_point0 rnd plus (vi := vi.map (↑)) (vj := vj.map (↑)) (vk := ([0, 1000, 1000 + 1 / 65536] : List ℚ).map (↑)) (i := i) (j := j)
      (k := 2) (x := (x : ℝ)) (y := (y : ℝ)) (z := ((1000 + 1 / 65536 : ℚ) : ℝ)) (by simp [hx]) (by simp [hy]) rfl
    simp only [List.length_map, hs.1, e2] at h
    exact h

end F4Enix.Grid3
