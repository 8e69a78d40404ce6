import Verif.Out.Plotter
import Mathlib.Tactic.Linarith
import Mathlib.Tactic.Ring
import Mathlib.Tactic.LinearCombination
import Mathlib.Algebra.Order.BigOperators.Group.List
import Mathlib.Order.Bounds.Basic
/-!
# The outline of the stl in the pictures (C212)

`_get_stl_slices` cuts the stl with the plane through the centre of a slice and moves the cut a little. Numbers are exact.
-/
namespace F4Enix.Plot
open F4Enix

/-- a point or a direction (plotter.py:460-484) -/
structure P3 where
  x : ℚ
  y : ℚ
  z : ℚ
  deriving DecidableEq, Repr

/-- the scalar product (specification) -/
def P3.dot (a b : P3) : ℚ := a.x * b.x + a.y * b.y + a.z * b.z

/-- `p - d * s` (numpy, plotter.py:481) -/
def P3.back (p d : P3) (s : ℚ) : P3 := ⟨p.x - d.x * s, p.y - d.y * s, p.z - d.z * s⟩

/-- half of the sum of the least and the greatest number (vtk, plotter.py:472) -/
def middle (a : ℚ) (as : List ℚ) : ℚ := (as.foldl min a + as.foldl max a) / 2

/-- `mesh.center`: the centre of the bounds (vtk, plotter.py:472) -/
def centre (p : P3) (ps : List P3) : P3 :=
  ⟨middle p.x (ps.map P3.x), middle p.y (ps.map P3.y), middle p.z (ps.map P3.z)⟩

/-- `np.abs(mesh_slice.points).mean() * 1e-3` (numpy, plotter.py:480) -/
def stlScale (ps : List P3) : ℚ := (ps.map (fun p => |p.x| + |p.y| + |p.z|)).sum / (3 * ps.length) / 1000

/-- `_get_stl_slices` for one slice (plotter.py:467-482): `normal` is the normal of its first cell, `cutStl` gives the points of the cut
of the stl with the plane of a normal and a point, nothing if there is no cut. A slice is given by its points; it has no values if
it has none. -/
def stlSlice (cutStl : P3 → P3 → Option (List P3)) (normal : P3) : List P3 → Option (List P3)
  | [] => none
  | p :: ps =>
    match cutStl normal (centre p ps) with
    | none => none
    | some qs => some (qs.map (fun q => q.back normal (stlScale (p :: ps))))

/-- `_get_stl_slices` (plotter.py:460-484) -/
def stlSlices (cutStl : P3 → P3 → Option (List P3)) (slices : List (P3 × List P3)) : List (Option (List P3)) :=
  slices.map (fun s => stlSlice cutStl s.1 s.2)

/-- the position of the camera: one normal before the centre (plotter.py:447-449) -/
def camera (normal : P3) (p : P3) (ps : List P3) : P3 := (centre p ps).back normal 1

/-! ### the centre -/

theorem foldl_min_least (as : List ℚ) (a : ℚ) : IsLeast {x | x ∈ a :: as} (as.foldl min a) := by
  induction as generalizing a with
  | nil => exact ⟨by simp, fun x hx => by simp at hx; simp [hx]⟩
  | cons b as ih =>
    obtain ⟨h1, h2⟩ := ih (min a b)
    refine ⟨?_, ?_⟩
    · simp only [List.foldl_cons, Set.mem_ofPred_eq, List.mem_cons] at h1 ⊢
      rcases h1 with h1 | h1
      · rcases min_choice a b with h | h
        · exact .inl (h1.trans h)
        · exact .inr (.inl (h1.trans h))
      · exact .inr (.inr h1)
    · intro x hx
      simp only [Set.mem_ofPred_eq, List.mem_cons] at hx
      simp only [List.foldl_cons]
      have h0 := h2 (show min a b ∈ {x | x ∈ min a b :: as} by simp)
      rcases hx with rfl | rfl | hx
      · exact h0.trans (min_le_left _ _)
      · exact h0.trans (min_le_right _ _)
      · exact h2 (by simp [hx])

theorem foldl_max_greatest (as : List ℚ) (a : ℚ) : IsGreatest {x | x ∈ a :: as} (as.foldl max a) := by
  induction as generalizing a with
  | nil => exact ⟨by simp, fun x hx => by simp at hx; simp [hx]⟩
  | cons b as ih =>
    obtain ⟨h1, h2⟩ := ih (max a b)
    refine ⟨?_, ?_⟩
    · simp only [List.foldl_cons, Set.mem_ofPred_eq, List.mem_cons] at h1 ⊢
      rcases h1 with h1 | h1
      · rcases max_choice a b with h | h
        · exact .inl (h1.trans h)
        · exact .inr (.inl (h1.trans h))
      · exact .inr (.inr h1)
    · intro x hx
      simp only [Set.mem_ofPred_eq, List.mem_cons] at hx
      simp only [List.foldl_cons]
      have h0 := h2 (show max a b ∈ {x | x ∈ max a b :: as} by simp)
      rcases hx with rfl | rfl | hx
      · exact (le_max_left _ _).trans h0
      · exact (le_max_right _ _).trans h0
      · exact h2 (by simp [hx])

/-- the bounds of a coordinate are reached, and twice the centre is their sum -/
theorem middle_spec {f : P3 → ℚ} (p : P3) (ps : List P3) :
    ∃ u ∈ p :: ps, ∃ v ∈ p :: ps, 2 * middle (f p) (ps.map f) = f u + f v ∧ ∀ w ∈ p :: ps, f u ≤ f w ∧ f w ≤ f v := by
  obtain ⟨a1, a2⟩ := foldl_min_least (ps.map f) (f p)
  obtain ⟨b1, b2⟩ := foldl_max_greatest (ps.map f) (f p)
  simp only [Set.mem_ofPred_eq, ← List.map_cons, List.mem_map] at a1 b1
  obtain ⟨u, hu, hu'⟩ := a1
  obtain ⟨v, hv, hv'⟩ := b1
  refine ⟨u, hu, v, hv, by rw [hu', hv']; unfold middle; ring, ?_⟩
  intro w hw
  rw [hu', hv']
  have : f w ∈ {x | x ∈ f p :: ps.map f} := by
    rw [Set.mem_ofPred_eq, ← List.map_cons]; exact List.mem_map_of_mem hw
  exact ⟨a2 this, b2 this⟩

/-- two coordinates on a line: the middles are on it -/
theorem middle_line {f g : P3 → ℚ} {a b c : ℚ} (p : P3) (ps : List P3) (h : ∀ w ∈ p :: ps, a * f w + b * g w = c) :
    a * middle (f p) (ps.map f) + b * middle (g p) (ps.map g) = c := by
  obtain ⟨u, hu, v, hv, h1, h2⟩ := middle_spec (f := f) p ps
  obtain ⟨s, hs, t, ht, h3, h4⟩ := middle_spec (f := g) p ps
  have eu := h u hu
  have ev := h v hv
  have es := h s hs
  have et := h t ht
  have key : a * (f u + f v) + b * (g s + g t) = 2 * c := by
    rcases lt_trichotomy b 0 with hb | hb | hb
    · rcases le_total a 0 with ha | ha
      · have e1 : b * g s = b * g v := by nlinarith [(h2 s hs).2, (h4 v hv).1]
        have e2 : b * g t = b * g u := by nlinarith [(h2 t ht).1, (h4 u hu).2]
        linarith
      · have e1 : b * g s = b * g u := by nlinarith [(h2 s hs).1, (h4 u hu).1]
        have e2 : b * g t = b * g v := by nlinarith [(h2 t ht).2, (h4 v hv).2]
        linarith
    · subst hb; linarith
    · rcases le_total a 0 with ha | ha
      · have e1 : b * g s = b * g u := by nlinarith [(h2 s hs).1, (h4 u hu).1]
        have e2 : b * g t = b * g v := by nlinarith [(h2 t ht).2, (h4 v hv).2]
        linarith
      · have e1 : b * g s = b * g v := by nlinarith [(h2 s hs).2, (h4 v hv).1]
        have e2 : b * g t = b * g u := by nlinarith [(h2 t ht).1, (h4 u hu).2]
        linarith
  rw [← h1, ← h3] at key
  linarith

/-- the centre of a flat slice is on its plane if the plane is parallel to one of the axes -/
theorem centre_on_plane {n : P3} {c : ℚ} (p : P3) (ps : List P3) (h : ∀ w ∈ p :: ps, n.dot w = c)
    (hn : n.x = 0 ∨ n.y = 0 ∨ n.z = 0) : n.dot (centre p ps) = c := by
  unfold P3.dot at h ⊢
  rcases hn with hn | hn | hn
  · have := middle_line (f := P3.y) (g := P3.z) (a := n.y) (b := n.z) (c := c) p ps (fun w hw => by have := h w hw; rw [hn] at this; linarith)
    rw [hn]; simp only [centre]; linarith
  · have := middle_line (f := P3.x) (g := P3.z) (a := n.x) (b := n.z) (c := c) p ps (fun w hw => by have := h w hw; rw [hn] at this; linarith)
    rw [hn]; simp only [centre]; linarith
  · have := middle_line (f := P3.x) (g := P3.y) (a := n.x) (b := n.y) (c := c) p ps (fun w hw => by have := h w hw; rw [hn] at this; linarith)
    rw [hn]; simp only [centre]; linarith

/-- the centre of a symmetric slice is its centre of symmetry -/
theorem centre_symmetric {s : P3} (p : P3) (ps : List P3)
    (h : ∀ w ∈ p :: ps, (⟨2 * s.x - w.x, 2 * s.y - w.y, 2 * s.z - w.z⟩ : P3) ∈ p :: ps) : centre p ps = s := by
  have one : ∀ f : P3 → ℚ, (∀ w ∈ p :: ps, ∃ w' ∈ p :: ps, f w' = 2 * f s - f w) → middle (f p) (ps.map f) = f s := by
    intro f hf
    obtain ⟨u, hu, v, hv, h1, h2⟩ := middle_spec (f := f) p ps
    obtain ⟨u', hu', eu⟩ := hf u hu
    obtain ⟨v', hv', ev⟩ := hf v hv
    have := (h2 u' hu').2
    have := (h2 v' hv').1
    linarith
  have hx := one P3.x (fun w hw => ⟨_, h w hw, rfl⟩)
  have hy := one P3.y (fun w hw => ⟨_, h w hw, rfl⟩)
  have hz := one P3.z (fun w hw => ⟨_, h w hw, rfl⟩)
  unfold centre
  rw [hx, hy, hz]

theorem stlScale_nonneg (ps : List P3) : 0 ≤ stlScale ps := by
  unfold stlScale
  have : 0 ≤ (ps.map (fun p => |p.x| + |p.y| + |p.z|)).sum := List.sum_nonneg (by
    intro x hx
    obtain ⟨p, -, rfl⟩ := List.mem_map.1 hx
    positivity)
  positivity

theorem stlScale_pos {ps : List P3} (h : ∃ p ∈ ps, p ≠ ⟨0, 0, 0⟩) : 0 < stlScale ps := by
  obtain ⟨p, hp, hne⟩ := h
  have hpos : 0 < |p.x| + |p.y| + |p.z| := by
    by_contra hc
    have hx := abs_nonneg p.x
    have hy := abs_nonneg p.y
    have hz := abs_nonneg p.z
    apply hne
    have ex : p.x = 0 := abs_eq_zero.1 (by linarith)
    have ey : p.y = 0 := abs_eq_zero.1 (by linarith)
    have ez : p.z = 0 := abs_eq_zero.1 (by linarith)
    cases p; simp_all
  have hle : |p.x| + |p.y| + |p.z| ≤ (ps.map (fun p => |p.x| + |p.y| + |p.z|)).sum :=
    List.single_le_sum (by
      intro x hx
      obtain ⟨p, -, rfl⟩ := List.mem_map.1 hx
      positivity) _ (List.mem_map_of_mem (f := fun p : P3 => |p.x| + |p.y| + |p.z|) hp)
  have hl : 0 < ps.length := List.length_pos_of_mem hp
  unfold stlScale
  have h2 : (0 : ℚ) < ps.length := by exact_mod_cast hl
  have h3 := hpos.trans_le hle
  positivity

theorem stlSlice_cons (cutStl : P3 → P3 → Option (List P3)) (n p : P3) (ps : List P3) :
    stlSlice cutStl n (p :: ps) = (cutStl n (centre p ps)).map (fun qs => qs.map (fun q => q.back n (stlScale (p :: ps)))) := by
  simp only [stlSlice]
  cases cutStl n (centre p ps) <;> rfl

/-! ### C212 -/

/-- a plane: a normal and the product of its points with it (specification) -/
def OnPlane (n : P3) (c : ℚ) (p : P3) : Prop := n.dot p = c

/-- **C212 (partial: for planes parallel to an axis).** The outline drawn with a flat slice is the cut of the stl with the plane of the slice,
every point of it moved by the same length against the normal: the side on which the camera is. The length is a thousandth of the mean of
the coordinates of the slice, and there is no outline if the slice is empty or the plane does not cut the stl. -/
theorem outline_partial {cutStl : P3 → P3 → Option (List P3)} {n : P3} {c : ℚ} (p : P3) (ps : List P3)
    (hflat : ∀ w ∈ p :: ps, OnPlane n c w) (hn : n.x = 0 ∨ n.y = 0 ∨ n.z = 0) (hunit : n.dot n = 1)
    (hne : ∃ w ∈ p :: ps, w ≠ ⟨0, 0, 0⟩) (hcut : ∀ o qs, cutStl n o = some qs → ∀ q ∈ qs, OnPlane n (n.dot o) q) :
    ∃ o, OnPlane n c o ∧ OnPlane n (c - 1) (camera n p ps) ∧
      stlSlice cutStl n (p :: ps) = (cutStl n o).map (fun qs => qs.map (fun q => q.back n (stlScale (p :: ps)))) ∧
      0 < stlScale (p :: ps) ∧
      ∀ r, stlSlice cutStl n (p :: ps) = some r → ∀ q ∈ r, OnPlane n (c - stlScale (p :: ps)) q := by
  have hc := centre_on_plane p ps hflat hn
  have back : ∀ (q : P3) (s k : ℚ), n.dot q = k → n.dot (q.back n s) = k - s := by
    intro q s k hk
    have : n.dot (q.back n s) = n.dot q - n.dot n * s := by simp only [P3.dot, P3.back]; ring
    rw [this, hk, hunit, one_mul]
  refine ⟨centre p ps, hc, back _ _ _ hc, stlSlice_cons .., stlScale_pos hne, ?_⟩
  · intro r hr q hq
    rw [stlSlice_cons] at hr
    cases h : cutStl n (centre p ps) with
    | none => simp [h] at hr
    | some qs =>
      simp only [h, Option.map_some, Option.some.injEq] at hr
      subst hr
      obtain ⟨q', hq', rfl⟩ := List.mem_map.1 hq
      have := hcut _ _ h q' hq'
      exact back _ _ _ (this.trans hc)

/-- **C212 (partial).** For a slice of any direction that is symmetric about a point, as the cut of a box through its centre, the
stl is cut through that point. -/
theorem outline_symmetric_partial {cutStl : P3 → P3 → Option (List P3)} {n s : P3} (p : P3) (ps : List P3)
    (h : ∀ w ∈ p :: ps, (⟨2 * s.x - w.x, 2 * s.y - w.y, 2 * s.z - w.z⟩ : P3) ∈ p :: ps) :
    stlSlice cutStl n (p :: ps) = (cutStl n s).map (fun qs => qs.map (fun q => q.back n (stlScale (p :: ps)))) := by
  rw [stlSlice_cons, centre_symmetric p ps h]

/-- **C212.** There is one outline for each slice, in the order of the slices. -/
theorem outlines_order (cutStl : P3 → P3 → Option (List P3)) (slices : List (P3 × List P3)) :
    (stlSlices cutStl slices).length = slices.length ∧
    ∀ (i : ℕ) n ps, slices[i]? = some (n, ps) → (stlSlices cutStl slices)[i]? = some (stlSlice cutStl n ps) ∧
      (ps = [] → (stlSlices cutStl slices)[i]? = some none) := by
  refine ⟨by simp [stlSlices], ?_⟩
  intro i n ps h
  have : (stlSlices cutStl slices)[i]? = some (stlSlice cutStl n ps) := by simp [stlSlices, h]
  refine ⟨this, ?_⟩
  rintro rfl
  exact this

/-- **C212 (false).** The slice with the corners (1,0,0), (0,1,0), (0,0,1) lies on the plane `x + y + z = 1`; the stl is cut with
`x + y + z = 3/2`: the centre of the bounds is not on a tilted plane. -/
theorem outline_tilted (cutStl : P3 → P3 → Option (List P3)) (k : ℚ) :
    let ps : List P3 := [⟨1, 0, 0⟩, ⟨0, 1, 0⟩, ⟨0, 0, 1⟩]
    (∀ w ∈ ps, OnPlane ⟨1, 1, 1⟩ 1 w) ∧
    ∃ o, OnPlane ⟨1, 1, 1⟩ (3 / 2) o ∧
      stlSlice cutStl ⟨k, k, k⟩ ps = (cutStl ⟨k, k, k⟩ o).map (fun qs => qs.map (fun q => q.back ⟨k, k, k⟩ (1 / 3000))) := by
  intro ps
  have hc : centre ⟨1, 0, 0⟩ [⟨0, 1, 0⟩, ⟨0, 0, 1⟩] = ⟨1 / 2, 1 / 2, 1 / 2⟩ := by decide +kernel
  have hs : stlScale ps = 1 / 3000 := by decide +kernel
  refine ⟨by unfold OnPlane; decide +kernel, ⟨1 / 2, 1 / 2, 1 / 2⟩, by unfold OnPlane P3.dot; norm_num, ?_⟩
  rw [show ps = ⟨1, 0, 0⟩ :: [⟨0, 1, 0⟩, ⟨0, 0, 1⟩] from rfl] at hs ⊢
  rw [stlSlice_cons, hc, hs]

/-! ### examples -/

/-- an stl that is a point on every plane (example) -/
def exStl (_ o : P3) : Option (List P3) := some [o]

/-- a square on `y = 300`, the normal along `y` -/
example : stlSlice exStl ⟨0, 1, 0⟩ [⟨0, 300, 0⟩, ⟨600, 300, 0⟩, ⟨600, 300, 300⟩, ⟨0, 300, 300⟩] =
    some [⟨300, 300 - 1 / 4, 150⟩] := by decide +kernel

example : ∃ o, OnPlane ⟨0, 1, 0⟩ 300 o ∧ stlSlice exStl ⟨0, 1, 0⟩ [⟨0, 300, 0⟩, ⟨600, 300, 0⟩] =
    (exStl ⟨0, 1, 0⟩ o).map (fun qs => qs.map (fun q => q.back ⟨0, 1, 0⟩ (stlScale [⟨0, 300, 0⟩, ⟨600, 300, 0⟩]))) := by
  obtain ⟨o, h1, -, h2, -⟩ := outline_partial (cutStl := exStl) (n := ⟨0, 1, 0⟩) (c := 300) ⟨0, 300, 0⟩ [⟨600, 300, 0⟩]
    (by unfold OnPlane; decide +kernel) (.inl rfl) (by decide +kernel) ⟨⟨0, 300, 0⟩, by simp, by decide +kernel⟩
    (fun o qs h q hq => by simp only [exStl, Option.some.injEq] at h; subst h; simp at hq; subst hq; rfl)
  exact ⟨o, h1, h2⟩

end F4Enix.Plot
