import Verif.Out.MeshtalGrid
import Verif.Base.Binary32
import Mathlib.Tactic.Linarith
/-!
# Points of a structured grid in single precision

`_structured_grid` computes the coordinates of the points with doubles and keeps them as 32 bit floats
(`pts.SetDataTypeToFloat()`); `_rectilinear_grid` keeps the boundaries of the mesh as they are.
-/
namespace F4Enix.Mesh
open F4Enix

/-! ## Model -/

/-- a coordinate of a point: the sum with the origin is a double, what the grid keeps is a single (aux_meshtal_functions.py:496-497, 515-518, 523-529) -/
def coordF (p o : ℚ) : ℚ := sgl (dbl (p + o))

/-- the points that the grid holds: doubles kept as singles in a structured grid, the boundaries themselves in a rectilinear one; the boundaries, the
origin, cosines and sines are doubles (aux_meshtal_functions.py:453-468 and 496-529) -/
def gridPointsF (cs sn : ℚ → ℚ) (m : MeshData) (trsf : Option Trsf) : List Vec :=
  let o := match trsf with
    | none => Vec.zero
    | some t => t.origin
  if m.cyl then
    m.x3.flatMap (fun t => m.x2.flatMap (fun z =>
      m.x1.map (fun r => ⟨coordF (dbl (r * cs t)) o.x, coordF (dbl (r * sn t)) o.y, coordF z o.z⟩)))
  else match trsf with
    | none => m.x3.flatMap (fun z => m.x2.flatMap (fun y => m.x1.map (fun x => ⟨x, y, z⟩)))
    | some _ => m.x3.flatMap (fun z => m.x2.flatMap (fun y => m.x1.map (fun x => ⟨coordF x o.x, coordF y o.y, coordF z o.z⟩)))

/-! ## Specification -/

/-- how far a kept coordinate may be from the exact one `e`, with the coordinate `o` of the origin (specification) -/
def tol (e o : ℚ) : ℚ := (|e - o| + |o|) / 2 ^ 23 + (2 : ℚ) ^ (-149 : ℤ)

/-- a kept point near to the exact one (specification) -/
def NearPt (o : Vec) (k e : Vec) : Prop := |k.x - e.x| ≤ tol e.x o.x ∧ |k.y - e.y| ≤ tol e.y o.y ∧ |k.z - e.z| ≤ tol e.z o.z

/-- the origin of a grid (specification) -/
def gridOrigin (trsf : Option Trsf) : Vec := (trsf.map Trsf.origin).getD Vec.zero

/-! ## Proofs -/

theorem dbl_near_all (x : ℚ) : |dbl x - x| ≤ |x| / 2 ^ 53 + (2 : ℚ) ^ (-1075 : ℤ) := by
  rcases eq_or_ne x 0 with rfl | hx
  · rw [dbl_zero]
    have := two_zpow_pos (-1075)
    simp only [sub_zero, abs_zero, zero_div, zero_add]
    exact this.le
  have h := dbl_near_ulp x
  have hp := two_zpow_pos (-1075)
  have hpos : 0 < |x| := abs_pos.mpr hx
  rcases le_total (Int.log 2 |x| - 52) (-1074) with hc | hc
  · have e1 : ulpExp x = -1074 := max_eq_right hc
    rw [e1] at h
    have e2 : (2 : ℚ) ^ (-1074 : ℤ) = 2 * (2 : ℚ) ^ (-1075 : ℤ) := by
      rw [show (-1074 : ℤ) = 1 + -1075 by rfl, zpow_add₀ (by norm_num), zpow_one]
    have h3 : 0 ≤ |x| / 2 ^ 53 := by positivity
    rw [e2] at h
    linarith
  · have e1 : ulpExp x = Int.log 2 |x| - 52 := max_eq_left hc
    have hl := Int.zpow_log_le_self (b := 2) (by norm_num) hpos
    push_cast at hl
    rw [e1, zpow_sub₀ (by norm_num)] at h
    have e3 : (2 : ℚ) ^ (52 : ℤ) = 2 ^ 52 := by norm_cast
    rw [e3] at h
    have h4 : (2 : ℚ) ^ Int.log 2 |x| / 2 ^ 52 / 2 ≤ |x| / 2 ^ 53 := by
      rw [div_div, show (2 : ℚ) ^ 52 * 2 = 2 ^ 53 by norm_num]
      exact div_le_div_of_nonneg_right hl (by positivity)
    linarith

theorem sgl_near_all (x : ℚ) : |sgl x - x| ≤ |x| / 2 ^ 24 + (2 : ℚ) ^ (-150 : ℤ) := by
  rcases eq_or_ne x 0 with rfl | hx
  · rw [sgl_zero]
    have := two_zpow_pos (-150)
    simp only [sub_zero, abs_zero, zero_div, zero_add]
    exact this.le
  have h := sgl_near_ulp x
  have hp := two_zpow_pos (-150)
  have hpos : 0 < |x| := abs_pos.mpr hx
  rcases le_total (Int.log 2 |x| - 23) (-149) with hc | hc
  · have e1 : ulpExp32 x = -149 := max_eq_right hc
    rw [e1] at h
    have e2 : (2 : ℚ) ^ (-149 : ℤ) = 2 * (2 : ℚ) ^ (-150 : ℤ) := by
      rw [show (-149 : ℤ) = 1 + -150 by rfl, zpow_add₀ (by norm_num), zpow_one]
    have h3 : 0 ≤ |x| / 2 ^ 24 := by positivity
    rw [e2] at h
    linarith
  · have e1 : ulpExp32 x = Int.log 2 |x| - 23 := max_eq_left hc
    have hl := Int.zpow_log_le_self (b := 2) (by norm_num) hpos
    push_cast at hl
    rw [e1, zpow_sub₀ (by norm_num)] at h
    have e3 : (2 : ℚ) ^ (23 : ℤ) = 2 ^ 23 := by norm_cast
    rw [e3] at h
    have h4 : (2 : ℚ) ^ Int.log 2 |x| / 2 ^ 23 / 2 ≤ |x| / 2 ^ 24 := by
      rw [div_div, show (2 : ℚ) ^ 23 * 2 = 2 ^ 24 by norm_num]
      exact div_le_div_of_nonneg_right hl (by positivity)
    linarith

theorem small_powers : 8 * (2 : ℚ) ^ (-1075 : ℤ) ≤ (2 : ℚ) ^ (-150 : ℤ) ∧ (2 : ℚ) ^ (-149 : ℤ) = 2 * (2 : ℚ) ^ (-150 : ℤ) := by
  constructor
  · have : (8 : ℚ) = (2 : ℚ) ^ (3 : ℤ) := by norm_num
    rw [this, ← zpow_add₀ (by norm_num)]
    exact zpow_le_zpow_right₀ (by norm_num) (by decide)
  · rw [show (-149 : ℤ) = 1 + -150 by rfl, zpow_add₀ (by norm_num), zpow_one]

/-- two roundings of doubles and one to single -/
theorem coordF_near (p o : ℚ) : |coordF (dbl p) o - (p + o)| ≤ tol (p + o) o := by
  obtain ⟨h8, h149⟩ := small_powers
  have hE := (two_zpow_pos (-1075)).le
  have hD := (two_zpow_pos (-150)).le
  have a1 := dbl_near_all p
  have a2 := dbl_near_all (dbl p + o)
  have a3 := sgl_near_all (dbl (dbl p + o))
  unfold coordF tol
  rw [h149, add_sub_cancel_right]
  generalize (2 : ℚ) ^ (-1075 : ℤ) = E at *
  generalize (2 : ℚ) ^ (-150 : ℤ) = D at *
  generalize sgl (dbl (dbl p + o)) = d3 at *
  generalize dbl (dbl p + o) = d2 at *
  generalize dbl p = d1 at *
  have t1 : |d1| ≤ |p| + |d1 - p| := by
    have := abs_add_le p (d1 - p); rwa [add_sub_cancel] at this
  have t2 : |d1 + o| ≤ |d1| + |o| := abs_add_le _ _
  have t3 : |d2| ≤ |d1 + o| + |d2 - (d1 + o)| := by
    have := abs_add_le (d1 + o) (d2 - (d1 + o)); rwa [add_sub_cancel] at this
  have t4 : |d3 - (p + o)| ≤ |d3 - d2| + |d2 - (d1 + o)| + |d1 - p| := by
    have e : d3 - (p + o) = (d3 - d2) + (d2 - (d1 + o)) + (d1 - p) := by ring
    rw [e]
    exact (abs_add_le _ _).trans (by linarith [abs_add_le (d3 - d2) (d2 - (d1 + o))])
  have hp := abs_nonneg p
  have ho := abs_nonneg o
  norm_num at a1 a2 a3 ⊢
  linarith

theorem coordF_near' (p o : ℚ) : |coordF p o - (p + o)| ≤ tol (p + o) o := by
  obtain ⟨h8, h149⟩ := small_powers
  have hE := (two_zpow_pos (-1075)).le
  have hD := (two_zpow_pos (-150)).le
  have a2 := dbl_near_all (p + o)
  have a3 := sgl_near_all (dbl (p + o))
  unfold coordF tol
  rw [h149, add_sub_cancel_right]
  generalize (2 : ℚ) ^ (-1075 : ℤ) = E at *
  generalize (2 : ℚ) ^ (-150 : ℤ) = D at *
  generalize sgl (dbl (p + o)) = d3 at *
  generalize dbl (p + o) = d2 at *
  have t2 : |p + o| ≤ |p| + |o| := abs_add_le _ _
  have t3 : |d2| ≤ |p + o| + |d2 - (p + o)| := by
    have := abs_add_le (p + o) (d2 - (p + o)); rwa [add_sub_cancel] at this
  have t4 : |d3 - (p + o)| ≤ |d3 - d2| + |d2 - (p + o)| := by
    have := abs_add_le (d3 - d2) (d2 - (p + o)); rwa [sub_add_sub_cancel] at this
  have hp := abs_nonneg p
  have ho := abs_nonneg o
  norm_num at a2 a3 ⊢
  linarith

theorem coordF_mono {p q : ℚ} (o : ℚ) (h : p ≤ q) : coordF p o ≤ coordF q o :=
  sgl_mono (dbl_mono (by linarith))

theorem tol_nonneg (e o : ℚ) : 0 ≤ tol e o := by
  have := two_zpow_pos (-149)
  unfold tol
  positivity

/-- pairs of lists built by the same three loops -/
theorem forall₂_loops {R : Vec → Vec → Prop} {f g : ℚ → ℚ → ℚ → Vec} (a b c : List ℚ) (h : ∀ t z r, R (f t z r) (g t z r)) :
    List.Forall₂ R (a.flatMap (fun t => b.flatMap (fun z => c.map (f t z)))) (a.flatMap (fun t => b.flatMap (fun z => c.map (g t z)))) := by
  have h1 : ∀ t z, List.Forall₂ R (c.map (f t z)) (c.map (g t z)) := fun t z => by
    induction c with
    | nil => exact .nil
    | cons r c ih => exact .cons (h t z r) ih
  have h2 : ∀ t, List.Forall₂ R (b.flatMap (fun z => c.map (f t z))) (b.flatMap (fun z => c.map (g t z))) := fun t => by
    induction b with
    | nil => exact .nil
    | cons z b ih => simp only [List.flatMap_cons]; exact List.rel_append (h1 t z) ih
  induction a with
  | nil => exact .nil
  | cons t a ih => simp only [List.flatMap_cons]; exact List.rel_append (h2 t) ih

/-- every kept point is near to the exact point of the same place -/
theorem points_near (cs sn : ℚ → ℚ) (m : MeshData) (trsf : Option Trsf) :
    List.Forall₂ (NearPt (gridOrigin trsf)) (gridPointsF cs sn m trsf) (gridPoints cs sn m trsf) := by
  unfold gridPointsF gridPoints
  cases hc : m.cyl with
  | true =>
    cases trsf with
    | none => exact forall₂_loops _ _ _ (fun t z r => ⟨coordF_near _ _, coordF_near _ _, coordF_near' _ _⟩)
    | some tr => exact forall₂_loops _ _ _ (fun t z r => ⟨coordF_near _ _, coordF_near _ _, coordF_near' _ _⟩)
  | false =>
    cases trsf with
    | none =>
      refine forall₂_loops _ _ _ (fun t z r => ?_)
      refine ⟨?_, ?_, ?_⟩ <;>
      · simp only [Vec.zero, add_zero, sub_self, abs_zero]
        exact tol_nonneg _ _
    | some tr => exact forall₂_loops _ _ _ (fun t z r => ⟨coordF_near' _ _, coordF_near' _ _, coordF_near' _ _⟩)

/-- the points of a rectangular mesh without a transformation are the boundaries themselves -/
theorem rectilinear_exact (cs sn : ℚ → ℚ) (m : MeshData) (h : m.cyl = false) : gridPointsF cs sn m none = gridPoints cs sn m none := by
  unfold gridPointsF gridPoints
  simp [h, Vec.zero]

/-- how the kept coordinates come from the exact ones, one after the other (proof) -/
theorem points_through (cs sn : ℚ → ℚ) (m : MeshData) (trsf : Option Trsf) :
    ∃ fx fy fz : ℚ → ℚ, Monotone fx ∧ Monotone fy ∧ Monotone fz ∧
      gridPointsF cs sn m trsf = (gridPoints cs sn m trsf).map (fun e => ⟨fx e.x, fy e.y, fz e.z⟩) := by
  have key : ∀ o : Vec, (∀ a : ℚ, Monotone (fun e => coordF (dbl (e - a)) a)) ∧ (∀ a : ℚ, Monotone (fun e => coordF (e - a) a)) := fun o =>
    ⟨fun a p q h => coordF_mono a (dbl_mono (by linarith)), fun a p q h => coordF_mono a (by linarith)⟩
  have hmap : ∀ (f : Vec → Vec) (g : ℚ → ℚ → ℚ → Vec) (a b c : List ℚ),
      (a.flatMap (fun t => b.flatMap (fun z => c.map (g t z)))).map f = a.flatMap (fun t => b.flatMap (fun z => c.map (fun r => f (g t z r)))) := by
    intro f g a b c
    simp only [List.map_flatMap, List.map_map, Function.comp_def]
  cases hc : m.cyl with
  | true =>
    refine ⟨fun e => coordF (dbl (e - (gridOrigin trsf).x)) (gridOrigin trsf).x, fun e => coordF (dbl (e - (gridOrigin trsf).y)) (gridOrigin trsf).y,
      fun e => coordF (e - (gridOrigin trsf).z) (gridOrigin trsf).z, (key Vec.zero).1 _, (key Vec.zero).1 _, (key Vec.zero).2 _, ?_⟩
    unfold gridPointsF gridPoints
    cases trsf <;> simp only [hc, if_true, hmap, gridOrigin, Option.map_none, Option.getD_none, Option.map_some, Option.getD_some, add_sub_cancel_right]
  | false =>
    cases trsf with
    | none =>
      refine ⟨id, id, id, monotone_id, monotone_id, monotone_id, ?_⟩
      rw [rectilinear_exact cs sn m hc]
      simp
    | some tr =>
      refine ⟨fun e => coordF (e - tr.origin.x) tr.origin.x, fun e => coordF (e - tr.origin.y) tr.origin.y,
        fun e => coordF (e - tr.origin.z) tr.origin.z, (key Vec.zero).2 _, (key Vec.zero).2 _, (key Vec.zero).2 _, ?_⟩
      unfold gridPointsF gridPoints
      simp only [hc, Bool.false_eq_true, if_false, hmap, add_sub_cancel_right]

/-- no two points change their order along any of the three axes -/
theorem points_order (cs sn : ℚ → ℚ) (m : MeshData) (trsf : Option Trsf) (i j : ℕ) (a b a' b' : Vec)
    (hi : (gridPoints cs sn m trsf)[i]? = some a) (hj : (gridPoints cs sn m trsf)[j]? = some b)
    (hi' : (gridPointsF cs sn m trsf)[i]? = some a') (hj' : (gridPointsF cs sn m trsf)[j]? = some b') :
    (a.x ≤ b.x → a'.x ≤ b'.x) ∧ (a.y ≤ b.y → a'.y ≤ b'.y) ∧ (a.z ≤ b.z → a'.z ≤ b'.z) := by
  obtain ⟨fx, fy, fz, hx, hy, hz, he⟩ := points_through cs sn m trsf
  rw [he, List.getElem?_map] at hi' hj'
  rw [hi] at hi'
  rw [hj] at hj'
  simp only [Option.map_some, Option.some.injEq] at hi' hj'
  subst hi' hj'
  exact ⟨fun h => hx h, fun h => hy h, fun h => hz h⟩

/-- points with heights far enough apart stay apart -/
theorem heights_apart (cs sn : ℚ → ℚ) (m : MeshData) (trsf : Option Trsf) (i j : ℕ) (a b a' b' : Vec)
    (hi : (gridPoints cs sn m trsf)[i]? = some a) (hj : (gridPoints cs sn m trsf)[j]? = some b)
    (hi' : (gridPointsF cs sn m trsf)[i]? = some a') (hj' : (gridPointsF cs sn m trsf)[j]? = some b')
    (h : tol a.z (gridOrigin trsf).z + tol b.z (gridOrigin trsf).z < b.z - a.z) : a'.z < b'.z := by
  have hn := points_near cs sn m trsf
  rw [List.forall₂_iff_get] at hn
  obtain ⟨hl, hn⟩ := hn
  obtain ⟨h1, e1⟩ := List.getElem?_eq_some_iff.mp hi
  obtain ⟨h2, e2⟩ := List.getElem?_eq_some_iff.mp hj
  obtain ⟨h1', e1'⟩ := List.getElem?_eq_some_iff.mp hi'
  obtain ⟨h2', e2'⟩ := List.getElem?_eq_some_iff.mp hj'
  have n1 := (hn i h1' h1).2.2
  have n2 := (hn j h2' h2).2.2
  simp only [List.get_eq_getElem, e1, e2, e1', e2'] at n1 n2
  have := abs_le.mp n1
  have := abs_le.mp n2
  linarith

/-- a number with at most 24 binary digits is kept as it is -/
theorem coordF_exact {p o : ℚ} (h : IsSingle (p + o)) : coordF p o = p + o := by
  unfold coordF
  obtain ⟨m, k, hm, hk, he, hlt⟩ := h
  rw [dbl_exact (m := m) (k := k) (by omega) (by omega) he]
  exact sgl_exact hm hk he

/-- if every exact coordinate and every product is a single, the points are kept as they are -/
theorem singles_exact (cs sn : ℚ → ℚ) (m : MeshData) (trsf : Option Trsf)
    (hs : ∀ e ∈ gridPoints cs sn m trsf, IsSingle e.x ∧ IsSingle e.y ∧ IsSingle e.z)
    (hp : ∀ e ∈ gridPoints cs sn m trsf, IsSingle (e.x - (gridOrigin trsf).x) ∧ IsSingle (e.y - (gridOrigin trsf).y)) :
    gridPointsF cs sn m trsf = gridPoints cs sn m trsf := by
  have hd : ∀ p : ℚ, IsSingle p → dbl p = p := fun p hq => by
    obtain ⟨n, k, hn, hk, he, hlt⟩ := hq
    exact dbl_exact (m := n) (k := k) (by omega) (by omega) he
  cases hc : m.cyl with
  | true =>
    have key : ∀ o : Vec, o = gridOrigin trsf → ∀ p q z : ℚ, (⟨p + o.x, q + o.y, z + o.z⟩ : Vec) ∈ gridPoints cs sn m trsf →
        (⟨coordF (dbl p) o.x, coordF (dbl q) o.y, coordF z o.z⟩ : Vec) = ⟨p + o.x, q + o.y, z + o.z⟩ := by
      intro o ho p q z hm
      obtain ⟨a, b, c⟩ := hs _ hm
      obtain ⟨d, e⟩ := hp _ hm
      rw [← ho] at d e
      simp only [add_sub_cancel_right] at d e
      rw [hd p d, hd q e, coordF_exact a, coordF_exact b, coordF_exact c]
    unfold gridPointsF gridPoints at *
    simp only [hc, if_true] at *
    refine List.flatMap_congr (fun t ht => List.flatMap_congr (fun z hz => List.map_congr_left (fun r hr => ?_)))
    refine key _ (by cases trsf <;> rfl) _ _ _ ?_
    exact List.mem_flatMap.mpr ⟨t, ht, List.mem_flatMap.mpr ⟨z, hz, List.mem_map.mpr ⟨r, hr, rfl⟩⟩⟩
  | false =>
    cases trsf with
    | none => exact rectilinear_exact cs sn m hc
    | some tr =>
      unfold gridPointsF gridPoints at *
      simp only [hc, Bool.false_eq_true, if_false] at *
      refine List.flatMap_congr (fun z hz => List.flatMap_congr (fun y hy => List.map_congr_left (fun x hx => ?_)))
      obtain ⟨a, b, c⟩ := hs _ (List.mem_flatMap.mpr ⟨z, hz, List.mem_flatMap.mpr ⟨y, hy, List.mem_map.mpr ⟨x, hx, rfl⟩⟩⟩)
      rw [coordF_exact a, coordF_exact b, coordF_exact c]

/-! ## A layer thinner than single precision -/

/-- a cylinder with two layers, the upper one thinner than the last digit of single precision (example) -/
def thinMesh : MeshData :=
  { cyl := true, x1 := [0, 1], x2 := [0, 1000, 1000 + 1 / 65536], x3 := [0, 1], ebin := ⟨[0, 1], .erg, true⟩, tbin := ⟨[0, 1], .erg, true⟩, data := fun _ => (0, 0) }

theorem thin_sgl : coordF 1000 0 = 1000 ∧ coordF (1000 + 1 / 65536) 0 = 1000 := by
  unfold coordF
  decide +kernel

/-- False of the code: different boundaries of a cylinder can give the same points: a layer without height -/
theorem thin_layer_lost : ∃ m : MeshData, m.x2.Pairwise (· < ·) ∧ (∀ z ∈ m.x2, IsFloat z) ∧ ∀ cs sn : ℚ → ℚ, ∃ i j : ℕ, ∃ a b p : Vec,
    (gridPoints cs sn m none)[i]? = some a ∧ (gridPoints cs sn m none)[j]? = some b ∧ a.x = b.x ∧ a.y = b.y ∧ a.z < b.z ∧
    (gridPointsF cs sn m none)[i]? = some p ∧ (gridPointsF cs sn m none)[j]? = some p := by
  refine ⟨thinMesh, by decide +kernel, ?_, fun cs sn => ⟨2, 4, ⟨0 * cs 0 + 0, 0 * sn 0 + 0, 1000 + 0⟩, ⟨0 * cs 0 + 0, 0 * sn 0 + 0, 1000 + 1 / 65536 + 0⟩,
    ⟨coordF (dbl (0 * cs 0)) 0, coordF (dbl (0 * sn 0)) 0, 1000⟩, rfl, rfl, rfl, rfl, by norm_num, ?_, ?_⟩⟩
  · intro z hz
    simp only [thinMesh, List.mem_cons, List.not_mem_nil, or_false] at hz
    rcases hz with rfl | rfl | rfl
    · exact ⟨0, 0, by norm_num, by norm_num, by norm_num, by norm_num⟩
    · exact ⟨1000, 0, by norm_num, by norm_num, by norm_num, by rw [abs_of_pos (by norm_num)]; exact lt_of_lt_of_le (b := (2:ℚ)^(10:ℤ)) (by norm_num) (zpow_le_zpow_right₀ (by norm_num) (by norm_num))⟩
    · exact ⟨65536001, -16, by norm_num, by norm_num, by rw [abs_of_pos (by norm_num)]; norm_num, by
        rw [abs_of_pos (by norm_num)]; exact lt_of_lt_of_le (b := (2:ℚ)^(10:ℤ)) (by norm_num) (zpow_le_zpow_right₀ (by norm_num) (by norm_num))⟩
  · show some (⟨coordF (dbl (0 * cs 0)) 0, coordF (dbl (0 * sn 0)) 0, coordF 1000 0⟩ : Vec) = _
    rw [thin_sgl.1]
  · show some (⟨coordF (dbl (0 * cs 0)) 0, coordF (dbl (0 * sn 0)) 0, coordF (1000 + 1 / 65536) 0⟩ : Vec) = _
    rw [thin_sgl.2]

/-- a cylinder of two layers whose boundaries are all singles (example) -/
def roundMesh : MeshData := { thinMesh with x2 := [0, 1000, 2000] }

theorem single_small (n : ℕ) (h : n < 2 ^ 24) : IsSingle n :=
  ⟨n, 0, h, by norm_num, by simp, by
    rw [abs_of_nonneg (by positivity)]
    have : ((n : ℕ) : ℚ) < ((2 ^ 24 : ℕ) : ℚ) := by exact_mod_cast h
    refine this.trans_le ?_
    rw [show ((2 ^ 24 : ℕ) : ℚ) = (2 : ℚ) ^ (24 : ℤ) by norm_cast]
    exact zpow_le_zpow_right₀ (by norm_num) (by norm_num)⟩

example : ∀ e ∈ gridPoints (fun _ => 1) (fun _ => 0) roundMesh none, (IsSingle e.x ∧ IsSingle e.y ∧ IsSingle e.z) ∧
    IsSingle (e.x - (gridOrigin none).x) ∧ IsSingle (e.y - (gridOrigin none).y) := by
  have hz := single_small 0 (by norm_num)
  have h1 := single_small 1 (by norm_num)
  have h2 := single_small 1000 (by norm_num)
  have h3 := single_small 2000 (by norm_num)
  norm_num at hz h1 h2 h3
  intro e he
  simp [gridPoints, roundMesh, thinMesh, Vec.zero] at he
  rcases he with rfl | rfl | rfl | rfl | rfl | rfl | rfl | rfl | rfl | rfl | rfl | rfl <;> simp [gridOrigin, Vec.zero, hz, h1, h2, h3]

example : tol 0 0 + tol 1000 0 < 1000 - 0 := by
  unfold tol
  have : (2 : ℚ) ^ (-149 : ℤ) ≤ 1 := zpow_le_one_of_nonpos₀ (by norm_num) (by norm_num)
  norm_num at *

end F4Enix.Mesh
