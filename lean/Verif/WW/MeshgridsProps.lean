import Verif.WW.Meshgrids
import Mathlib.Tactic.LinearCombination
import Mathlib.Tactic.FieldSimp
import Mathlib.Tactic.Positivity
/-!
# Theorems about the grids of weight windows (C139-C141)
-/
namespace F4Enix.Grid3
open F4Enix

/-! ### numbering -/

theorem flatMap_get {α β : Type} (l : List α) (f : α → List β) (m : Nat) (h : ∀ a ∈ l, (f a).length = m)
    (c q : Nat) (hq : q < m) : (l.flatMap f)[c * m + q]? = l[c]?.bind (fun a => (f a)[q]?) := by
  induction l generalizing c with
  | nil => simp
  | cons a l ih =>
    rw [List.flatMap_cons]
    have ha := h a (by simp)
    cases c with
    | zero =>
      rw [List.getElem?_append_left (by rw [ha]; omega)]
      simp
    | succ c =>
      have e : (c + 1) * m + q = m + (c * m + q) := by rw [Nat.add_mul]; omega
      rw [e, ← ha, List.getElem?_append_right (by omega), ha]
      simp only [Nat.add_sub_cancel_left, List.getElem?_cons_succ]
      exact ih (fun b hb => h b (by simp [hb])) c

theorem flatMap_len {α β : Type} (l : List α) (f : α → List β) (m : Nat) (h : ∀ a ∈ l, (f a).length = m) :
    (l.flatMap f).length = l.length * m := by
  induction l with
  | nil => simp
  | cons a l ih =>
    rw [List.flatMap_cons, List.length_append, ih (fun b hb => h b (by simp [hb])), h a (by simp), List.length_cons]; ring

/-- three nested loops, the last list fastest -/
theorem grid_get {α : Type} (X Y Z : List ℝ) (P : ℝ → ℝ → ℝ → α) (i j k : Nat) (x y z : ℝ)
    (hx : X[i]? = some x) (hy : Y[j]? = some y) (hz : Z[k]? = some z) :
    (Z.flatMap (fun z => Y.flatMap (fun y => X.map (fun x => P x y z))))[(k * Y.length + j) * X.length + i]? =
      some (P x y z) := by
  have hi : i < X.length := (List.getElem?_eq_some_iff.1 hx).1
  have hj : j < Y.length := (List.getElem?_eq_some_iff.1 hy).1
  have len : ∀ z ∈ Z, (Y.flatMap (fun y => X.map (fun x => P x y z))).length = Y.length * X.length :=
    fun z _ => flatMap_len _ _ _ (fun _ _ => by simp)
  have e : (k * Y.length + j) * X.length + i = k * (Y.length * X.length) + (j * X.length + i) := by ring
  have hq : j * X.length + i < Y.length * X.length := by
    have := Nat.mul_le_mul_right X.length (show j + 1 ≤ Y.length by omega)
    rw [Nat.add_mul] at this; omega
  rw [e, flatMap_get _ _ _ len _ _ hq, hz]
  simp only [Option.bind_some]
  rw [flatMap_get _ _ X.length (fun y _ => by simp) _ _ hi, hy]
  simp [hx]

theorem grid_len {α : Type} (X Y Z : List ℝ) (P : ℝ → ℝ → ℝ → α) :
    (Z.flatMap (fun z => Y.flatMap (fun y => X.map (fun x => P x y z)))).length = X.length * Y.length * Z.length := by
  rw [flatMap_len _ _ (Y.length * X.length) (fun z _ => flatMap_len _ _ _ (fun _ _ => by simp))]; ring

/-! ### Cartesian grids -/

/-- **C139.** The point numbered `(i, j, k)`, the first axis fastest, of a Cartesian grid is at the boundaries `i`, `j`, `k` (rounded to
single precision), moved by the origin; there are no other points. -/
theorem cartesian_point (rnd : ℝ → ℝ) (plus : ℝ → ℝ → ℝ) {vi vj vk : List ℝ} (o : V3) {i j k : ℕ} {x y z : ℝ}
    (hx : vi[i]? = some x) (hy : vj[j]? = some y) (hz : vk[k]? = some z) :
    (cartesianGrid rnd plus vi vj vk (some o)).points[(k * vj.length + j) * vi.length + i]? =
      some ⟨plus (rnd x) o.x, plus (rnd y) o.y, plus (rnd z) o.z⟩ := by
  have h := grid_get (vi.map rnd) (vj.map rnd) (vk.map rnd) (fun x y z => (⟨x, y, z⟩ : V3)) i j k (rnd x) (rnd y) (rnd z)
    (by simp [hx]) (by simp [hy]) (by simp [hz])
  simp only [List.length_map] at h
  have e : (cartesianGrid rnd plus vi vj vk (some o)).points = ((vk.map rnd).flatMap (fun z => (vj.map rnd).flatMap (fun y =>
      (vi.map rnd).map (fun x => (⟨x, y, z⟩ : V3))))).map (fun q => (⟨plus q.x o.x, plus q.y o.y, plus q.z o.z⟩ : V3)) := rfl
  rw [e, List.getElem?_map, h]
  rfl

/-- without an origin the grid is not moved -/
theorem cartesian_point0 (rnd : ℝ → ℝ) (plus : ℝ → ℝ → ℝ) {vi vj vk : List ℝ} {i j k : ℕ} {x y z : ℝ}
    (hx : vi[i]? = some x) (hy : vj[j]? = some y) (hz : vk[k]? = some z) :
    (cartesianGrid rnd plus vi vj vk none).points[(k * vj.length + j) * vi.length + i]? = some ⟨rnd x, rnd y, rnd z⟩ := by
  have h := grid_get (vi.map rnd) (vj.map rnd) (vk.map rnd) (fun x y z => (⟨x, y, z⟩ : V3)) i j k (rnd x) (rnd y) (rnd z)
    (by simp [hx]) (by simp [hy]) (by simp [hz])
  simp only [List.length_map] at h
  exact h

theorem cartesian_size (rnd : ℝ → ℝ) (plus : ℝ → ℝ → ℝ) (vi vj vk : List ℝ) (o : Option V3) :
    (cartesianGrid rnd plus vi vj vk o).points.length = vi.length * vj.length * vk.length ∧
    (cartesianGrid rnd plus vi vj vk o).dims = (vi.length, vj.length, vk.length) := by
  have h := grid_len (vi.map rnd) (vj.map rnd) (vk.map rnd) (fun x y z => (⟨x, y, z⟩ : V3))
  simp only [List.length_map] at h
  refine ⟨?_, rfl⟩
  cases o with
  | none => exact h
  | some o =>
    have e : (cartesianGrid rnd plus vi vj vk (some o)).points = ((vk.map rnd).flatMap (fun z => (vj.map rnd).flatMap (fun y =>
      (vi.map rnd).map (fun x => (⟨x, y, z⟩ : V3))))).map (fun q => (⟨plus q.x o.x, plus q.y o.y, plus q.z o.z⟩ : V3)) := rfl
    rw [e, List.length_map, h]

/-! ### vectors -/

theorem dot_self_nonneg (a : V3) : 0 ≤ a.dot a := by
  unfold V3.dot; nlinarith [mul_self_nonneg a.x, mul_self_nonneg a.y, mul_self_nonneg a.z]

theorem norm_sq (a : V3) : a.norm * a.norm = a.dot a := Real.mul_self_sqrt (dot_self_nonneg a)

theorem norm_nonneg (a : V3) : 0 ≤ a.norm := Real.sqrt_nonneg _

theorem norm_zero_iff {a : V3} : a.norm = 0 ↔ a.x = 0 ∧ a.y = 0 ∧ a.z = 0 := by
  constructor
  · intro h
    have h2 := norm_sq a
    rw [h] at h2
    unfold V3.dot at h2
    have hx := mul_self_nonneg a.x
    have hy := mul_self_nonneg a.y
    have hz := mul_self_nonneg a.z
    exact ⟨mul_self_eq_zero.1 (by linarith), mul_self_eq_zero.1 (by linarith), mul_self_eq_zero.1 (by linarith)⟩
  · rintro ⟨h1, h2, h3⟩
    unfold V3.norm V3.dot
    rw [h1, h2, h3]; simp

theorem norm_pos {a : V3} (h : a.norm ≠ 0) : 0 < a.norm := lt_of_le_of_ne (norm_nonneg a) (Ne.symm h)

theorem normalize_unit {a : V3} (h : a.norm ≠ 0) : (normalize a).dot (normalize a) = 1 := by
  unfold normalize V3.dot
  have h2 := norm_sq a
  unfold V3.dot at h2
  field_simp
  nlinarith

/-- Rodrigues' formula keeps scalar products -/
theorem rodrigues_dot {n : V3} (hn : n.dot n = 1) (th : ℝ) (p q : V3) :
    (rodrigues n th p).dot (rodrigues n th q) = p.dot q := by
  have hs := Real.sin_sq_add_cos_sq th
  unfold rodrigues V3.add V3.smul V3.dot V3.cross
  unfold V3.dot at hn
  simp only at hn ⊢
  obtain ⟨nx, ny, nz⟩ := n
  obtain ⟨px, py, pz⟩ := p
  obtain ⟨qx, qy, qz⟩ := q
  simp only at hn ⊢
  generalize Real.cos th = c at *
  generalize Real.sin th = s at *
  linear_combination (s ^ 2 * (px * qx + py * qy + pz * qz) + (1 - c) ^ 2 * (nx * px + ny * py + nz * pz) * (nx * qx + ny * qy + nz * qz)) * hn +
    ((px * qx + py * qy + pz * qz) - (nx * px + ny * py + nz * pz) * (nx * qx + ny * qy + nz * qz)) * hs

theorem rodrigues_add (n : V3) (th : ℝ) (p q : V3) : rodrigues n th (p.add q) = (rodrigues n th p).add (rodrigues n th q) := by
  unfold rodrigues V3.add V3.smul V3.dot V3.cross
  simp only [V3.mk.injEq]
  refine ⟨?_, ?_, ?_⟩ <;> ring

theorem rodrigues_smul (n : V3) (th c : ℝ) (p : V3) : rodrigues n th (p.smul c) = (rodrigues n th p).smul c := by
  unfold rodrigues V3.add V3.smul V3.dot V3.cross
  simp only [V3.mk.injEq]
  refine ⟨?_, ?_, ?_⟩ <;> ring

/-! ### turning the cylinder -/

theorem clip_eq {x : ℝ} (h : -1 ≤ x) (h' : x ≤ 1) : clip x = x := by
  unfold clip; rw [max_eq_left h, min_eq_left h']

theorem cauchy {a b : V3} (ha : a.dot a = 1) (hb : b.dot b = 1) : -1 ≤ a.dot b ∧ a.dot b ≤ 1 := by
  unfold V3.dot at *
  constructor
  · nlinarith [mul_self_nonneg (a.x + b.x), mul_self_nonneg (a.y + b.y), mul_self_nonneg (a.z + b.z)]
  · nlinarith [mul_self_nonneg (a.x - b.x), mul_self_nonneg (a.y - b.y), mul_self_nonneg (a.z - b.z)]

theorem zAxis_norm : zAxis.norm = 1 := by unfold V3.norm V3.dot zAxis; simp
theorem xAxis_norm : xAxis.norm = 1 := by unfold V3.norm V3.dot xAxis; simp
theorem normalize_z : normalize zAxis = zAxis := by unfold normalize; rw [zAxis_norm]; simp
theorem normalize_x : normalize xAxis = xAxis := by unfold normalize; rw [xAxis_norm]; simp

theorem dot_zAxis (a : V3) : zAxis.dot a = a.z := by unfold V3.dot zAxis; simp
theorem dot_xAxis (a : V3) : xAxis.dot a = a.x := by unfold V3.dot xAxis; simp

theorem unit_bounds {a : V3} (h : a.norm ≠ 0) : (-1 ≤ a.z / a.norm ∧ a.z / a.norm ≤ 1) ∧ (-1 ≤ a.x / a.norm ∧ a.x / a.norm ≤ 1) := by
  have h1 := cauchy (a := zAxis) (b := normalize a) (by unfold V3.dot zAxis; simp) (normalize_unit h)
  have h2 := cauchy (a := xAxis) (b := normalize a) (by unfold V3.dot xAxis; simp) (normalize_unit h)
  rw [dot_zAxis] at h1
  rw [dot_xAxis] at h2
  exact ⟨h1, h2⟩

/-- the cosine of the angle with the vertical -/
theorem angle_z_cos {a : V3} (h : a.norm ≠ 0) : Real.cos (angleBetween zAxis a) = a.z / a.norm := by
  obtain ⟨⟨h1, h2⟩, -⟩ := unit_bounds h
  unfold angleBetween
  rw [normalize_z, dot_zAxis]
  show Real.cos (Real.arccos (clip (a.z / a.norm))) = _
  rw [clip_eq h1 h2, Real.cos_arccos h1 h2]

theorem angle_x_cos {a : V3} (h : a.norm ≠ 0) : Real.cos (angleBetween xAxis a) = a.x / a.norm := by
  obtain ⟨-, ⟨h1, h2⟩⟩ := unit_bounds h
  unfold angleBetween
  rw [normalize_x, dot_xAxis]
  show Real.cos (Real.arccos (clip (a.x / a.norm))) = _
  rw [clip_eq h1 h2, Real.cos_arccos h1 h2]

theorem angle_sin_nonneg (a b : V3) : 0 ≤ Real.sin (angleBetween a b) :=
  Real.sin_nonneg_of_nonneg_of_le_pi (Real.arccos_nonneg _) (Real.arccos_le_pi _)

/-- the sine is the positive root -/
theorem angle_sin (a b : V3) : Real.sin (angleBetween a b) = Real.sqrt (1 - Real.cos (angleBetween a b) ^ 2) := by
  rw [← Real.sin_sq, Real.sqrt_sq (angle_sin_nonneg a b)]

theorem angle_zero_iff {a : V3} (h : a.norm ≠ 0) : angleBetween zAxis a = 0 ↔ a.x = 0 ∧ a.y = 0 ∧ 0 < a.z := by
  have hp := norm_pos h
  have hn := norm_sq a
  unfold V3.dot at hn
  constructor
  · intro h0
    have hc := angle_z_cos h
    rw [h0, Real.cos_zero, eq_comm, div_eq_one_iff_eq h] at hc
    rw [← hc] at hn hp
    have hx := mul_self_nonneg a.x
    have hy := mul_self_nonneg a.y
    exact ⟨mul_self_eq_zero.1 (by linarith), mul_self_eq_zero.1 (by linarith), hp⟩
  · rintro ⟨hx, hy, hz⟩
    rw [hx, hy] at hn
    have e : a.norm = a.z := by nlinarith
    unfold angleBetween
    rw [normalize_z, dot_zAxis]
    show Real.arccos (clip (a.z / a.norm)) = 0
    rw [e, div_self hz.ne', clip_eq (by norm_num) le_rfl, Real.arccos_one]

/-- the axis of the turn -/
theorem cross_z (a : V3) : zAxis.cross a = ⟨-a.y, a.x, 0⟩ := by
  unfold V3.cross zAxis; simp

theorem cross_norm (a : V3) : (zAxis.cross a).norm = Real.sqrt (a.x ^ 2 + a.y ^ 2) := by
  rw [cross_z]; unfold V3.norm V3.dot; simp only; congr 1; ring

/-- the turn made by `_rotate_to_axis` (proof) -/
noncomputable def turn (a : V3) (p : V3) : V3 := rodrigues (normalize (zAxis.cross a)) (angleBetween zAxis a) p

/-- the vertical is turned to the axis -/
theorem turn_z {a : V3} (h : a.norm ≠ 0) (hc : (zAxis.cross a).norm ≠ 0) : turn a zAxis = normalize a := by
  have hp := norm_pos hc
  have hs := angle_sin zAxis a
  rw [angle_z_cos h] at hs
  have hnn := norm_sq a
  have hcc := norm_sq (zAxis.cross a)
  have e : Real.sqrt (1 - (a.z / a.norm) ^ 2) = (zAxis.cross a).norm / a.norm := by
    have h1 : 1 - (a.z / a.norm) ^ 2 = ((zAxis.cross a).norm / a.norm) ^ 2 := by
      field_simp
      rw [cross_z] at *
      unfold V3.dot at hnn hcc
      simp only at hcc
      nlinarith
    rw [h1, Real.sqrt_sq (div_nonneg hp.le (norm_nonneg a))]
  rw [e] at hs
  have hcos := angle_z_cos h
  unfold turn rodrigues
  rw [hs, hcos]
  generalize hN : (zAxis.cross a).norm = N at *
  have en : normalize (zAxis.cross a) = ⟨-a.y / N, a.x / N, 0⟩ := by
    unfold normalize; rw [hN, cross_z]; simp
  rw [en]
  unfold normalize V3.add V3.smul V3.dot V3.cross zAxis
  simp only [V3.mk.injEq]
  refine ⟨?_, ?_, ?_⟩
  · field_simp; ring
  · field_simp; ring
  · field_simp; ring

theorem rodrigues_cross {n : V3} (hn : n.dot n = 1) (th : ℝ) (p q : V3) :
    (rodrigues n th p).cross (rodrigues n th q) = rodrigues n th (p.cross q) := by
  have hs := Real.sin_sq_add_cos_sq th
  unfold rodrigues V3.add V3.smul V3.dot V3.cross
  unfold V3.dot at hn
  obtain ⟨nx, ny, nz⟩ := n
  obtain ⟨px, py, pz⟩ := p
  obtain ⟨qx, qy, qz⟩ := q
  simp only [V3.mk.injEq] at hn ⊢
  generalize Real.cos th = c at *
  generalize Real.sin th = s at *
  refine ⟨?_, ?_, ?_⟩
  · linear_combination (c * (1 - c) * (py * qz - pz * qy) + s * (1 - c) * (ny * (px * qy - py * qx) - nz * (pz * qx - px * qz))) * hn +
      (nx * (nx * (py * qz - pz * qy) + ny * (pz * qx - px * qz) + nz * (px * qy - py * qx))) * hs
  · linear_combination (c * (1 - c) * (pz * qx - px * qz) + s * (1 - c) * (nz * (py * qz - pz * qy) - nx * (px * qy - py * qx))) * hn +
      (ny * (nx * (py * qz - pz * qy) + ny * (pz * qx - px * qz) + nz * (px * qy - py * qx))) * hs
  · linear_combination (c * (1 - c) * (px * qy - py * qx) + s * (1 - c) * (nx * (pz * qx - px * qz) - ny * (py * qz - pz * qy))) * hn +
      (nz * (nx * (py * qz - pz * qy) + ny * (pz * qx - px * qz) + nz * (px * qy - py * qx))) * hs

/-- a turn about the vertical -/
theorem rodrigues_z (th : ℝ) (p : V3) : rodrigues zAxis th p =
    ⟨Real.cos th * p.x - Real.sin th * p.y, Real.sin th * p.x + Real.cos th * p.y, p.z⟩ := by
  unfold rodrigues V3.add V3.smul V3.dot V3.cross zAxis
  simp only [V3.mk.injEq]
  refine ⟨?_, ?_, ?_⟩ <;> ring

theorem rodrigues_zero {n : V3} (p : V3) : rodrigues n 0 p = p := by
  unfold rodrigues V3.add V3.smul V3.dot V3.cross
  rw [Real.cos_zero, Real.sin_zero]
  obtain ⟨px, py, pz⟩ := p
  simp

/-- the turn about the vertical never fails -/
theorem rotateToVec_ok (g : SGrid) (v : V3) :
    rotateToVec g v = .ok { g with points := g.points.map (rodrigues zAxis (angleBetween xAxis v)) } := by
  unfold rotateToVec rotateVector
  split
  · rename_i h
    rw [h]
    have : rodrigues zAxis 0 = id := funext (fun p => rodrigues_zero p)
    rw [this, List.map_id]
  · have h2 : ¬ isClose zAxis.norm 0 := by
      unfold isClose; rw [zAxis_norm]; norm_num
    rw [if_neg h2, normalize_z]

/-- axes that cannot be used (specification) -/
def Refused (a : V3) : Prop := Real.sqrt (a.x ^ 2 + a.y ^ 2) ≤ 1 / 100000000 ∧ ¬ (a.x = 0 ∧ a.y = 0 ∧ 0 < a.z)

/-- what `_rotate_to_axis` does with an axis that is used -/
theorem rotateToAxis_ok {a : V3} (ha : a.norm ≠ 0) (hr : ¬ Refused a) (g : SGrid) :
    ∃ L : V3 → V3, rotateToAxis g a = .ok { g with points := g.points.map L } ∧ L zAxis = normalize a ∧
      (∀ p q, L (p.add q) = (L p).add (L q)) ∧ (∀ c p, L (p.smul c) = (L p).smul c) ∧
      (∀ p q, (L p).dot (L q) = p.dot q) ∧ (∀ p q, (L p).cross (L q) = L (p.cross q)) ∧ 
      (a.x = 0 → a.y = 0 → L = id) ∧ (angleBetween zAxis a ≠ 0 → L = turn a) := by
  unfold rotateToAxis rotateVector
  by_cases h0 : angleBetween zAxis a = 0
  · obtain ⟨hx, hy, hz⟩ := (angle_zero_iff ha).1 h0
    rw [if_pos h0]
    refine ⟨id, by simp, ?_, fun _ _ => rfl, fun _ _ => rfl, fun _ _ => rfl, fun _ _ => rfl, fun _ _ => rfl, fun h => absurd h0 h⟩
    have hn := norm_sq a
    unfold V3.dot at hn
    rw [hx, hy] at hn
    have e : a.norm = a.z := by nlinarith [norm_pos ha]
    unfold normalize zAxis
    rw [hx, hy, e, div_self hz.ne']; simp
  · have h1 : ¬ isClose (zAxis.cross a).norm 0 := by
      intro hc
      unfold isClose at hc
      rw [sub_zero, abs_of_nonneg (norm_nonneg _), abs_zero, mul_zero, add_zero, cross_norm] at hc
      exact hr ⟨hc, fun h => h0 ((angle_zero_iff ha).2 h)⟩
    have hc : (zAxis.cross a).norm ≠ 0 := by
      intro hc; apply h1; unfold isClose; rw [hc]; norm_num
    rw [if_neg h0, if_neg h1]
    refine ⟨turn a, rfl, turn_z ha hc, rodrigues_add _ _, fun c p => rodrigues_smul _ _ c p,
      rodrigues_dot (normalize_unit hc) _, rodrigues_cross (normalize_unit hc) _, ?_, fun _ => rfl⟩
    intro hx hy
    exfalso
    apply hc
    rw [cross_norm, hx, hy]; simp

/-- an axis opposed to the vertical, or too short, is refused -/
theorem rotateToAxis_refused {a : V3} (ha : a.norm ≠ 0) (hr : Refused a) (g : SGrid) : rotateToAxis g a = .error .valueError := by
  unfold rotateToAxis rotateVector
  have h0 : angleBetween zAxis a ≠ 0 := fun h => hr.2 ((angle_zero_iff ha).1 h)
  have h1 : isClose (zAxis.cross a).norm 0 := by
    unfold isClose
    rw [sub_zero, abs_of_nonneg (norm_nonneg _), abs_zero, mul_zero, add_zero, cross_norm]
    exact hr.1
  rw [if_neg h0, if_pos h1]

/-! ### bins as drawn -/

/-- the radii drawn: those given, but for a first radius of zero, which is drawn at one percent of the second (specification) -/
def DrawnRadii (vi vi' : List ℝ) : Prop :=
  vi'.length = vi.length ∧ (∀ i, 0 < i → vi'[i]? = vi[i]?) ∧
  ∃ r, vi[0]? = some r ∧ ((vi'[0]? = some r ∧ ¬ |r| ≤ 1 / 100000000) ∨ (|r| ≤ 1 / 100000000 ∧ ∃ s, vi[1]? = some s ∧ vi'[0]? = some (s * (1 / 100))))

theorem correctRadius_ok {vi vi' : List ℝ} (h : correctRadius vi = .ok vi') : DrawnRadii vi vi' := by
  have e : ∀ a : ℝ, isClose a 0 ↔ |a| ≤ 1 / 100000000 := by intro a; unfold isClose; simp
  unfold correctRadius at h
  match vi, h with
  | a :: r, h =>
    simp only at h
    split at h
    · rename_i hc
      match r, h with
      | b :: r, h =>
        simp only [Except.ok.injEq] at h
        subst h
        refine ⟨rfl, ?_, a, rfl, Or.inr ⟨(e a).1 hc, b, rfl, rfl⟩⟩
        intro i hi
        cases i with
        | zero => omega
        | succ i => rfl
    · rename_i hc
      simp only [Except.ok.injEq] at h
      subst h
      exact ⟨rfl, fun _ _ => rfl, a, rfl, Or.inl ⟨rfl, fun h => hc ((e a).2 h)⟩⟩

/-- one radius or none is refused if it is zero; all else is drawn -/
theorem correctRadius_total {vi : List ℝ} (h : 2 ≤ vi.length) : ∃ vi', correctRadius vi = .ok vi' := by
  match vi, h with
  | a :: b :: r, _ =>
    unfold correctRadius
    simp only
    split
    · exact ⟨_, rfl⟩
    · exact ⟨_, rfl⟩

/-- the angles drawn, in revolutions: those given, but for a first angle of (nearly) zero and a last one of (nearly) one turn (specification) -/
def SnappedAngles (vk vk' : List ℝ) : Prop :=
  vk'.length = vk.length ∧ ∀ t x x', vk[t]? = some x → vk'[t]? = some x' →
    x' = x ∨ (t = 0 ∧ |x| ≤ 1 / 100000000 ∧ x' = 0) ∨ (t + 1 = vk.length ∧ |x - 1| ≤ 1 / 100000000 + 1 / 100000 ∧ x' = 1)

theorem fixLast_get {v : List ℝ} {t : ℕ} {x : ℝ} (h : v[t]? = some x) : (fixLast v).length = v.length ∧
    ∃ x', (fixLast v)[t]? = some x' ∧ (x' = x ∨ (t + 1 = v.length ∧ isClose x 1 ∧ x' = 1)) := by
  have hv : v ≠ [] := by rintro rfl; simp at h
  have hg : v.getLast? = some (v.getLast hv) := List.getLast?_eq_some_getLast hv
  have ht := (List.getElem?_eq_some_iff.1 h).1
  unfold fixLast
  rw [hg]
  simp only
  split
  · rename_i hc
    have hl : v.dropLast.length + 1 = v.length := by rw [List.length_dropLast]; omega
    refine ⟨by rw [List.length_append, List.length_singleton, hl], ?_⟩
    by_cases h1 : t + 1 = v.length
    · refine ⟨1, ?_, Or.inr ⟨h1, ?_, rfl⟩⟩
      · rw [List.getElem?_append_right (by omega)]
        have : t - v.dropLast.length = 0 := by omega
        rw [this]; rfl
      · have e : v[t]? = some (v.getLast hv) := by
          rw [← hg, List.getLast?_eq_getElem?]; congr 1; omega
        rw [e, Option.some.injEq] at h
        rw [← h]; exact hc
    · refine ⟨x, ?_, Or.inl rfl⟩
      rw [List.getElem?_append_left (by omega), List.getElem?_dropLast, if_pos (by omega), h]
  · exact ⟨rfl, x, h, Or.inl rfl⟩

theorem correctTheta_ok {vk vk' : List ℝ} (h : correctTheta vk = .ok vk') : SnappedAngles vk vk' := by
  have e0 : ∀ a : ℝ, isClose a 0 ↔ |a| ≤ 1 / 100000000 := by intro a; unfold isClose; simp
  have e1 : ∀ a : ℝ, isClose a 1 ↔ |a - 1| ≤ 1 / 100000000 + 1 / 100000 := by intro a; unfold isClose; simp
  match vk, h with
  | a :: r, h =>
    simp only [correctTheta, Except.ok.injEq] at h
    subst h
    have hf : ∃ b, fixFirst (a :: r) = b :: r ∧ (b = a ∨ (|a| ≤ 1 / 100000000 ∧ b = 0)) := by
      simp only [fixFirst]
      split
      · rename_i hc; exact ⟨0, rfl, Or.inr ⟨(e0 a).1 hc, rfl⟩⟩
      · exact ⟨a, rfl, Or.inl rfl⟩
    obtain ⟨b, hb, hab⟩ := hf
    rw [hb]
    refine ⟨(fixLast_get (v := b :: r) (t := 0) (x := b) rfl).1, ?_⟩
    intro t x x' hx hx'
    cases t with
    | zero =>
      simp only [List.getElem?_cons_zero, Option.some.injEq] at hx
      subst hx
      obtain ⟨-, y, hy, hy'⟩ := fixLast_get (v := b :: r) (t := 0) (x := b) rfl
      rw [hy, Option.some.injEq] at hx'
      subst hx'
      rcases hy' with rfl | ⟨h1, h2, h3⟩
      · rcases hab with rfl | ⟨h1, h2⟩
        · exact Or.inl rfl
        · exact Or.inr (Or.inl ⟨rfl, h1, h2⟩)
      · rcases hab with rfl | ⟨h4, h5⟩
        · exact Or.inr (Or.inr ⟨h1, (e1 _).1 h2, h3⟩)
        · exfalso
          rw [h5, e1] at h2
          norm_num at h2
    | succ t =>
      have hx2 : (b :: r)[t + 1]? = some x := hx
      obtain ⟨-, y, hy, hy'⟩ := fixLast_get hx2
      rw [hy, Option.some.injEq] at hx'
      subst hx'
      rcases hy' with rfl | ⟨h1, h2, h3⟩
      · exact Or.inl rfl
      · exact Or.inr (Or.inr ⟨h1, (e1 _).1 h2, h3⟩)

theorem linspace_get (a b : ℝ) {n t : ℕ} (h : t ≤ n) : (linspace a b n)[t]? = some (a + t * ((b - a) / n)) := by
  unfold linspace
  rw [List.getElem?_map, List.getElem?_range (by omega)]; rfl

theorem linspace_len (a b : ℝ) (n : ℕ) : (linspace a b n).length = n + 1 := by unfold linspace; simp

/-- one sector is drawn as twenty equal ones -/
theorem extend_one {a b : ℝ} {l : List ℝ} (h : extendTheta [a, b] = .ok l) :
    l.length = 21 ∧ ∀ t : ℕ, t ≤ 20 → l[t]? = some (a + (b - a) * t / 20) := by
  simp only [extendTheta, Except.ok.injEq] at h
  subst h
  refine ⟨linspace_len _ _ _, fun t ht => ?_⟩
  rw [linspace_get _ _ ht]; congr 1; push_cast; ring

/-- two sectors are drawn as ten equal ones each -/
theorem extend_two {a b c : ℝ} {l : List ℝ} (h : extendTheta [a, b, c] = .ok l) :
    l.length = 21 ∧ (∀ t : ℕ, t ≤ 10 → l[t]? = some (a + (b - a) * t / 10)) ∧
      (∀ t : ℕ, t ≤ 10 → l[10 + t]? = some (b + (c - b) * t / 10)) := by
  simp only [extendTheta, Except.ok.injEq] at h
  subst h
  refine ⟨by simp [linspace_len], fun t ht => ?_, fun t ht => ?_⟩
  · rw [List.getElem?_append_left (by rw [linspace_len]; omega), linspace_get _ _ ht]; congr 1; push_cast; ring
  · cases t with
    | zero =>
      rw [List.getElem?_append_left (by rw [linspace_len]; omega), linspace_get _ _ (by omega)]; congr 1; push_cast; ring
    | succ t =>
      rw [List.getElem?_append_right (by rw [linspace_len]; omega), linspace_len, List.getElem?_drop]
      have e : 1 + (10 + (t + 1) - (10 + 1)) = t + 1 := by omega
      rw [e, linspace_get _ _ ht]; congr 1; push_cast; ring

theorem correctTheta_total {vk : List ℝ} (h : vk ≠ []) : ∃ vk', correctTheta vk = .ok vk' := by
  match vk, h with
  | a :: r, _ => exact ⟨_, rfl⟩

/-- the boundaries of the sectors drawn: of one sector twenty, of two sectors ten each, else those given (specification) -/
def DrawnAngles (vk vk' : List ℝ) : Prop :=
  (∃ a b, vk = [a, b] ∧ vk'.length = 21 ∧ ∀ t : ℕ, t ≤ 20 → vk'[t]? = some (a + (b - a) * t / 20)) ∨
  (∃ a b c, vk = [a, b, c] ∧ vk'.length = 21 ∧ (∀ t : ℕ, t ≤ 10 → vk'[t]? = some (a + (b - a) * t / 10)) ∧
      (∀ t : ℕ, t ≤ 10 → vk'[10 + t]? = some (b + (c - b) * t / 10))) ∨
  (4 ≤ vk.length ∧ vk' = vk)

theorem extend_drawn {vk vk' : List ℝ} (h : (if vk.length ≤ 3 then extendTheta vk else Except.ok vk) = .ok vk') : DrawnAngles vk vk' := by
  split at h
  · match vk, h with
    | [a, b], h => exact Or.inl ⟨a, b, rfl, extend_one h⟩
    | [a, b, c], h => exact Or.inr (Or.inl ⟨a, b, c, rfl, extend_two h⟩)
  · rename_i hl
    simp only [Except.ok.injEq] at h
    exact Or.inr (Or.inr ⟨by omega, h.symm⟩)

theorem extend_total {vk : List ℝ} (h : 2 ≤ vk.length) : ∃ vk', (if vk.length ≤ 3 then extendTheta vk else Except.ok vk) = .ok vk' := by
  split
  · match vk, h with
    | [a, b], _ => exact ⟨_, rfl⟩
    | [a, b, c], _ => exact ⟨_, rfl⟩
    | a :: b :: c :: d :: r, _ => rename_i hl; simp at hl; omega
  · exact ⟨_, rfl⟩

/-! ### cylindrical grids -/

/-- the points of the cylinder upright at the origin -/
theorem cylinderZ_point {vi vj vk : List ℝ} {i j t : ℕ} {r h th : ℝ} (hr : vi[i]? = some r) (hh : vj[j]? = some h) (ht : vk[t]? = some th) :
    (cylinderZ vi vj vk).points[(j * vk.length + t) * vi.length + i]? =
      some ⟨Real.cos (th * 2 * Real.pi) * r, Real.sin (th * 2 * Real.pi) * r, h⟩ := by
  have h := grid_get vi (vk.map (fun t => t * 2 * Real.pi)) vj (fun r th z => (⟨Real.cos th * r, Real.sin th * r, z⟩ : V3)) i t j r
    (th * 2 * Real.pi) h hr (by simp [ht]) hh
  simp only [List.length_map] at h
  exact h

/-- **C140.** A cylindrical grid that is made has the points at the given radius, height and angle around its axis: there are a direction
`u` of angle zero and a direction `w`, normal to each other and to the axis and counted right-handed about it, with each point at
`origin + height * axis + radius * (cos angle * u + sin angle * w)`. Radii and angles are those given, but for those on the axis and for
cylinders of one or two sectors, which are split (`DrawnRadii`, `SnappedAngles`, `DrawnAngles`). Partial: Proved for all cylinders that are drawn; those with an axis pointing straight down are refused (axis_down_refused). Exact numbers; pyvista's rotation is assumed to be Rodrigues' formula. -/
theorem cylinder_point_partial {vi vj vk : List ℝ} {o a v : V3} {g : SGrid} (ha : a.norm ≠ 0)
    (h : cylindricalGrid vi vj vk (some o) (some a) (some v) = .ok g) :
    ∃ (vi' vs vk' : List ℝ) (u w : V3), DrawnRadii vi vi' ∧ SnappedAngles vk vs ∧ DrawnAngles vs vk' ∧
      u.dot u = 1 ∧ w.dot w = 1 ∧ u.dot w = 0 ∧ u.dot a = 0 ∧ w.dot a = 0 ∧ u.cross w = a.smul (1 / a.norm) ∧
      g.dims = (vi'.length, vk'.length, vj.length) ∧ g.points.length = vi'.length * vk'.length * vj.length ∧
      ∀ (i t j : ℕ) (r th z : ℝ), vi'[i]? = some r → vk'[t]? = some th → vj[j]? = some z →
        g.points[(j * vk'.length + t) * vi'.length + i]? =
          some (o.add ((a.smul (z / a.norm)).add (((u.smul (Real.cos (th * 2 * Real.pi))).add (w.smul (Real.sin (th * 2 * Real.pi)))).smul r))) := by
  unfold cylindricalGrid at h
  cases h1 : correctRadius vi with
  | error e => rw [h1] at h; simp at h
  | ok vi' =>
    rw [h1] at h
    simp only at h
    cases h2 : correctTheta vk with
    | error e => rw [h2] at h; simp at h
    | ok vs =>
      rw [h2] at h
      simp only at h
      cases h3 : (if vs.length ≤ 3 then extendTheta vs else Except.ok vs) with
      | error e => rw [h3] at h; simp at h
      | ok vk' =>
        rw [h3] at h
        simp only [orient, rotateToVec_ok] at h
        have hr : ¬ Refused a := by
          intro hr
          rw [rotateToAxis_refused ha hr] at h
          simp at h
        obtain ⟨L, hL, hz, hadd, hsmul, hdot, hcross, -, -⟩ := rotateToAxis_ok ha hr
          { cylinderZ vi' vj vk' with points := (cylinderZ vi' vj vk').points.map (rodrigues zAxis (angleBetween xAxis v)) }
        rw [hL] at h
        simp only [Except.ok.injEq] at h
        subst h
        generalize angleBetween xAxis v = f at *
        have hs := Real.sin_sq_add_cos_sq f
        have na : a = (normalize a).smul a.norm := by
          unfold normalize V3.smul
          obtain ⟨x, y, z⟩ := a
          simp only [V3.mk.injEq]
          refine ⟨?_, ?_, ?_⟩ <;> field_simp
        have na' : a.smul (1 / a.norm) = normalize a := by
          unfold normalize V3.smul
          simp only [V3.mk.injEq]
          refine ⟨?_, ?_, ?_⟩ <;> field_simp
        have nz : ∀ z, a.smul (z / a.norm) = (normalize a).smul z := by
          intro z
          unfold normalize V3.smul
          simp only [V3.mk.injEq]
          refine ⟨?_, ?_, ?_⟩ <;> field_simp
        have dsm : ∀ p q : V3, ∀ c : ℝ, p.dot (q.smul c) = c * p.dot q := by
          intro p q c; unfold V3.dot V3.smul; simp only; ring
        refine ⟨vi', vs, vk', L ⟨Real.cos f, Real.sin f, 0⟩, L ⟨-Real.sin f, Real.cos f, 0⟩, correctRadius_ok h1, correctTheta_ok h2,
          extend_drawn h3, ?_, ?_, ?_, ?_, ?_, ?_, rfl, ?_, ?_⟩
        · rw [hdot]; unfold V3.dot; simp only; linear_combination hs
        · rw [hdot]; unfold V3.dot; simp only; linear_combination hs
        · rw [hdot]; unfold V3.dot; simp only; ring
        · rw [na, dsm, ← hz, hdot]; unfold V3.dot zAxis; simp
        · rw [na, dsm, ← hz, hdot]; unfold V3.dot zAxis; simp
        · rw [na', hcross, ← hz]
          congr 1
          unfold V3.cross zAxis
          simp only [V3.mk.injEq]
          refine ⟨by ring, by ring, by linear_combination hs⟩
        · simp only [List.length_map]
          have := grid_len vi' (vk'.map (fun t => t * 2 * Real.pi)) vj (fun r th z => (⟨Real.cos th * r, Real.sin th * r, z⟩ : V3))
          simp only [List.length_map] at this
          exact this
        · intro i t j r th z hr ht hj
          simp only [List.getElem?_map]
          rw [cylinderZ_point hr hj ht]
          simp only [Option.map_some, Option.some.injEq]
          rw [nz, ← hz, ← hsmul, ← hsmul, ← hsmul, ← hadd, ← hsmul, ← hadd, rodrigues_z]
          have comm : ∀ p : V3, p.add o = o.add p := by
            intro p; unfold V3.add; simp only [V3.mk.injEq]; refine ⟨?_, ?_, ?_⟩ <;> ring
          rw [comm]
          congr 2
          unfold V3.add V3.smul zAxis
          simp only [V3.mk.injEq]
          refine ⟨by ring, by ring, by ring⟩

/-- **C140 (which are made).** Cylinders of one ring and one sector at least are drawn unless the axis is refused. -/
theorem cylinder_made {vi vj vk : List ℝ} (o a v : V3) (ha : a.norm ≠ 0) (hr : ¬ Refused a) (hi : 2 ≤ vi.length) (hk : 2 ≤ vk.length) :
    ∃ g, cylindricalGrid vi vj vk (some o) (some a) (some v) = .ok g := by
  obtain ⟨vi', h1⟩ := correctRadius_total hi
  obtain ⟨vs, h2⟩ := correctTheta_total (vk := vk) (by rintro rfl; simp at hk)
  obtain ⟨vk', h3⟩ := extend_total (vk := vs) (by rw [(correctTheta_ok h2).1]; exact hk)
  obtain ⟨L, hL, -⟩ := rotateToAxis_ok ha hr
          { cylinderZ vi' vj vk' with points := (cylinderZ vi' vj vk').points.map (rodrigues zAxis (angleBetween xAxis v)) }
  unfold cylindricalGrid
  rw [h1]
  simp only
  rw [h2]
  simp only
  rw [h3]
  simp only [orient, rotateToVec_ok]
  rw [hL]
  exact ⟨_, rfl⟩

/-- **C140 is false of the code**: a cylinder whose axis points down is never drawn. -/
theorem axis_down_refused {vi vj vk : List ℝ} (o v : V3) {c : ℝ} (hc : 0 < c) (hi : 2 ≤ vi.length) (hk : 2 ≤ vk.length) :
    cylindricalGrid vi vj vk (some o) (some ⟨0, 0, -c⟩) (some v) = .error .valueError := by
  obtain ⟨vi', h1⟩ := correctRadius_total hi
  obtain ⟨vs, h2⟩ := correctTheta_total (vk := vk) (by rintro rfl; simp at hk)
  obtain ⟨vk', h3⟩ := extend_total (vk := vs) (by rw [(correctTheta_ok h2).1]; exact hk)
  have ha : (⟨0, 0, -c⟩ : V3).norm ≠ 0 := by
    intro h
    have := (norm_zero_iff.1 h).2.2
    simp only at this
    linarith
  have hr : Refused ⟨0, 0, -c⟩ := by
    refine ⟨by simp, ?_⟩
    rintro ⟨-, -, h⟩
    simp only at h
    linarith
  unfold cylindricalGrid
  rw [h1]
  simp only
  rw [h2]
  simp only
  rw [h3]
  simp only [orient, rotateToVec_ok]
  rw [rotateToAxis_refused ha hr]

/-- what is left out is as if the origin, the vertical and the first axis were given -/
theorem cylinder_defaults (vi vj vk : List ℝ) (o a v : Option V3) :
    cylindricalGrid vi vj vk o a v =
      cylindricalGrid vi vj vk (some (o.getD ⟨0, 0, 0⟩)) (some (a.getD zAxis)) (some (v.getD xAxis)) := by
  have hx : angleBetween xAxis xAxis = 0 := by
    unfold angleBetween
    rw [normalize_x, dot_xAxis, show xAxis.x = 1 from rfl, clip_eq (by norm_num) le_rfl, Real.arccos_one]
  have hz : angleBetween zAxis zAxis = 0 := by
    unfold angleBetween
    rw [normalize_z, dot_zAxis, show zAxis.z = 1 from rfl, clip_eq (by norm_num) le_rfl, Real.arccos_one]
  have ho : ∀ g : SGrid, { g with points := g.points.map (fun q => q.add ⟨0, 0, 0⟩) } = g := by
    intro g
    have : (fun q : V3 => q.add ⟨0, 0, 0⟩) = id := by
      funext q; unfold V3.add; obtain ⟨x, y, z⟩ := q; simp
    rw [this, List.map_id]
  have hv : ∀ g, rotateToVec g xAxis = .ok g := by intro g; unfold rotateToVec rotateVector; rw [if_pos hx]
  have hA : ∀ g, rotateToAxis g zAxis = .ok g := by intro g; unfold rotateToAxis rotateVector; rw [if_pos hz]
  have key : ∀ g, orient g o a v = orient g (some (o.getD ⟨0, 0, 0⟩)) (some (a.getD zAxis)) (some (v.getD xAxis)) := by
    intro g
    cases o <;> cases a <;> cases v <;> simp only [orient, Option.getD_none, Option.getD_some, hv, hA, ho]
  unfold cylindricalGrid
  cases correctRadius vi with
  | error e => rfl
  | ok vi =>
    simp only
    cases correctTheta vk with
    | error e => rfl
    | ok vk =>
      simp only
      cases (if vk.length ≤ 3 then extendTheta vk else Except.ok vk) with
      | error e => rfl
      | ok vk => simp only [key]

/-! ### where the angles begin -/

/-- the points of a cylinder that is made -/
theorem cylinder_points {vi vj vk : List ℝ} {o a v : V3} {g : SGrid} (ha : a.norm ≠ 0)
    (h : cylindricalGrid vi vj vk (some o) (some a) (some v) = .ok g) :
    ∃ (vi' vs vk' : List ℝ) (L : V3 → V3), DrawnRadii vi vi' ∧ SnappedAngles vk vs ∧ DrawnAngles vs vk' ∧
      (a.x = 0 → a.y = 0 → L = id) ∧ (angleBetween zAxis a ≠ 0 → L = turn a) ∧
      g.points = (cylinderZ vi' vj vk').points.map (fun p => (L (rodrigues zAxis (angleBetween xAxis v) p)).add o) := by
  unfold cylindricalGrid at h
  cases h1 : correctRadius vi with
  | error e => rw [h1] at h; simp at h
  | ok vi' =>
    rw [h1] at h
    simp only at h
    cases h2 : correctTheta vk with
    | error e => rw [h2] at h; simp at h
    | ok vs =>
      rw [h2] at h
      simp only at h
      cases h3 : (if vs.length ≤ 3 then extendTheta vs else Except.ok vs) with
      | error e => rw [h3] at h; simp at h
      | ok vk' =>
        rw [h3] at h
        simp only [orient, rotateToVec_ok] at h
        have hr : ¬ Refused a := by
          intro hr
          rw [rotateToAxis_refused ha hr] at h
          simp at h
        obtain ⟨L, hL, -, -, -, -, -, hid, ht⟩ := rotateToAxis_ok ha hr
          { cylinderZ vi' vj vk' with points := (cylinderZ vi' vj vk').points.map (rodrigues zAxis (angleBetween xAxis v)) }
        rw [hL] at h
        simp only [Except.ok.injEq] at h
        subst h
        refine ⟨vi', vs, vk', L, correctRadius_ok h1, correctTheta_ok h2, extend_drawn h3, hid, ht, ?_⟩
        simp only [List.map_map]
        rfl

/-- **C141 (upright cylinders).** The angles of an upright cylinder begin at `vec` if its second component is not negative. In general they
begin at the mirror image of `vec` in the plane `y = 0` when it is. -/
theorem vec_upright {vi vj vk : List ℝ} {o v : V3} {c : ℝ} {g : SGrid} (hc : 0 < c) (hv : v.norm ≠ 0) (hz : v.z = 0)
    (h : cylindricalGrid vi vj vk (some o) (some ⟨0, 0, c⟩) (some v) = .ok g) :
    ∃ (vi' vs vk' : List ℝ), DrawnRadii vi vi' ∧ SnappedAngles vk vs ∧ DrawnAngles vs vk' ∧
      ∀ (i t j : ℕ) (r th z : ℝ), vi'[i]? = some r → vk'[t]? = some th → vj[j]? = some z →
        g.points[(j * vk'.length + t) * vi'.length + i]? =
          some ⟨o.x + r * (Real.cos (th * 2 * Real.pi) * (v.x / v.norm) - Real.sin (th * 2 * Real.pi) * (|v.y| / v.norm)),
            o.y + r * (Real.cos (th * 2 * Real.pi) * (|v.y| / v.norm) + Real.sin (th * 2 * Real.pi) * (v.x / v.norm)), o.z + z⟩ := by
  have ha : (⟨0, 0, c⟩ : V3).norm ≠ 0 := by
    intro h
    have := (norm_zero_iff.1 h).2.2
    simp only at this
    linarith
  obtain ⟨vi', vs, vk', L, h1, h2, h3, hid, -, hp⟩ := cylinder_points ha h
  have hL := hid rfl rfl
  subst hL
  refine ⟨vi', vs, vk', h1, h2, h3, ?_⟩
  have hcos := angle_x_cos hv
  have hsin : Real.sin (angleBetween xAxis v) = |v.y| / v.norm := by
    rw [angle_sin, hcos]
    have hn := norm_sq v
    unfold V3.dot at hn
    rw [hz] at hn
    have e : 1 - (v.x / v.norm) ^ 2 = (|v.y| / v.norm) ^ 2 := by
      rw [div_pow, div_pow, sq_abs]
      field_simp
      nlinarith
    rw [e, Real.sqrt_sq (div_nonneg (abs_nonneg _) (norm_nonneg v))]
  intro i t j r th z hr ht hj
  rw [hp, List.getElem?_map, cylinderZ_point hr hj ht]
  simp only [Option.map_some, Option.some.injEq, id_eq]
  rw [rodrigues_z, hcos, hsin]
  unfold V3.add
  simp only [V3.mk.injEq]
  refine ⟨by ring, by ring, by ring⟩

/-- **C141 (partial).** With `vec` in the half plane `y ≥ 0` the point at angle zero is in the direction of `vec`. -/
theorem vec_upright_partial {vi vj vk : List ℝ} {o v : V3} {c : ℝ} {g : SGrid} (hc : 0 < c) (hv : v.norm ≠ 0) (hz : v.z = 0) (hy : 0 ≤ v.y)
    (h : cylindricalGrid vi vj vk (some o) (some ⟨0, 0, c⟩) (some v) = .ok g) :
    ∃ (vi' vs vk' : List ℝ), DrawnRadii vi vi' ∧ SnappedAngles vk vs ∧ DrawnAngles vs vk' ∧
      ∀ (i t j : ℕ) (r z : ℝ), vi'[i]? = some r → vk'[t]? = some 0 → vj[j]? = some z →
        g.points[(j * vk'.length + t) * vi'.length + i]? =
          some (o.add ((v.smul (r / v.norm)).add (zAxis.smul z))) := by
  obtain ⟨vi', vs, vk', h1, h2, h3, hp⟩ := vec_upright hc hv hz h
  refine ⟨vi', vs, vk', h1, h2, h3, ?_⟩
  intro i t j r z hr ht hj
  rw [hp i t j r 0 z hr ht hj, abs_of_nonneg hy]
  unfold V3.add V3.smul zAxis
  rw [zero_mul, zero_mul, Real.cos_zero, Real.sin_zero, hz]
  simp only [Option.some.injEq, V3.mk.injEq]
  refine ⟨by ring, by ring, by ring⟩

/-- **C141 is false of the code**: with `vec` in the half plane `y < 0` no point of angle zero outside the axis is in its direction. -/
theorem vec_mirrored {vi vj vk : List ℝ} {o v : V3} {c : ℝ} {g : SGrid} (hc : 0 < c) (hv : v.norm ≠ 0) (hz : v.z = 0) (hy : v.y < 0)
    (h : cylindricalGrid vi vj vk (some o) (some ⟨0, 0, c⟩) (some v) = .ok g) :
    ∃ (vi' vs vk' : List ℝ), DrawnRadii vi vi' ∧ SnappedAngles vk vs ∧ DrawnAngles vs vk' ∧
      ∀ (i t j : ℕ) (r z : ℝ), r ≠ 0 → vi'[i]? = some r → vk'[t]? = some 0 → vj[j]? = some z →
        g.points[(j * vk'.length + t) * vi'.length + i]? ≠
          some (o.add ((v.smul (r / v.norm)).add (zAxis.smul z))) := by
  obtain ⟨vi', vs, vk', h1, h2, h3, hp⟩ := vec_upright hc hv hz h
  refine ⟨vi', vs, vk', h1, h2, h3, ?_⟩
  intro i t j r z hr0 hr ht hj
  rw [hp i t j r 0 z hr ht hj, abs_of_neg hy]
  unfold V3.add V3.smul zAxis
  rw [zero_mul, zero_mul, Real.cos_zero, Real.sin_zero, hz]
  simp only [ne_eq, Option.some.injEq, V3.mk.injEq]
  rintro ⟨-, h5, -⟩
  have hp := norm_pos hv
  have h6 : r / v.norm * v.y = 0 := by
    have e1 : r * (1 * (-v.y / v.norm) + 0 * (v.x / v.norm)) = -(r / v.norm * v.y) := by ring
    rw [e1] at h5
    linarith
  rcases mul_eq_zero.1 h6 with h7 | h7
  · rcases div_eq_zero_iff.1 h7 with h8 | h8
    · exact hr0 h8
    · exact hv h8
  · linarith

/-- **C141 is false of the code**: for a cylinder along the first axis with the angles counted from the third axis, they begin at the second. -/
theorem vec_tilted_wrong {vi vj vk : List ℝ} {o : V3} {g : SGrid}
    (h : cylindricalGrid vi vj vk (some o) (some ⟨1, 0, 0⟩) (some ⟨0, 0, 1⟩) = .ok g) :
    ∃ (vi' vs vk' : List ℝ), DrawnRadii vi vi' ∧ SnappedAngles vk vs ∧ DrawnAngles vs vk' ∧
      ∀ (i t j : ℕ) (r z : ℝ), vi'[i]? = some r → vk'[t]? = some 0 → vj[j]? = some z →
        g.points[(j * vk'.length + t) * vi'.length + i]? = some (o.add ⟨z, r, 0⟩) := by
  have e1 : (⟨1, 0, 0⟩ : V3).norm = 1 := xAxis_norm
  have ha : (⟨1, 0, 0⟩ : V3).norm ≠ 0 := by rw [e1]; norm_num
  have hv : (⟨0, 0, 1⟩ : V3).norm ≠ 0 := by rw [show (⟨0, 0, 1⟩ : V3) = zAxis from rfl, zAxis_norm]; norm_num
  obtain ⟨vi', vs, vk', L, h1, h2, h3, -, hL, hp⟩ := cylinder_points ha h
  have hc1 : Real.cos (angleBetween zAxis ⟨1, 0, 0⟩) = 0 := by rw [angle_z_cos ha]; simp
  have hc2 : Real.cos (angleBetween xAxis ⟨0, 0, 1⟩) = 0 := by rw [angle_x_cos hv]; simp
  have hs1 : Real.sin (angleBetween zAxis ⟨1, 0, 0⟩) = 1 := by rw [angle_sin, hc1]; norm_num
  have hs2 : Real.sin (angleBetween xAxis ⟨0, 0, 1⟩) = 1 := by rw [angle_sin, hc2]; norm_num
  have hL := hL (by intro h0; rw [h0, Real.cos_zero] at hc1; norm_num at hc1)
  subst hL
  refine ⟨vi', vs, vk', h1, h2, h3, ?_⟩
  intro i t j r z hr ht hj
  rw [hp, List.getElem?_map, cylinderZ_point hr hj ht]
  simp only [Option.map_some, Option.some.injEq]
  rw [rodrigues_z, hc2, hs2]
  simp only [zero_mul, Real.cos_zero, Real.sin_zero]
  unfold turn rodrigues
  rw [hc1, hs1]
  have en : normalize (zAxis.cross ⟨1, 0, 0⟩) = ⟨0, 1, 0⟩ := by
    have hN : (zAxis.cross ⟨1, 0, 0⟩).norm = 1 := by rw [cross_norm]; simp
    unfold normalize; rw [hN, cross_z]; simp
  rw [en]
  unfold V3.add V3.smul V3.dot V3.cross
  simp only [V3.mk.injEq]
  refine ⟨by ring, by ring, by ring⟩

/-! ### a concrete case: a tilted cylinder of one ring and one sector is drawn, and one that points down is not -/

example : ∃ g, cylindricalGrid [0, 10] [0, 5] [0, 1] (some ⟨1, 2, 3⟩) (some ⟨1, 0, 1⟩) (some ⟨1, 0, 0⟩) = .ok g := by
  refine cylinder_made _ _ _ ?_ ?_ (by simp) (by simp)
  · intro h
    have := (norm_zero_iff.1 h).1
    simp at this
  · rintro ⟨h, -⟩
    norm_num at h

example : cylindricalGrid [0, 10] [0, 5] [0, 1] (some ⟨1, 2, 3⟩) (some ⟨0, 0, -1⟩) (some ⟨1, 0, 0⟩) = .error .valueError :=
  axis_down_refused _ _ (by norm_num) (by simp) (by simp)

example : ∃ g, cylindricalGrid [0, 10] [0, 5] [0, 1] (some ⟨1, 2, 3⟩) (some ⟨0, 0, 1⟩) (some ⟨1, -1, 0⟩) = .ok g := by
  refine cylinder_made _ _ _ ?_ ?_ (by simp) (by simp)
  · intro h
    have := (norm_zero_iff.1 h).2.2
    simp at this
  · rintro ⟨-, h⟩
    exact h ⟨rfl, rfl, by norm_num⟩

/-- the second point of a grid of one voxel -/
example : (cartesianGrid id (· + ·) [0, 1] [0, 2] [0, 3] (some ⟨10, 20, 30⟩)).points[(0 * 2 + 0) * 2 + 1]? = some ⟨1 + 10, 0 + 20, 0 + 30⟩ :=
  cartesian_point id (· + ·) ⟨10, 20, 30⟩ (i := 1) (j := 0) (k := 0) rfl rfl rfl

end F4Enix.Grid3
