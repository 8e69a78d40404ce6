import Verif.Inp.AceProps
import Mathlib.Analysis.SpecialFunctions.Log.Base
/-!
# Groups with the points of `np.logspace`

`AceProps.lean` takes the points of a group as a parameter. Here they are the points of the code: `integral_points`
points, equidistant in the logarithm. Numbers are exact real numbers; `none` is `nan`.
-/
namespace F4Enix.Ace
open F4Enix

/-- point `i` of `np.logspace(np.log10(a), np.log10(b), n)` for `n > 1` (numpy, ace.py:319) -/
noncomputable def logPoint (n : ℕ) (a b : ℝ) (i : ℕ) : ℝ :=
  (10 : ℝ) ^ (Real.logb 10 a + i * ((Real.logb 10 b - Real.logb 10 a) / ((n : ℝ) - 1)))

/-- `np.logspace(np.log10(a), np.log10(b), n)` (numpy, ace.py:319): the logarithm of zero is `-inf`, that of a negative
number `nan`; in both cases there are points that are `nan`. A single point is the first one. -/
noncomputable def logspace (n : ℕ) (a b : ℝ) : Option (List ℝ) :=
  if 0 < a ∧ 0 < b then some (if n = 1 then [a] else (List.range n).map (logPoint n a b)) else none

/-- the value of a group with `n` points (ace.py:313-321); one point that is `nan` makes the integral `nan` -/
noncomputable def groupLog (n : ℕ) (f : ℝ → ℝ) (e0 e : ℝ) : Option ℝ :=
  match logspace n e0 e with
  | none => none
  | some ps => groupValue (fun _ _ => ps) f e0 e

/-- the loop over the boundaries (ace.py:312-322) -/
noncomputable def groupsLog (n : ℕ) (f : ℝ → ℝ) : ℝ → List ℝ → List (Option ℝ)
  | _, [] => []
  | prev, e :: es => groupLog n f prev e :: groupsLog n f e es

/-! ### the points -/

theorem logPoint_first {n : ℕ} {a b : ℝ} (ha : 0 < a) : logPoint n a b 0 = a := by
  simp [logPoint, Real.rpow_logb, ha]

theorem logPoint_last {n : ℕ} {a b : ℝ} (hb : 0 < b) : logPoint (n + 2) a b (n + 1) = b := by
  have h : ((n + 2 : ℕ) : ℝ) - 1 = ((n + 1 : ℕ) : ℝ) := by push_cast; ring
  have h0 : ((n + 1 : ℕ) : ℝ) ≠ 0 := by positivity
  unfold logPoint
  rw [h, mul_div_cancel₀ _ h0, add_sub_cancel, Real.rpow_logb (by norm_num) (by norm_num) hb]

theorem logPoint_mono {n : ℕ} {a b : ℝ} (ha : 0 < a) (hab : a ≤ b) {i j : ℕ} (hij : i ≤ j) :
    logPoint (n + 2) a b i ≤ logPoint (n + 2) a b j := by
  have h1 : Real.logb 10 a ≤ Real.logb 10 b := Real.logb_le_logb_of_le (by norm_num) ha hab
  have h2 : (0 : ℝ) ≤ (Real.logb 10 b - Real.logb 10 a) / (((n + 2 : ℕ) : ℝ) - 1) := by
    apply div_nonneg (sub_nonneg.2 h1)
    push_cast; linarith [Nat.cast_nonneg (α := ℝ) n]
  unfold logPoint
  apply Real.rpow_le_rpow_of_exponent_le (by norm_num)
  have h3 : (i : ℝ) ≤ j := by exact_mod_cast hij
  nlinarith [mul_le_mul_of_nonneg_right h3 h2]

theorem rising_map (p : ℕ → ℝ) (hp : ∀ i j, i ≤ j → p i ≤ p j) (k s : ℕ) :
    Rising (p s) (p (s + k)) ((List.range' s (k + 1)).map p) := by
  induction k generalizing s with
  | zero => simpa using Rising.one (p s)
  | succ k ih =>
    have h := ih (s + 1)
    have e : s + (k + 1) = s + 1 + k := by omega
    rw [e]
    simp only [List.range'_succ, List.map_cons] at h ⊢
    exact .cons (hp _ _ (by omega)) h

/-- the points of the code go up from one boundary of the group to the other, all within the group -/
theorem logspace_points {n : ℕ} {a b : ℝ} (ha : 0 < a) (hab : a ≤ b) :
    ∃ ps, logspace (n + 2) a b = some ps ∧ Rising a b ps ∧ ps.length = n + 2 ∧ ∀ x ∈ ps, a ≤ x ∧ x ≤ b := by
  have hb := ha.trans_le hab
  have hm := fun i j (h : i ≤ j) => logPoint_mono (n := n) ha hab h
  refine ⟨(List.range (n + 2)).map (logPoint (n + 2) a b), ?_, ?_, by simp, ?_⟩
  · simp only [logspace, ha, hb, and_self, if_true]
    rw [if_neg (by omega)]
  · have h := rising_map _ hm (n + 1) 0
    rw [← List.range_eq_range', Nat.zero_add, logPoint_first ha, logPoint_last hb] at h
    exact h
  · intro x hx
    obtain ⟨i, hi, rfl⟩ := List.mem_map.1 hx
    rw [List.mem_range] at hi
    exact ⟨by simpa [logPoint_first ha] using hm 0 i (by omega),
      by simpa [logPoint_last hb] using hm i (n + 1) (by omega)⟩

/-! ### C121 -/

/-- **C121.** With at least two points, the value of a group with positive boundaries lies between the bounds of the
cross section within the group. -/
theorem group_average {n : ℕ} (hn : 2 ≤ n) {f : ℝ → ℝ} {e0 e m M : ℝ} (h0 : 0 < e0) (hlt : e0 < e)
    (hf : ∀ x, e0 ≤ x → x ≤ e → m ≤ f x ∧ f x ≤ M) : ∃ y, groupLog n f e0 e = some y ∧ m ≤ y ∧ y ≤ M := by
  obtain ⟨k, rfl⟩ : ∃ k, n = k + 2 := ⟨n - 2, by omega⟩
  obtain ⟨ps, h1, h2, -, h4⟩ := logspace_points (n := k) h0 hlt.le
  obtain ⟨y, h5, h6⟩ := group_bounds_partial (points := fun _ _ => ps) (f := f) (m := m) (M := M) hlt h2
    (fun x hx => hf x (h4 x hx).1 (h4 x hx).2)
  exact ⟨y, by simp only [groupLog, h1, h5], h6⟩

/-- **C121.** A cross section that is constant within the group is kept. -/
theorem group_average_constant {n : ℕ} (hn : 2 ≤ n) {f : ℝ → ℝ} {e0 e c : ℝ} (h0 : 0 < e0) (hlt : e0 < e)
    (hf : ∀ x, e0 ≤ x → x ≤ e → f x = c) : groupLog n f e0 e = some c := by
  obtain ⟨y, h1, h2, h3⟩ := group_average hn (m := c) (M := c) h0 hlt (fun x hx hx' => ⟨(hf x hx hx').ge, (hf x hx hx').le⟩)
  rw [h1, le_antisymm h3 h2]

/-- **C121.** For every structure that goes up from above the (positive) lowest energy of the table there is a value
for each boundary, and the value at place `i` is an average of the cross section between the boundaries `i - 1` (the lowest
energy for the first) and `i`. -/
theorem groups_average {n : ℕ} (hn : 2 ≤ n) (f : ℝ → ℝ) {lowest : ℝ} {es : List ℝ} (h0 : 0 < lowest)
    (hs : (lowest :: es).Pairwise (· < ·)) :
    (groupsLog n f lowest es).length = es.length ∧
    ∀ (i : ℕ) e0 e, (lowest :: es)[i]? = some e0 → es[i]? = some e →
      ∃ y, (groupsLog n f lowest es)[i]? = some (some y) ∧
        ∀ m M, (∀ x, e0 ≤ x → x ≤ e → m ≤ f x ∧ f x ≤ M) → m ≤ y ∧ y ≤ M := by
  induction es generalizing lowest with
  | nil => simp [groupsLog]
  | cons a es ih =>
    rw [List.pairwise_cons] at hs
    have hla := hs.1 a (by simp)
    obtain ⟨i1, i2⟩ := ih (h0.trans hla) hs.2
    refine ⟨by simp [groupsLog, i1], ?_⟩
    intro i e0 e h1 h2
    cases i with
    | succ i =>
      simp only [List.getElem?_cons_succ] at h1 h2
      simpa only [groupsLog, List.getElem?_cons_succ] using i2 i e0 e h1 h2
    | zero =>
      simp only [List.getElem?_cons_zero, Option.some.injEq] at h1 h2
      subst h1 h2
      obtain ⟨k, rfl⟩ : ∃ k, n = k + 2 := ⟨n - 2, by omega⟩
      obtain ⟨ps, g1, g2, -, g4⟩ := logspace_points (n := k) h0 hla.le
      have hd : a - lowest ≠ 0 := (sub_pos.2 hla).ne'
      have hv : groupLog (k + 2) f lowest a = some (trapz f ps / (a - lowest)) := by
        simp only [groupLog, g1, groupValue, if_neg hd]
      refine ⟨trapz f ps / (a - lowest), by simp only [groupsLog, hv, List.getElem?_cons_zero], ?_⟩
      intro m M hf
      obtain ⟨y, h5, h6⟩ := group_average hn h0 hla hf
      rw [hv, Option.some.injEq] at h5
      rw [h5]; exact h6

/-- **C121 (no value).** A structure that begins at the lowest energy of the table has no first value; one that begins
at zero - twelve of the structures of the package do - has no first and no second value (`nan`). -/
theorem groups_nan (n : ℕ) (f : ℝ → ℝ) (lowest e : ℝ) (es : List ℝ) :
    (groupsLog n f lowest (lowest :: es))[0]? = some none ∧
    (groupsLog n f lowest (0 :: e :: es))[0]? = some none ∧ (groupsLog n f lowest (0 :: e :: es))[1]? = some none := by
  refine ⟨?_, by simp [groupsLog, groupLog, logspace], by simp [groupsLog, groupLog, logspace]⟩
  simp only [groupsLog, List.getElem?_cons_zero, groupLog]
  cases logspace n lowest lowest <;> simp [groupValue]

/-- **C121 (too few points).** With less than two points every group has the value zero, whatever the cross section. -/
theorem group_few_points {n : ℕ} (hn : n < 2) (f : ℝ → ℝ) {e0 e : ℝ} (h0 : 0 < e0) (hlt : e0 < e) :
    groupLog n f e0 e = some 0 := by
  have hd : e - e0 ≠ 0 := (sub_pos.2 hlt).ne'
  have hb := h0.trans hlt
  have hp : ∃ ps, logspace n e0 e = some ps ∧ trapz f ps = 0 := by
    rcases (by omega : n = 0 ∨ n = 1) with rfl | rfl
    · exact ⟨[], by simp [logspace, h0, hb], rfl⟩
    · exact ⟨[e0], by simp [logspace, h0, hb], rfl⟩
  obtain ⟨ps, h1, h2⟩ := hp
  simp [groupLog, h1, groupValue, hd, h2]

/-! ### examples -/

/-- the average of the energy over the group from 1 to 100 with three points 1, 10, 100 is that of the two trapezes -/
example : groupLog 3 (fun x => x) 1 100 = some (101 / 2) := by
  have h : logspace 3 1 100 = some [1, 10, 100] := by
    have h100 : Real.logb 10 100 = 2 := by
      rw [show (100 : ℝ) = 10 ^ (2 : ℝ) by norm_num, Real.logb_rpow (by norm_num) (by norm_num)]
    simp only [logspace]
    norm_num [logPoint, List.range_succ, h100]
  simp only [groupLog, h, groupValue, trapz]
  norm_num

example : groupsLog 100 (fun _ => 7) 1 [10, 1000] = [some 7, some 7] := by
  simp only [groupsLog]
  rw [group_average_constant (c := 7) (by norm_num) (by norm_num) (by norm_num) (fun _ _ _ => rfl),
    group_average_constant (c := 7) (by norm_num) (by norm_num) (by norm_num) (fun _ _ _ => rfl)]

end F4Enix.Ace
