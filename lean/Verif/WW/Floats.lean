import Verif.Base.DecimalDouble
import Verif.WW.RatiosProps
/-!
# The neighbour ratios, the mitigation and the GVR values in floating point (C207, C208)

`WW/Ratios` computes with exact numbers. Here every result is the nearest binary64 number, or an infinity (`Base/Binary64`).
-/
namespace F4Enix.WW
open F4Enix

/-! ## Model -/

/-- the float for an exact result: the nearest one, or an infinity (numpy) -/
def flOf (x : ℚ) : Fl := if Overflows x then (if 0 < x then .pinf else .ninf) else .fin (dbl x)

/-- division of floats (numpy); as `Fl.div` (ratios_calculation.py:63-77), with the quotient rounded -/
def Fl.divF : Fl → Fl → Fl
  | .fin a, .fin b => if b = 0 then (if a = 0 then .nan else if 0 < a then .pinf else .ninf) else flOf (a / b)
  | x, y => Fl.div x y

/-- `np.where(ratios < 1, 1 / ratios, ratios)` on `np.divide(value, neighbour)` (ratios_calculation.py:67-70) -/
def ratioOfF (value n : ℚ) : Fl :=
  let r := Fl.divF (.fin value) (.fin n)
  if r.ltOne then Fl.divF (.fin 1) r else r

/-- `_calculate_max_ratio_from_neighbours` (ratios_calculation.py:63-78) -/
def maxRatioFromF (value : ℚ) (ns : List ℚ) : ℚ :=
  match ns.filterMap (fun n => (ratioOfF value n).finite?) with
  | [] => 1
  | r :: rs => rs.foldl max r

/-- `calculate_max_ratio_array` (ratios_calculation.py:9-33) -/
def maxRatioArrayF (a : Arr3) : Arr3 :=
  Arr3.tab a.nk a.nj a.ni (fun k j i => maxRatioFromF ((a.get k j i).getD 0) (findNeighbours a k j i))

/-- `values[ratios > max_ratio] = 0.0` (weight_window.py:393-396) on one map, the ratios being those of `_calculate_ratios` (weight_window.py:157-168) -/
def mitigateF (M : ℚ) (a : Arr3) : Arr3 :=
  { a with data := List.zipWith (fun v q => if q > M then 0 else v) a.data (maxRatioArrayF a).data }

/-- `x / max_flux * (2 / (maximum_splitting_ratio + 1))` (weight_window.py:176-181), every step rounded; infinities are not modelled here -/
def gvrF (m r x : ℚ) : ℚ := dbl (dbl (x / m) * dbl (2 / dbl (r + 1)))

/-! ## Specification -/

/-- the larger over the smaller (specification) -/
def quot (v w : ℚ) : ℚ := if v < w then w / v else v / w

/-- the quotients of positive face neighbours are far from the limits of the floats (specification) -/
def Tame (a : Arr3) : Prop := ∀ k j i k' j' i' v w, FaceAdj (k, j, i) (k', j', i') → a.get k j i = some v → a.get k' j' i' = some w → 0 < v → 0 < w →
  v / w ≤ (10 : ℚ) ^ (300 : ℤ)

/-! ## One ratio -/

theorem flOf_one : flOf 1 = .fin 1 := by
  have h : ¬ Overflows 1 := (dbl_of_isFloat ⟨1, 0, by norm_num, by norm_num, by norm_num,
    by rw [abs_one]; exact one_lt_zpow₀ (by norm_num) (by norm_num)⟩).2
  unfold flOf
  rw [if_neg h, dbl_one]

theorem flOf_fin {x q : ℚ} (h : flOf x = .fin q) : q = dbl x ∧ ¬ Overflows x := by
  unfold flOf at h
  split at h
  · split at h <;> cases h
  · rename_i hn
    exact ⟨(Fl.fin.inj h).symm, hn⟩

/-- a ratio that is a number is at least one, and comes from two positive values -/
theorem ratioOfF_finite {v n r : ℚ} (hv : 0 ≤ v) (hn : 0 ≤ n) (h : (ratioOfF v n).finite? = some r) :
    0 < v ∧ 0 < n ∧ 1 ≤ r ∧ (1 ≤ dbl (v / n) ∧ r = dbl (v / n) ∨ dbl (v / n) < 1 ∧ 0 < dbl (v / n) ∧ r = dbl (1 / dbl (v / n))) := by
  unfold ratioOfF at h
  by_cases hn0 : n = 0
  · subst hn0
    by_cases hv0 : v = 0
    · subst hv0; simp [Fl.divF, Fl.ltOne, Fl.finite?] at h
    · have : 0 < v := lt_of_le_of_ne hv (Ne.symm hv0)
      simp [Fl.divF, Fl.ltOne, Fl.finite?, hv0, this] at h
  have hnp : 0 < n := lt_of_le_of_ne hn (Ne.symm hn0)
  have hq0 : 0 ≤ v / n := div_nonneg hv hn
  simp only [Fl.divF, hn0, if_false] at h
  cases hf : flOf (v / n) with
  | pinf => rw [hf] at h; simp [Fl.ltOne, Fl.finite?] at h
  | ninf =>
    exfalso
    unfold flOf at hf
    split at hf
    · rename_i ho
      split at hf
      · cases hf
      · rename_i hc
        have : v / n = 0 := le_antisymm (not_lt.1 hc) hq0
        rw [this] at ho
        unfold Overflows at ho
        rw [dbl_zero, abs_zero] at ho
        exact absurd ho (not_le.2 (two_zpow_pos _))
    · cases hf
  | nan =>
    exfalso
    unfold flOf at hf
    split at hf
    · split at hf <;> cases hf
    · cases hf
  | fin q =>
    obtain ⟨rfl, hno⟩ := flOf_fin hf
    rw [hf] at h
    have hd0 : 0 ≤ dbl (v / n) := dbl_nonneg hq0
    by_cases hlt : dbl (v / n) < 1
    · simp only [Fl.ltOne, hlt, decide_true, if_true] at h
      by_cases hz : dbl (v / n) = 0
      · rw [hz] at h; simp [Fl.finite?] at h
      · have hdp : 0 < dbl (v / n) := lt_of_le_of_ne hd0 (Ne.symm hz)
        simp only [hz, if_false] at h
        cases hg : flOf (1 / dbl (v / n)) with
        | fin q' =>
          obtain ⟨rfl, -⟩ := flOf_fin hg
          rw [hg] at h
          have hr : dbl (1 / dbl (v / n)) = r := Option.some.inj h
          have hv0 : v ≠ 0 := by
            rintro rfl
            rw [zero_div, dbl_zero] at hz
            exact hz rfl
          refine ⟨lt_of_le_of_ne hv (Ne.symm hv0), hnp, ?_, Or.inr ⟨hlt, hdp, hr.symm⟩⟩
          rw [← hr, ← dbl_one]
          exact dbl_mono ((one_le_div hdp).2 (by rw [dbl_one]; exact hlt.le))
        | pinf => rw [hg] at h; cases h
        | ninf => rw [hg] at h; cases h
        | nan => rw [hg] at h; cases h
    · simp only [Fl.ltOne, hlt, decide_false, Bool.false_eq_true, if_false, Fl.finite?] at h
      have hr : dbl (v / n) = r := Option.some.inj h
      have hv0 : v ≠ 0 := by
        rintro rfl
        rw [zero_div, dbl_zero] at hlt
        exact hlt (by norm_num)
      exact ⟨lt_of_le_of_ne hv (Ne.symm hv0), hnp, by rw [← hr]; exact not_lt.1 hlt, Or.inl ⟨not_lt.1 hlt, hr.symm⟩⟩

/-- far from the limits of the floats the ratio of two positive values is a number near the quotient -/
theorem ratioOfF_near {v n : ℚ} (hv : 0 < v) (hn : 0 < n) (h1 : v / n ≤ (10 : ℚ) ^ (300 : ℤ)) (h2 : n / v ≤ (10 : ℚ) ^ (300 : ℤ)) :
    ∃ r, (ratioOfF v n).finite? = some r ∧ |r - quot v n| ≤ quot v n / 2 ^ 51 := by
  have hx : 0 < v / n := div_pos hv hn
  have hinv : v / n = 1 / (n / v) := by rw [one_div_div]
  have hlow : (10 : ℚ) ^ (-300 : ℤ) ≤ v / n := by
    rw [hinv, zpow_neg, ← one_div]
    exact one_div_le_one_div_of_le (div_pos hn hv) h2
  have hord : ∀ x : ℚ, 0 < x → (10 : ℚ) ^ (-301 : ℤ) ≤ x → x ≤ (10 : ℚ) ^ (301 : ℤ) → Ordinary x := by
    intro x hx a b
    right
    rw [abs_of_pos hx]
    exact ⟨le_trans (zpow_le_zpow_right₀ (by norm_num) (by norm_num)) a, le_trans b (zpow_le_zpow_right₀ (by norm_num) (by norm_num))⟩
  have l1 : (10 : ℚ) ^ (-301 : ℤ) ≤ (10 : ℚ) ^ (-300 : ℤ) := zpow_le_zpow_right₀ (by norm_num) (by norm_num)
  have l2 : (10 : ℚ) ^ (300 : ℤ) ≤ (10 : ℚ) ^ (301 : ℤ) := zpow_le_zpow_right₀ (by norm_num) (by norm_num)
  have ho : Ordinary (v / n) := hord _ hx (le_trans l1 hlow) (le_trans h1 l2)
  have hfin : flOf (v / n) = .fin (dbl (v / n)) := by unfold flOf; rw [if_neg (ordinary_finite ho)]
  have hnear := dbl_near (ordinary_normal ho hx.ne')
  rw [abs_of_pos hx] at hnear
  have hnear' := abs_le.1 hnear
  unfold ratioOfF
  simp only [Fl.divF, hn.ne', if_false, hfin, Fl.ltOne]
  by_cases hlt : dbl (v / n) < 1
  · simp only [hlt, decide_true, if_true]
    set y := dbl (v / n) with hy
    set x := v / n with hxdef
    have hyx : x * (1 - 1 / 2 ^ 53) ≤ y := by linarith [hnear'.1]
    have hxy : y ≤ x * (1 + 1 / 2 ^ 53) := by linarith [hnear'.2]
    have hyp : 0 < y := lt_of_lt_of_le (mul_pos hx (by norm_num)) hyx
    have hvn : v < n := by
      by_contra hc
      have : (1 : ℚ) ≤ x := by rw [hxdef, le_div_iff₀ hn]; linarith
      have := dbl_mono this
      rw [dbl_one, ← hy] at this
      linarith
    have hquot : quot v n = 1 / x := by unfold quot; rw [if_pos hvn, hxdef, one_div_div]
    have hz : 0 < 1 / x := one_div_pos.2 hx
    -- `1 / y` against `1 / x`
    have hxinv : 1 / x * x = 1 := one_div_mul_cancel hx.ne'
    have hyinv : 1 / y * y = 1 := one_div_mul_cancel hyp.ne'
    have hzy : 0 < 1 / y := one_div_pos.2 hyp
    have hup : 1 / y ≤ 1 / x * (1 + 1 / 2 ^ 52) := by
      rw [div_le_iff₀ hyp]
      have : 1 / x * (1 + 1 / 2 ^ 52) * (x * (1 - 1 / 2 ^ 53)) ≤ 1 / x * (1 + 1 / 2 ^ 52) * y :=
        mul_le_mul_of_nonneg_left hyx (by positivity)
      have e : 1 / x * (1 + 1 / 2 ^ 52) * (x * (1 - 1 / 2 ^ 53)) = (1 / x * x) * ((1 + 1 / 2 ^ 52) * (1 - 1 / 2 ^ 53)) := by ring
      rw [e, hxinv] at this
      norm_num at this ⊢
      linarith
    have hdn : 1 / x * (1 - 1 / 2 ^ 52) ≤ 1 / y := by
      rw [le_div_iff₀ hyp]
      have : 1 / x * (1 - 1 / 2 ^ 52) * y ≤ 1 / x * (1 - 1 / 2 ^ 52) * (x * (1 + 1 / 2 ^ 53)) :=
        mul_le_mul_of_nonneg_left hxy (mul_nonneg hz.le (by norm_num))
      have e : 1 / x * (1 - 1 / 2 ^ 52) * (x * (1 + 1 / 2 ^ 53)) = (1 / x * x) * ((1 - 1 / 2 ^ 52) * (1 + 1 / 2 ^ 53)) := by ring
      rw [e, hxinv] at this
      norm_num at this ⊢
      linarith
    have hxi : 1 / x ≤ (10 : ℚ) ^ (300 : ℤ) := by rw [hxdef, one_div_div]; exact h2
    have hxi' : 1 ≤ 1 / x := by
      rw [hxdef, one_div_div, le_div_iff₀ hv]; linarith
    have ho' : Ordinary (1 / y) := by
      apply hord _ hzy
      · have : (10 : ℚ) ^ (-301 : ℤ) ≤ 1 / 2 := le_trans (zpow_le_zpow_right₀ (by norm_num) (by norm_num : (-301 : ℤ) ≤ -1)) (by norm_num)
        have c1 : (1 : ℚ) / 2 ≤ 1 * (1 - 1 / 2 ^ 52) := by norm_num
        have c2 : 1 * (1 - 1 / 2 ^ 52) ≤ 1 / x * (1 - 1 / 2 ^ 52) := mul_le_mul_of_nonneg_right hxi' (by norm_num)
        exact le_trans this (le_trans c1 (le_trans c2 hdn))
      · have : (10 : ℚ) ^ (301 : ℤ) = 10 * (10 : ℚ) ^ (300 : ℤ) := by rw [← zpow_one_add₀ (by norm_num)]; norm_num
        rw [this]
        have c1 : 1 / x * (1 + 1 / 2 ^ 52) ≤ 1 / x * 10 := mul_le_mul_of_nonneg_left (by norm_num) hz.le
        have c2 : 1 / x * 10 ≤ (10 : ℚ) ^ (300 : ℤ) * 10 := mul_le_mul_of_nonneg_right hxi (by norm_num)
        rw [mul_comm 10]
        exact le_trans hup (le_trans c1 c2)
    have hfin' : flOf (1 / y) = .fin (dbl (1 / y)) := by unfold flOf; rw [if_neg (ordinary_finite ho')]
    simp only [hyp.ne', if_false, hfin', Fl.finite?]
    refine ⟨_, rfl, ?_⟩
    have hn2 := dbl_near (ordinary_normal ho' hzy.ne')
    rw [abs_of_pos hzy] at hn2
    have hn2' := abs_le.1 hn2
    rw [hquot]
    generalize 1 / y = b at *
    generalize 1 / x = c at *
    rw [abs_le]
    norm_num at hup hdn hn2' ⊢
    constructor <;> linarith [hn2'.1, hn2'.2]
  · simp only [hlt, decide_false, Bool.false_eq_true, if_false, Fl.finite?]
    refine ⟨_, rfl, ?_⟩
    by_cases hvn : v < n
    · -- just below one
      have hx1 : v / n < 1 := (div_lt_one hn).2 hvn
      have hd1 : dbl (v / n) = 1 := by
        apply le_antisymm _ (not_lt.1 hlt)
        rw [← dbl_one]; exact dbl_mono hx1.le
      rw [hd1] at hnear' ⊢
      have hq : quot v n = 1 / (v / n) := by unfold quot; rw [if_pos hvn, one_div_div]
      have hxl : 1 - 1 / 2 ^ 52 ≤ v / n := by
        norm_num at hnear' ⊢
        linarith [hnear'.2]
      have h3 : 1 ≤ 1 / (v / n) := (one_le_div hx).2 hx1.le
      have h4 : 1 / (v / n) * (v / n) = 1 := one_div_mul_cancel hx.ne'
      have h5 : 1 / (v / n) * (1 - 1 / 2 ^ 52) ≤ 1 / (v / n) * (v / n) := mul_le_mul_of_nonneg_left hxl (by linarith)
      rw [hq]
      rw [h4] at h5
      generalize 1 / (v / n) = c at *
      rw [abs_le]
      norm_num at h5 ⊢
      constructor <;> linarith
    · unfold quot
      rw [if_neg hvn]
      refine le_trans hnear ?_
      exact div_le_div_of_nonneg_left hx.le (by norm_num) (by norm_num)

/-! ## Maps -/

theorem mem_ratiosF (a : Arr3) (hw : a.WF) (hn : NonNeg a) (k j i : Nat) (v r : ℚ) (hv : a.get k j i = some v) :
    r ∈ (findNeighbours a k j i).filterMap (fun n => (ratioOfF v n).finite?) ↔
      ∃ k' j' i' w, FaceAdj (k, j, i) (k', j', i') ∧ a.get k' j' i' = some w ∧ (ratioOfF v w).finite? = some r := by
  have hv0 := hn v (get_mem hv)
  simp only [List.mem_filterMap, findNeighbours, List.mem_map]
  constructor
  · rintro ⟨n, ⟨p, hp, rfl⟩, hr⟩
    rcases neighbourValue_eq a hw p with h0 | ⟨k', j', i', rfl, hg⟩
    · rw [h0] at hr
      exact absurd (ratioOfF_finite hv0 le_rfl hr).2.1 (lt_irrefl _)
    · exact ⟨k', j', i', _, (mem_neighbourIndices ..).mp hp, hg, hr⟩
  · rintro ⟨k', j', i', w, hadj, hg, hr⟩
    exact ⟨w, ⟨_, (mem_neighbourIndices ..).mpr hadj, neighbourValue_nat a k' j' i' w hg⟩, hr⟩

theorem maxRatioFromF_spec (v : ℚ) (ns : List ℚ) :
    (∀ x ∈ ns.filterMap (fun n => (ratioOfF v n).finite?), x ≤ maxRatioFromF v ns) ∧
      (maxRatioFromF v ns ∈ ns.filterMap (fun n => (ratioOfF v n).finite?) ∨
        (ns.filterMap (fun n => (ratioOfF v n).finite?) = [] ∧ maxRatioFromF v ns = 1)) := by
  simp only [maxRatioFromF]
  generalize hl : ns.filterMap (fun n => (ratioOfF v n).finite?) = l
  cases l with
  | nil => simp
  | cons r rs =>
    obtain ⟨h1, h2, h3⟩ := foldl_max_spec rs r
    refine ⟨?_, Or.inl ?_⟩
    · intro x hx
      rcases List.mem_cons.mp hx with rfl | hx
      · exact h1
      · exact h2 x hx
    · rcases h3 with h3 | h3
      · simp [h3]
      · exact List.mem_cons_of_mem _ h3

theorem maxRatioF_get (a : Arr3) (k j i : Nat) (v : ℚ) (hv : a.get k j i = some v) :
    (maxRatioArrayF a).get k j i = some (maxRatioFromF v (findNeighbours a k j i)) := by
  have hin : k < a.nk ∧ j < a.nj ∧ i < a.ni := by
    unfold Arr3.get at hv; split at hv
    · assumption
    · cases hv
  unfold maxRatioArrayF
  rw [tab_get, if_pos hin, hv]; rfl

/-- the ratio of a voxel in floats: it bounds the ratio with every face neighbour, and is one of them or 1 (proof) -/
theorem ratioF_spec (a : Arr3) (hw : a.WF) (hn : NonNeg a) {k j i : Nat} {v : ℚ} (hv : a.get k j i = some v) :
    ∃ r, (maxRatioArrayF a).get k j i = some r ∧
      (∀ k' j' i' w x, FaceAdj (k, j, i) (k', j', i') → a.get k' j' i' = some w → (ratioOfF v w).finite? = some x → x ≤ r) ∧
      ((∃ k' j' i' w, FaceAdj (k, j, i) (k', j', i') ∧ a.get k' j' i' = some w ∧ (ratioOfF v w).finite? = some r) ∨
        r = 1 ∧ ∀ k' j' i' w x, FaceAdj (k, j, i) (k', j', i') → a.get k' j' i' = some w → (ratioOfF v w).finite? ≠ some x) := by
  obtain ⟨h1, h2⟩ := maxRatioFromF_spec v (findNeighbours a k j i)
  refine ⟨_, maxRatioF_get a k j i v hv, ?_, ?_⟩
  · intro k' j' i' w x hadj hg hx
    exact h1 x ((mem_ratiosF a hw hn k j i v x hv).2 ⟨k', j', i', w, hadj, hg, hx⟩)
  · rcases h2 with h2 | ⟨h2, h3⟩
    · exact Or.inl ((mem_ratiosF a hw hn k j i v _ hv).1 h2)
    · right
      refine ⟨h3, ?_⟩
      intro k' j' i' w x hadj hg hx
      have := (mem_ratiosF a hw hn k j i v x hv).2 ⟨k', j', i', w, hadj, hg, hx⟩
      rw [h2] at this
      simp at this

theorem quot_pos {v w : ℚ} (hv : 0 < v) (hw : 0 < w) : 0 < quot v w := by
  unfold quot; split <;> positivity

theorem face_symm {p q : Nat × Nat × Nat} (h : FaceAdj p q) : FaceAdj q p := by
  unfold FaceAdj at h ⊢; omega

/-- **C207 (at least one).** Computed in floats, the ratio map has the shape of the map, and every ratio is a number and at least 1, whatever
the non-negative values; a voxel of value zero has the ratio 1. -/
theorem float_ratio_ge_one (a : Arr3) (hw : a.WF) (hn : NonNeg a) :
    (maxRatioArrayF a).WF ∧ (maxRatioArrayF a).nk = a.nk ∧ (maxRatioArrayF a).nj = a.nj ∧ (maxRatioArrayF a).ni = a.ni ∧
    ∀ k j i v, a.get k j i = some v → ∃ r, (maxRatioArrayF a).get k j i = some r ∧ 1 ≤ r ∧ (v = 0 → r = 1) := by
  refine ⟨tab_wf _ _ _ _, rfl, rfl, rfl, ?_⟩
  intro k j i v hv
  obtain ⟨r, hr, -, h2⟩ := ratioF_spec a hw hn hv
  refine ⟨r, hr, ?_, ?_⟩
  · rcases h2 with ⟨k', j', i', w, -, hg, hx⟩ | ⟨rfl, -⟩
    · exact (ratioOfF_finite (hn v (get_mem hv)) (hn w (get_mem hg)) hx).2.2.1
    · exact le_rfl
  · rintro rfl
    rcases h2 with ⟨k', j', i', w, -, hg, hx⟩ | ⟨rfl, -⟩
    · exact absurd (ratioOfF_finite le_rfl (hn w (get_mem hg)) hx).1 (lt_irrefl _)
    · rfl

/-- **C207 (near the exact ratios).** Far from the limits of the floats every ratio computed in floats is within a relative error of `2 ^ -51` of the exact
one (that of C04). -/
theorem float_ratio_near_partial (a : Arr3) (hw : a.WF) (hn : NonNeg a) (ht : Tame a) {k j i : Nat} {r r' : ℚ} (hr : (maxRatioArray a).get k j i = some r)
    (hr' : (maxRatioArrayF a).get k j i = some r') : |r' - r| ≤ r / 2 ^ 51 := by
  obtain ⟨v, hv⟩ : ∃ v, a.get k j i = some v := by
    rw [get_some_iff hw]
    exact (get_some_iff (tab_wf _ _ _ _ : (maxRatioArray a).WF) k j i).1 ⟨r, hr⟩
  obtain ⟨_, _, _, _, hex⟩ := c04_max_ratio a hw hn
  obtain ⟨r0, g1, g2, g3, g4⟩ := hex k j i v hv
  rw [hr] at g1
  obtain rfl := Option.some.inj g1
  obtain ⟨r1, f1, f2, f3⟩ := ratioF_spec a hw hn hv
  rw [hr'] at f1
  obtain rfl := Option.some.inj f1
  have near : ∀ k' j' i' w, FaceAdj (k, j, i) (k', j', i') → a.get k' j' i' = some w → 0 < v → 0 < w →
      ∃ x, (ratioOfF v w).finite? = some x ∧ |x - quot v w| ≤ quot v w / 2 ^ 51 := fun k' j' i' w hadj hg hv0 hw0 =>
    ratioOfF_near hv0 hw0 (ht _ _ _ _ _ _ _ _ hadj hv hg hv0 hw0) (ht _ _ _ _ _ _ _ _ (face_symm hadj) hg hv hw0 hv0)
  have hup : r' ≤ r + r / 2 ^ 51 := by
    rcases f3 with ⟨k', j', i', w, hadj, hg, hx⟩ | ⟨rfl, -⟩
    · obtain ⟨hv0, hw0, -⟩ := ratioOfF_finite (hn v (get_mem hv)) (hn w (get_mem hg)) hx
      obtain ⟨x, hx', hn'⟩ := near k' j' i' w hadj hg hv0 hw0
      rw [hx] at hx'
      obtain rfl := Option.some.inj hx'
      obtain ⟨q1, q2⟩ := g3 hv0 k' j' i' w hadj hg hw0
      have hq : quot v w ≤ r := (quot_le_iff v w r hv0 hw0).2 ⟨q1, q2⟩
      have := (abs_le.1 hn').2
      have h5 : quot v w / 2 ^ 51 ≤ r / 2 ^ 51 := div_le_div_of_nonneg_right hq (by positivity)
      linarith
    · have : 0 ≤ r / 2 ^ 51 := div_nonneg (by linarith) (by positivity)
      linarith
  have hlow : r - r / 2 ^ 51 ≤ r' := by
    have h1 : 1 ≤ r' := by
      obtain ⟨-, -, -, -, h⟩ := float_ratio_ge_one a hw hn
      obtain ⟨r2, e1, e2, -⟩ := h k j i v hv
      rw [hr'] at e1
      obtain rfl := Option.some.inj e1
      exact e2
    rcases g4 with rfl | ⟨k', j', i', w, hadj, hg, hv0, hw0, hrw⟩
    · have : (0 : ℚ) ≤ 1 / 2 ^ 51 := by positivity
      linarith
    · obtain ⟨x, hx, hn'⟩ := near k' j' i' w hadj hg hv0 hw0
      have hxr := f2 k' j' i' w x hadj hg hx
      have hq : quot v w = r := by
        obtain ⟨q1, q2⟩ := g3 hv0 k' j' i' w hadj hg hw0
        apply le_antisymm ((quot_le_iff v w r hv0 hw0).2 ⟨q1, q2⟩)
        obtain ⟨p1, p2⟩ := (quot_le_iff v w (quot v w) hv0 hw0).1 le_rfl
        rcases hrw with h | h <;> rw [h] <;> assumption
      have := (abs_le.1 hn').1
      rw [hq] at this
      linarith
  rw [abs_le]
  constructor <;> linarith

/-! ### ratios beyond the floats -/

theorem over_pow {x : ℚ} (h : (2 : ℚ) ^ (1025 : ℤ) ≤ x) : Overflows x := by
  have hx : 0 < x := lt_of_lt_of_le (two_zpow_pos _) h
  unfold Overflows
  rw [abs_of_nonneg (dbl_nonneg hx.le)]
  have h1 : dbl ((2 : ℚ) ^ (1025 : ℤ)) = (2 : ℚ) ^ (1025 : ℤ) :=
    dbl_exact (m := 1) (k := 1025) (by norm_num) (by norm_num) (by rw [abs_of_pos (two_zpow_pos _)]; simp)
  refine le_trans ?_ (dbl_mono h)
  rw [h1]
  exact zpow_le_zpow_right₀ (by norm_num) (by norm_num)

/-- **C207 is false for steep pairs (1).** The ratio of two values that are further apart than the floats reach is dropped, whichever of them is larger. -/
theorem steep_dropped {v w : ℚ} (hw : 0 < w) (h : (2 : ℚ) ^ (1025 : ℤ) * w ≤ v) : (ratioOfF v w).finite? = none ∧ (ratioOfF w v).finite? = none := by
  have hv : 0 < v := lt_of_lt_of_le (mul_pos (two_zpow_pos _) hw) h
  constructor
  · have ho : Overflows (v / w) := over_pow ((le_div_iff₀ hw).2 h)
    unfold ratioOfF
    simp only [Fl.divF, hw.ne', if_false, flOf, if_pos ho, if_pos (div_pos hv hw), Fl.ltOne, Bool.false_eq_true, Fl.finite?]
  · by_contra hc
    obtain ⟨r, hr⟩ := Option.ne_none_iff_exists'.1 hc
    obtain ⟨-, -, hr1, hcase⟩ := ratioOfF_finite hw.le hv.le hr
    have hle : w / v ≤ (2 : ℚ) ^ (-1025 : ℤ) := by
      rw [div_le_iff₀ hv, zpow_neg, inv_mul_eq_div, le_div_iff₀ (two_zpow_pos _)]
      linarith
    have hd : dbl (w / v) ≤ (2 : ℚ) ^ (-1025 : ℤ) := by
      have h1 : dbl ((2 : ℚ) ^ (-1025 : ℤ)) = (2 : ℚ) ^ (-1025 : ℤ) :=
        dbl_exact (m := 1) (k := -1025) (by norm_num) (by norm_num) (by rw [abs_of_pos (two_zpow_pos _)]; simp)
      rw [← h1]
      exact dbl_mono hle
    have hlt1 : (2 : ℚ) ^ (-1025 : ℤ) < 1 := zpow_lt_one_of_neg₀ (by norm_num) (by norm_num)
    have hlt : dbl (w / v) < 1 := lt_of_le_of_lt hd hlt1
    by_cases hz : dbl (w / v) = 0
    · rcases hcase with ⟨h1, -⟩ | ⟨-, h1, -⟩
      · linarith
      · linarith
    · have hp : 0 < dbl (w / v) := lt_of_le_of_ne (dbl_nonneg (div_nonneg hw.le hv.le)) (Ne.symm hz)
      have ho : Overflows (1 / dbl (w / v)) := by
        apply over_pow
        rw [le_div_iff₀ hp]
        calc (2 : ℚ) ^ (1025 : ℤ) * dbl (w / v) ≤ (2 : ℚ) ^ (1025 : ℤ) * (2 : ℚ) ^ (-1025 : ℤ) := mul_le_mul_of_nonneg_left hd (two_zpow_pos _).le
          _ = 1 := by rw [← zpow_add₀ (by norm_num)]; norm_num
      have hnf : ¬ Overflows (w / v) := by
        unfold Overflows
        rw [abs_of_pos hp, not_le]
        exact lt_of_lt_of_le hlt (one_le_zpow₀ (by norm_num) (by norm_num))
      unfold ratioOfF at hr
      simp only [Fl.divF, hv.ne', if_false, flOf, if_neg hnf, Fl.ltOne, hlt, decide_true, if_true, hz, if_pos ho, if_pos (one_div_pos.2 hp), Fl.finite?] at hr
      cases hr

/-- **C207 is false for steep pairs (2).** In a map of two such voxels both ratios are reported as 1, so that the mitigation leaves the steepest step there is. -/
theorem steep_missed {v w M : ℚ} (hw : 0 < w) (h : (2 : ℚ) ^ (1025 : ℤ) * w ≤ v) (hM : 1 ≤ M) :
    (maxRatioArrayF ⟨1, 1, 2, [v, w]⟩).data = [1, 1] ∧ mitigateF M ⟨1, 1, 2, [v, w]⟩ = ⟨1, 1, 2, [v, w]⟩ := by
  have hv : 0 < v := lt_of_lt_of_le (mul_pos (two_zpow_pos _) hw) h
  obtain ⟨h1, h2⟩ := steep_dropped hw h
  have hz : ∀ x : ℚ, 0 < x → (ratioOfF x 0).finite? = none := by
    intro x hx
    by_contra hc
    obtain ⟨r, hr⟩ := Option.ne_none_iff_exists'.1 hc
    exact absurd (ratioOfF_finite hx.le le_rfl hr).2.1 (lt_irrefl _)
  have hd : (maxRatioArrayF ⟨1, 1, 2, [v, w]⟩).data = [1, 1] := by
    have n0 : findNeighbours ⟨1, 1, 2, [v, w]⟩ 0 0 0 = [w, 0, 0, 0, 0, 0] := rfl
    have n1 : findNeighbours ⟨1, 1, 2, [v, w]⟩ 0 0 1 = [0, v, 0, 0, 0, 0] := rfl
    have hrg : List.range (1 * 1 * 2) = [0, 1] := by decide
    unfold maxRatioArrayF Arr3.tab
    simp only [hrg, List.map_cons, List.map_nil]
    show [maxRatioFromF v (findNeighbours ⟨1, 1, 2, [v, w]⟩ 0 0 0), maxRatioFromF w (findNeighbours ⟨1, 1, 2, [v, w]⟩ 0 0 1)] = _
    rw [n0, n1]
    simp [maxRatioFromF, h1, h2, hz v hv, hz w hw]
  refine ⟨hd, ?_⟩
  unfold mitigateF
  rw [hd]
  simp [not_lt.2 hM]

/-! ### mitigation -/

theorem mitigateF_get (M : ℚ) (a : Arr3) {k j i : Nat} {v r : ℚ} (hv : a.get k j i = some v) (hr : (maxRatioArrayF a).get k j i = some r) :
    (mitigateF M a).get k j i = some (if r > M then 0 else v) := by
  have hin : k < a.nk ∧ j < a.nj ∧ i < a.ni := by
    unfold Arr3.get at hv; split at hv
    · assumption
    · cases hv
  unfold Arr3.get at hv hr ⊢
  have hrin : k < (maxRatioArrayF a).nk ∧ j < (maxRatioArrayF a).nj ∧ i < (maxRatioArrayF a).ni := hin
  have hmin : k < (mitigateF M a).nk ∧ j < (mitigateF M a).nj ∧ i < (mitigateF M a).ni := hin
  rw [if_pos hin] at hv
  rw [if_pos hrin] at hr
  rw [if_pos hmin]
  have e1 : (maxRatioArrayF a).idx k j i = a.idx k j i := rfl
  have e2 : (mitigateF M a).idx k j i = a.idx k j i := rfl
  rw [e1] at hr
  rw [e2]
  show (List.zipWith _ _ _)[_]? = _
  rw [List.getElem?_zipWith, hv, hr]

theorem mitigateF_wf (M : ℚ) {a : Arr3} (h : a.WF) : (mitigateF M a).WF := by
  have h1 : (maxRatioArrayF a).data.length = a.nk * a.nj * a.ni := tab_wf _ _ _ _
  have h2 : a.data.length = a.nk * a.nj * a.ni := h
  simp [Arr3.WF, mitigateF, h1, h2]

/-- **C207 (mitigation).** Computed in floats, the mitigation sets to zero exactly the voxels whose ratio exceeds `M`, leaves all others as they are, and the
ratios of the result, computed in floats, are all at most `M`; applied again it changes nothing. -/
theorem float_mitigate (a : Arr3) (hw : a.WF) (hn : NonNeg a) (M : ℚ) (hM : 1 ≤ M) :
    (∀ k j i v r, a.get k j i = some v → (maxRatioArrayF a).get k j i = some r → (mitigateF M a).get k j i = some (if r > M then 0 else v)) ∧
      (∀ k j i r, (maxRatioArrayF (mitigateF M a)).get k j i = some r → r ≤ M) ∧ mitigateF M (mitigateF M a) = mitigateF M a := by
  have hw' := mitigateF_wf M hw
  -- a voxel of the result
  have back : ∀ k j i v', (mitigateF M a).get k j i = some v' → ∃ v r, a.get k j i = some v ∧ (maxRatioArrayF a).get k j i = some r ∧
      v' = if r > M then 0 else v := by
    intro k j i v' hv'
    obtain ⟨v, hv⟩ : ∃ v, a.get k j i = some v := by
      rw [get_some_iff hw]
      exact (get_some_iff hw' k j i).1 ⟨v', hv'⟩
    obtain ⟨r, hr, -⟩ := ratioF_spec a hw hn hv
    rw [mitigateF_get M a hv hr] at hv'
    exact ⟨v, r, hv, hr, (Option.some.inj hv').symm⟩
  have hn' : NonNeg (mitigateF M a) := by
    intro x hx
    obtain ⟨k, j, i, hg⟩ := mem_get hw' hx
    obtain ⟨v, r, hv, -, rfl⟩ := back k j i x hg
    split
    · exact le_rfl
    · exact hn v (get_mem hv)
  have hle : ∀ k j i r, (maxRatioArrayF (mitigateF M a)).get k j i = some r → r ≤ M := by
    intro k j i r hr
    obtain ⟨v', hv'⟩ : ∃ v, (mitigateF M a).get k j i = some v := by
      rw [get_some_iff hw']
      exact (get_some_iff (tab_wf _ _ _ _ : (maxRatioArrayF (mitigateF M a)).WF) k j i).1 ⟨r, hr⟩
    obtain ⟨v, r0, hv, hr0, e⟩ := back k j i v' hv'
    obtain ⟨r1, f1, -, f3⟩ := ratioF_spec _ hw' hn' hv'
    rw [hr] at f1
    obtain rfl := Option.some.inj f1
    rcases f3 with ⟨k', j', i', w', hadj, hg', hx⟩ | ⟨rfl, -⟩
    · obtain ⟨hv0, hw0, -⟩ := ratioOfF_finite (hn' v' (get_mem hv')) (hn' w' (get_mem hg')) hx
      obtain ⟨w, rw', hgw, hrw, ew⟩ := back k' j' i' w' hg'
      have ev : v' = v ∧ ¬ r0 > M := by
        by_cases hc : r0 > M
        · rw [if_pos hc] at e; rw [e] at hv0; exact absurd hv0 (lt_irrefl _)
        · rw [if_neg hc] at e; exact ⟨e, hc⟩
      have ew' : w' = w := by
        by_cases hc : rw' > M
        · rw [if_pos hc] at ew; rw [ew] at hw0; exact absurd hw0 (lt_irrefl _)
        · rw [if_neg hc] at ew; exact ew
      rw [ev.1, ew'] at hx
      obtain ⟨r2, q1, q2, -⟩ := ratioF_spec a hw hn hv
      rw [hr0] at q1
      obtain rfl := Option.some.inj q1
      exact le_trans (q2 k' j' i' w r hadj hgw hx) (not_lt.1 ev.2)
    · exact hM
  refine ⟨fun k j i v r hv hr => mitigateF_get M a hv hr, hle, ?_⟩
  apply arr_ext (mitigateF_wf M hw') hw' rfl rfl rfl
  intro k j i
  by_cases hin : k < (mitigateF M a).nk ∧ j < (mitigateF M a).nj ∧ i < (mitigateF M a).ni
  · obtain ⟨v', hv'⟩ := (get_some_iff hw' k j i).2 hin
    obtain ⟨r, hr, -⟩ := ratioF_spec _ hw' hn' hv'
    rw [mitigateF_get M _ hv' hr, hv', if_neg (not_lt.2 (hle k j i r hr))]
  · have h1 : (mitigateF M a).get k j i = none := by unfold Arr3.get; rw [if_neg hin]
    have h2 : (mitigateF M (mitigateF M a)).get k j i = none := by unfold Arr3.get; rw [if_neg (by exact hin)]
    rw [h1, h2]

/-! ### GVR values -/

/-- **C208.** Computed in floats, the value of the voxel with the greatest flux `m` is the float nearest to `2 / (r + 1)` (`r + 1` rounded), no value is greater,
the values are in the order of the fluxes, and voxels of flux zero have the value zero. -/
theorem float_gvr_partial {m r : ℚ} (hm : 0 < m) (hr : -1 < r) :
    gvrF m r m = dbl (2 / dbl (r + 1)) ∧ gvrF m r 0 = 0 ∧ (∀ x y, x ≤ y → gvrF m r x ≤ gvrF m r y) ∧ ∀ x, x ≤ m → gvrF m r x ≤ dbl (2 / dbl (r + 1)) := by
  have hc : 0 ≤ dbl (2 / dbl (r + 1)) := dbl_nonneg (div_nonneg (by norm_num) (dbl_nonneg (by linarith)))
  have h1 : gvrF m r m = dbl (2 / dbl (r + 1)) := by
    unfold gvrF
    rw [div_self hm.ne', dbl_one, one_mul, dbl_idem]
  have hmono : ∀ x y, x ≤ y → gvrF m r x ≤ gvrF m r y := by
    intro x y h
    unfold gvrF
    exact dbl_mono (mul_le_mul_of_nonneg_right (dbl_mono (div_le_div_of_nonneg_right h hm.le)) hc)
  refine ⟨h1, ?_, hmono, fun x hx => by rw [← h1]; exact hmono x m hx⟩
  unfold gvrF
  rw [zero_div, dbl_zero, zero_mul, dbl_zero]

/-- the rounding as two bounds (proof) -/
theorem dbl_bounds {y : ℚ} (h : (2 : ℚ) ^ (-1022 : ℤ) ≤ y) : y * (1 - 1 / 2 ^ 53) ≤ dbl y ∧ dbl y ≤ y * (1 + 1 / 2 ^ 53) := by
  have hy : 0 < y := lt_of_lt_of_le (two_zpow_pos _) h
  have h1 := dbl_near (x := y) (by rwa [abs_of_pos hy])
  rw [abs_of_pos hy] at h1
  obtain ⟨h2, h3⟩ := abs_le.1 h1
  constructor <;> linarith

/-- **C208 (near the exact values).** For a splitting ratio up to `2 ^ 400` and a flux at most `2 ^ 500` times smaller than the greatest one the value in floats is
positive and within a relative error of `2 ^ -50` of the exact `2 x / (m (r + 1))`. -/
theorem float_gvr_near {m r x : ℚ} (hm : 0 < m) (hr : 0 ≤ r) (hr' : r + 1 ≤ (2 : ℚ) ^ (400 : ℤ)) (hx : m ≤ (2 : ℚ) ^ (500 : ℤ) * x) :
    0 < gvrF m r x ∧ |gvrF m r x - x / m * (2 / (r + 1))| ≤ x / m * (2 / (r + 1)) / 2 ^ 50 := by
  have hs : 0 < r + 1 := by linarith
  have ha : (2 : ℚ) ^ (-500 : ℤ) ≤ x / m := by
    rw [le_div_iff₀ hm, zpow_neg, inv_mul_eq_div, div_le_iff₀ (two_zpow_pos _)]
    linarith
  have hc : (2 : ℚ) ^ (-399 : ℤ) ≤ 2 / (r + 1) := by
    rw [le_div_iff₀ hs]
    calc (2 : ℚ) ^ (-399 : ℤ) * (r + 1) ≤ (2 : ℚ) ^ (-399 : ℤ) * (2 : ℚ) ^ (400 : ℤ) := mul_le_mul_of_nonneg_left hr' (two_zpow_pos _).le
      _ = 2 := by rw [← zpow_add₀ (by norm_num)]; norm_num
  have low : ∀ k : ℤ, -1022 ≤ k → (2 : ℚ) ^ (-1022 : ℤ) ≤ (2 : ℚ) ^ k := fun k hk => zpow_le_zpow_right₀ (by norm_num) hk
  obtain ⟨a1, a2⟩ := dbl_bounds (le_trans (low (-500) (by norm_num)) ha)
  obtain ⟨s1, s2⟩ := dbl_bounds (y := r + 1) (le_trans (low 0 (by norm_num)) (by rw [zpow_zero]; linarith))
  have hA0 : 0 < x / m := lt_of_lt_of_le (two_zpow_pos _) ha
  have hC0 : 0 < 2 / (r + 1) := by positivity
  have hS0 : 0 < dbl (r + 1) := lt_of_lt_of_le (mul_pos hs (by norm_num)) s1
  -- 2 / dbl (r + 1)
  have t1 : 2 / (r + 1) * (1 - 1 / 2 ^ 53) ≤ 2 / dbl (r + 1) := by
    rw [le_div_iff₀ hS0]
    calc 2 / (r + 1) * (1 - 1 / 2 ^ 53) * dbl (r + 1) ≤ 2 / (r + 1) * (1 - 1 / 2 ^ 53) * ((r + 1) * (1 + 1 / 2 ^ 53)) :=
          mul_le_mul_of_nonneg_left s2 (mul_nonneg hC0.le (by norm_num))
      _ = 2 * ((1 - 1 / 2 ^ 53) * (1 + 1 / 2 ^ 53)) := by field_simp
      _ ≤ 2 := by norm_num
  have t2 : 2 / dbl (r + 1) ≤ 2 / (r + 1) * (1 + 1 / 2 ^ 52) := by
    rw [div_le_iff₀ hS0]
    calc (2 : ℚ) ≤ 2 * ((1 + 1 / 2 ^ 52) * (1 - 1 / 2 ^ 53)) := by norm_num
      _ = 2 / (r + 1) * (1 + 1 / 2 ^ 52) * ((r + 1) * (1 - 1 / 2 ^ 53)) := by field_simp
      _ ≤ _ := mul_le_mul_of_nonneg_left s1 (mul_nonneg hC0.le (by norm_num))
  have hT : (2 : ℚ) ^ (-400 : ℤ) ≤ 2 / dbl (r + 1) := by
    refine le_trans ?_ t1
    calc (2 : ℚ) ^ (-400 : ℤ) = (2 : ℚ) ^ (-399 : ℤ) * (1 / 2) := by
          rw [show (-400 : ℤ) = -399 + -1 by norm_num, zpow_add₀ (by norm_num)]; norm_num
      _ ≤ _ := mul_le_mul hc (by norm_num) (by norm_num) hC0.le
  obtain ⟨c1, c2⟩ := dbl_bounds (le_trans (low (-400) (by norm_num)) hT)
  generalize hC : dbl (2 / dbl (r + 1)) = C at c1 c2
  generalize 2 / dbl (r + 1) = T at t1 t2 hT c1 c2
  unfold gvrF
  rw [hC]
  generalize dbl (x / m) = A at a1 a2
  generalize 2 / (r + 1) = c at *
  generalize x / m = a at *
  have C1 : c * ((1 - 1 / 2 ^ 53) * (1 - 1 / 2 ^ 53)) ≤ C := by
    rw [← mul_assoc]
    exact le_trans (mul_le_mul_of_nonneg_right t1 (by norm_num)) c1
  have C2 : C ≤ c * ((1 + 1 / 2 ^ 52) * (1 + 1 / 2 ^ 53)) := by
    rw [← mul_assoc]
    exact le_trans c2 (mul_le_mul_of_nonneg_right t2 (by norm_num))
  have hA1 : 0 < A := lt_of_lt_of_le (mul_pos hA0 (by norm_num)) a1
  have hC1 : 0 < C := lt_of_lt_of_le (mul_pos hC0 (by norm_num)) C1
  have P1 : a * c * ((1 - 1 / 2 ^ 53) * ((1 - 1 / 2 ^ 53) * (1 - 1 / 2 ^ 53))) ≤ A * C := by
    calc _ = a * (1 - 1 / 2 ^ 53) * (c * ((1 - 1 / 2 ^ 53) * (1 - 1 / 2 ^ 53))) := by ring
      _ ≤ A * C := mul_le_mul a1 C1 (mul_nonneg hC0.le (by norm_num)) hA1.le
  have P2 : A * C ≤ a * c * ((1 + 1 / 2 ^ 53) * ((1 + 1 / 2 ^ 52) * (1 + 1 / 2 ^ 53))) := by
    calc A * C ≤ a * (1 + 1 / 2 ^ 53) * (c * ((1 + 1 / 2 ^ 52) * (1 + 1 / 2 ^ 53))) :=
          mul_le_mul a2 C2 hC1.le (mul_nonneg hA0.le (by norm_num))
      _ = _ := by ring
  have hac : (2 : ℚ) ^ (-899 : ℤ) ≤ a * c := by
    calc (2 : ℚ) ^ (-899 : ℤ) = (2 : ℚ) ^ (-500 : ℤ) * (2 : ℚ) ^ (-399 : ℤ) := by rw [← zpow_add₀ (by norm_num)]; norm_num
      _ ≤ a * c := mul_le_mul ha hc (two_zpow_pos _).le hA0.le
  have hAC : (2 : ℚ) ^ (-1022 : ℤ) ≤ A * C := by
    refine le_trans ?_ P1
    calc (2 : ℚ) ^ (-1022 : ℤ) ≤ (2 : ℚ) ^ (-900 : ℤ) := low _ (by norm_num)
      _ = (2 : ℚ) ^ (-899 : ℤ) * (1 / 2) := by
          rw [show (-900 : ℤ) = -899 + -1 by norm_num, zpow_add₀ (by norm_num)]; norm_num
      _ ≤ _ := mul_le_mul hac (by norm_num) (by norm_num) (mul_pos hA0 hC0).le
  obtain ⟨g1, g2⟩ := dbl_bounds hAC
  have hac0 : 0 < a * c := mul_pos hA0 hC0
  have hAC0 : 0 < A * C := mul_pos hA1 hC1
  generalize dbl (A * C) = G at *
  generalize A * C = P at *
  generalize a * c = p at *
  clear a1 a2 s1 s2 hc ha t1 t2 hT c1 c2 low hac hAC C1 C2 hx hr'
  norm_num at P1 P2 g1 g2 ⊢
  refine ⟨by linarith, ?_⟩
  rw [abs_le]
  constructor <;> linarith

/-- **C208 is false at the lower end.** A positive flux more than `2 ^ 1075` times smaller than the greatest one gets the value zero. -/
theorem float_gvr_lost {m r x : ℚ} (hm : 0 < m) (hx : 0 ≤ x) (h : (2 : ℚ) ^ (1075 : ℤ) * x ≤ m) : gvrF m r x = 0 := by
  have h1 : x / m ≤ (2 : ℚ) ^ (-1075 : ℤ) := by
    rw [div_le_iff₀ hm, zpow_neg, inv_mul_eq_div, le_div_iff₀ (two_zpow_pos _)]
    linarith
  have h2 : dbl ((2 : ℚ) ^ (-1075 : ℤ)) = 0 := by
    have e1 : Int.log 2 (2 ^ (-1075 : ℤ) : ℚ) = -1075 := Int.log_zpow (R := ℚ) (b := 2) (by norm_num) (-1075)
    have e2 : ulpExp ((2 : ℚ) ^ (-1075 : ℤ)) = -1074 := by
      unfold ulpExp
      rw [abs_of_pos (two_zpow_pos _), e1]
      decide
    rw [dbl_pos_val (two_zpow_pos _).le, e2, ← zpow_sub₀ (by norm_num)]
    have : roundEven ((2 : ℚ) ^ ((-1075 : ℤ) - -1074)) = 0 := by decide +kernel
    rw [this]; simp
  have h3 : dbl (x / m) = 0 := le_antisymm (by rw [← h2]; exact dbl_mono h1) (dbl_nonneg (div_nonneg hx hm.le))
  unfold gvrF
  rw [h3, zero_mul, dbl_zero]

/-! ### cases -/

/-- a map with a steep step, a zero and values that are not exact in binary; the ratio `1 / 0.3` is rounded twice -/
example : (maxRatioArrayF ⟨1, 1, 4, [dbl (3 / 10), 1, 0, 7]⟩).data = [dbl (1 / dbl (3 / 10)), dbl (1 / dbl (3 / 10)), 1, 1] ∧
    (mitigateF 3 ⟨1, 1, 4, [dbl (3 / 10), 1, 0, 7]⟩).data = [0, 0, 0, 7] := by decide +kernel

/-- it is far from the limits -/
example : NonNeg ⟨1, 1, 2, [dbl (3 / 10), 1]⟩ ∧ Arr3.WF ⟨1, 1, 2, [dbl (3 / 10), 1]⟩ := by
  refine ⟨?_, rfl⟩
  intro x hx
  simp only [List.mem_cons, List.not_mem_nil, or_false] at hx
  rcases hx with rfl | rfl
  · exact dbl_nonneg (by norm_num)
  · norm_num

example : Tame ⟨1, 1, 2, [dbl (3 / 10), 1]⟩ := by
  intro k j i k' j' i' v w _ hv hw _ _
  have h1 := get_mem hv
  have h2 := get_mem hw
  simp only [List.mem_cons, List.not_mem_nil, or_false] at h1 h2
  refine le_trans (b := 10) ?_ (le_trans (by norm_num) (zpow_le_zpow_right₀ (a := (10 : ℚ)) (by norm_num) (by norm_num : (1 : ℤ) ≤ 300)))
  rcases h1 with rfl | rfl <;> rcases h2 with rfl | rfl <;> decide +kernel

/-- values that floats can hold and a quotient that they cannot: `1e200` and `1e-200` -/
example : (maxRatioArrayF ⟨1, 1, 2, [dbl (10 ^ 200), dbl (1 / 10 ^ 200)]⟩).data = [1, 1] := by decide +kernel

/-- the GVR values of the fluxes 3, 1, 0 with the ratio 9: the greatest is 0.2, as a float -/
example : (gvrF 3 9 3, gvrF 3 9 0) = (dbl (1 / 5), 0) ∧ gvrF 3 9 1 = dbl (dbl (1 / 3) * dbl (1 / 5)) ∧ gvrF 3 9 1 ≠ 1 / 15 := by decide +kernel

example : 0 < gvrF 3 9 1 ∧ |gvrF 3 9 1 - 1 / 3 * (2 / (9 + 1))| ≤ 1 / 3 * (2 / (9 + 1)) / 2 ^ 50 :=
  float_gvr_near (by norm_num) (by norm_num) (by decide +kernel) (by decide +kernel)

end F4Enix.WW
