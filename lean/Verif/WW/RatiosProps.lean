import Verif.WW.Ratios
import Mathlib.Tactic.Linarith
import Mathlib.Tactic.Ring
import Mathlib.Tactic.FieldSimp
import Mathlib.Tactic.NormNum
import Mathlib.Tactic.Positivity
/-!
# Properties of the neighbour ratios (C04) and of the array part of C05 and C06
-/
namespace F4Enix.WW
open F4Enix

/-! ## Specification -/

/-- Two voxels share a face: they differ by one in exactly one index. (specification) -/
def FaceAdj (p q : Nat × Nat × Nat) : Prop :=
  ((p.1 : ℤ) - q.1).natAbs + ((p.2.1 : ℤ) - q.2.1).natAbs + ((p.2.2 : ℤ) - q.2.2).natAbs = 1

instance (p q) : Decidable (FaceAdj p q) := inferInstanceAs (Decidable (_ = _))

/-- All values are non-negative. (specification) -/
def NonNeg (a : Arr3) : Prop := ∀ x ∈ a.data, 0 ≤ x

/-! ## Lemmas -/

theorem idx_div_mod (nj ni k j i : Nat) (hj : j < nj) (hi : i < ni) :
    ((k * nj + j) * ni + i) / (nj * ni) = k ∧ ((k * nj + j) * ni + i) / ni % nj = j ∧
      ((k * nj + j) * ni + i) % ni = i := by
  have h1 : ((k * nj + j) * ni + i) / ni = k * nj + j := by
    rw [Nat.mul_comm, Nat.mul_add_div (by omega), Nat.div_eq_of_lt hi, Nat.add_zero]
  refine ⟨?_, ?_, ?_⟩
  · rw [Nat.mul_comm nj ni, ← Nat.div_div_eq_div_mul, h1, Nat.mul_comm k nj,
      Nat.mul_add_div (by omega), Nat.div_eq_of_lt hj, Nat.add_zero]
  · rw [h1, Nat.mul_comm, Nat.mul_add_mod, Nat.mod_eq_of_lt hj]
  · rw [Nat.mul_comm, Nat.mul_add_mod, Nat.mod_eq_of_lt hi]

theorem idx_lt (nk nj ni k j i : Nat) (hk : k < nk) (hj : j < nj) (hi : i < ni) :
    (k * nj + j) * ni + i < nk * nj * ni := by
  have h1 : k * nj + j + 1 ≤ nk * nj := by
    have : (k + 1) * nj ≤ nk * nj := Nat.mul_le_mul_right _ hk
    rw [Nat.add_mul, Nat.one_mul] at this; omega
  have h2 : (k * nj + j + 1) * ni ≤ nk * nj * ni := Nat.mul_le_mul_right _ h1
  rw [Nat.add_mul, Nat.one_mul] at h2
  omega

theorem tab_get (nk nj ni : Nat) (f : Nat → Nat → Nat → ℚ) (k j i : Nat) :
    (Arr3.tab nk nj ni f).get k j i = if k < nk ∧ j < nj ∧ i < ni then some (f k j i) else none := by
  unfold Arr3.get Arr3.tab Arr3.idx
  split
  · rename_i h
    obtain ⟨hk, hj, hi⟩ := h
    obtain ⟨d1, d2, d3⟩ := idx_div_mod nj ni k j i hj hi
    rw [List.getElem?_map, List.getElem?_range (idx_lt nk nj ni k j i hk hj hi)]
    simp only [Option.map_some, d1, d2, d3]
  · rfl

theorem tab_wf (nk nj ni : Nat) (f : Nat → Nat → Nat → ℚ) : (Arr3.tab nk nj ni f).WF := by
  simp [Arr3.WF, Arr3.tab]

theorem get_some_iff {a : Arr3} (hw : a.WF) (k j i : Nat) :
    (∃ v, a.get k j i = some v) ↔ k < a.nk ∧ j < a.nj ∧ i < a.ni := by
  unfold Arr3.get
  split
  · rename_i h
    simp only [h, and_self, iff_true]
    have : a.idx k j i < a.data.length := by
      rw [hw]; exact idx_lt _ _ _ _ _ _ h.1 h.2.1 h.2.2
    exact ⟨_, List.getElem?_eq_getElem this⟩
  · rename_i h; simp [h]

theorem get_mem {a : Arr3} {k j i : Nat} {v : ℚ} (h : a.get k j i = some v) : v ∈ a.data := by
  unfold Arr3.get at h
  split at h
  · exact List.mem_of_getElem? h
  · cases h

/-- every element sits at some index -/
theorem mem_get {a : Arr3} (hw : a.WF) {v : ℚ} (h : v ∈ a.data) : ∃ k j i, a.get k j i = some v := by
  obtain ⟨p, hp⟩ := List.mem_iff_getElem?.mp h
  have hlt : p < a.nk * a.nj * a.ni := by
    rw [← hw]; exact (List.getElem?_eq_some_iff.mp hp).1
  have hni : 0 < a.ni := by
    rcases Nat.eq_zero_or_pos a.ni with h0 | h0
    · rw [h0] at hlt; simp at hlt
    · exact h0
  have hnj : 0 < a.nj := by
    rcases Nat.eq_zero_or_pos a.nj with h0 | h0
    · rw [h0] at hlt; simp at hlt
    · exact h0
  refine ⟨p / a.ni / a.nj, p / a.ni % a.nj, p % a.ni, ?_⟩
  unfold Arr3.get Arr3.idx
  rw [if_pos]
  · rw [Nat.mul_comm (p / a.ni / a.nj) a.nj, Nat.div_add_mod, Nat.mul_comm, Nat.div_add_mod, hp]
  · refine ⟨?_, Nat.mod_lt _ hnj, Nat.mod_lt _ hni⟩
    rw [Nat.div_div_eq_div_mul]
    apply Nat.div_lt_of_lt_mul
    rw [Nat.mul_comm a.ni a.nj, Nat.mul_comm, ← Nat.mul_assoc]; exact hlt

/-- arrays of the same shape agree if they agree at every index -/
theorem arr_ext {a b : Arr3} (ha : a.WF) (hb : b.WF) (hk : a.nk = b.nk) (hj : a.nj = b.nj)
    (hi : a.ni = b.ni) (h : ∀ k j i, a.get k j i = b.get k j i) : a = b := by
  obtain ⟨nk, nj, ni, d⟩ := a
  obtain ⟨nk', nj', ni', d'⟩ := b
  simp only at hk hj hi
  subst hk hj hi
  congr
  apply List.ext_getElem?
  intro p
  simp only [Arr3.WF] at ha hb
  by_cases hlt : p < nk * nj * ni
  · have hni : 0 < ni := by
      rcases Nat.eq_zero_or_pos ni with h0 | h0
      · rw [h0] at hlt; simp at hlt
      · exact h0
    have hnj : 0 < nj := by
      rcases Nat.eq_zero_or_pos nj with h0 | h0
      · rw [h0] at hlt; simp at hlt
      · exact h0
    have := h (p / ni / nj) (p / ni % nj) (p % ni)
    unfold Arr3.get Arr3.idx at this
    have hin : p / ni / nj < nk ∧ p / ni % nj < nj ∧ p % ni < ni := by
      refine ⟨?_, Nat.mod_lt _ hnj, Nat.mod_lt _ hni⟩
      rw [Nat.div_div_eq_div_mul]
      apply Nat.div_lt_of_lt_mul
      rw [Nat.mul_comm ni nj, Nat.mul_comm, ← Nat.mul_assoc]; exact hlt
    simp only [hin, and_self, if_true] at this
    rwa [Nat.mul_comm (p / ni / nj) nj, Nat.div_add_mod, Nat.mul_comm, Nat.div_add_mod] at this
  · rw [List.getElem?_eq_none (by omega), List.getElem?_eq_none (by omega)]

theorem foldl_max_spec (l : List ℚ) (r : ℚ) :
    r ≤ l.foldl max r ∧ (∀ x ∈ l, x ≤ l.foldl max r) ∧ (l.foldl max r = r ∨ l.foldl max r ∈ l) := by
  induction l generalizing r with
  | nil => simp
  | cons y l ih =>
    obtain ⟨h1, h2, h3⟩ := ih (max r y)
    simp only [List.foldl_cons]
    refine ⟨le_trans (le_max_left _ _) h1, ?_, ?_⟩
    · intro x hx
      rcases List.mem_cons.mp hx with rfl | hx
      · exact le_trans (le_max_right _ _) h1
      · exact h2 x hx
    · rcases h3 with h3 | h3
      · rw [h3]
        rcases max_choice r y with h | h
        · exact Or.inl h
        · right; rw [h]; simp
      · right; exact List.mem_cons_of_mem _ h3

/-- the ratio of two non-negative values -/
theorem ratioOf_finite (v n : ℚ) (hv : 0 ≤ v) (hn : 0 ≤ n) :
    (ratioOf v n).finite? =
      if 0 < v ∧ 0 < n then some (if v < n then n / v else v / n) else none := by
  unfold ratioOf
  by_cases h0 : n = 0
  · subst h0
    by_cases hv0 : v = 0
    · subst hv0; simp [Fl.div, Fl.ltOne, Fl.finite?]
    · have : 0 < v := lt_of_le_of_ne hv (Ne.symm hv0)
      simp [Fl.div, Fl.ltOne, Fl.finite?, hv0, this]
  · have hn' : 0 < n := lt_of_le_of_ne hn (Ne.symm h0)
    simp only [Fl.div, h0, if_false, Fl.ltOne]
    by_cases hv0 : v = 0
    · subst hv0; simp [Fl.finite?]
    · have hv' : 0 < v := lt_of_le_of_ne hv (Ne.symm hv0)
      have hlt : v / n < 1 ↔ v < n := by rw [div_lt_one hn']
      by_cases hc : v < n
      · have : v / n ≠ 0 := by positivity
        simp [hlt, hc, Fl.finite?, hv', hn', this]
      · simp [hlt, hc, Fl.finite?, hv', hn']

theorem neighbourValue_eq (a : Arr3) (hw : a.WF) (p : ℤ × ℤ × ℤ) :
    neighbourValue a p = 0 ∨ ∃ k j i : Nat, p = ((k : ℤ), (j : ℤ), (i : ℤ)) ∧
      a.get k j i = some (neighbourValue a p) := by
  obtain ⟨p1, p2, p3⟩ := p
  unfold neighbourValue
  simp only
  split
  · exact Or.inl rfl
  split
  · exact Or.inl rfl
  split
  · exact Or.inl rfl
  · rename_i h1 h2 h3
    push Not at h1 h2 h3
    right
    obtain ⟨v, hv⟩ := (get_some_iff hw p1.toNat p2.toNat p3.toNat).mpr ⟨by omega, by omega, by omega⟩
    refine ⟨p1.toNat, p2.toNat, p3.toNat, ?_, by rw [hv]; rfl⟩
    simp [Int.toNat_of_nonneg h1.1, Int.toNat_of_nonneg h2.1, Int.toNat_of_nonneg h3.1]

theorem neighbourValue_nat (a : Arr3) (k j i : Nat) (w : ℚ) (h : a.get k j i = some w) :
    neighbourValue a (k, j, i) = w := by
  have hin : k < a.nk ∧ j < a.nj ∧ i < a.ni := by
    unfold Arr3.get at h; split at h
    · assumption
    · cases h
  unfold neighbourValue
  simp only
  rw [if_neg (by omega), if_neg (by omega), if_neg (by omega)]
  simp [h]

theorem mem_neighbourIndices (k j i k' j' i' : Nat) :
    ((k' : ℤ), (j' : ℤ), (i' : ℤ)) ∈ neighbourIndices k j i ↔ FaceAdj (k, j, i) (k', j', i') := by
  simp only [neighbourIndices, FaceAdj, List.mem_cons, List.not_mem_nil, or_false, Prod.mk.injEq]
  omega

/-- the finite ratios of a voxel are exactly the quotients with its positive face neighbours -/
theorem mem_ratios (a : Arr3) (hw : a.WF) (hn : NonNeg a) (k j i : Nat) (v r : ℚ)
    (hv : a.get k j i = some v) :
    r ∈ (findNeighbours a k j i).filterMap (fun n => (ratioOf v n).finite?) ↔
      0 < v ∧ ∃ k' j' i' w, FaceAdj (k, j, i) (k', j', i') ∧ a.get k' j' i' = some w ∧ 0 < w ∧
        r = if v < w then w / v else v / w := by
  have hv0 := hn v (get_mem hv)
  simp only [List.mem_filterMap, findNeighbours, List.mem_map]
  constructor
  · rintro ⟨n, ⟨p, hp, rfl⟩, hr⟩
    rcases neighbourValue_eq a hw p with h0 | ⟨k', j', i', rfl, hg⟩
    · rw [h0, ratioOf_finite _ _ hv0 le_rfl] at hr; simp at hr
    · rw [ratioOf_finite _ _ hv0 (hn _ (get_mem hg))] at hr
      split at hr
      · rename_i hpos
        exact ⟨hpos.1, k', j', i', _, (mem_neighbourIndices ..).mp hp, hg, hpos.2,
          (Option.some.inj hr).symm⟩
      · cases hr
  · rintro ⟨hpos, k', j', i', w, hadj, hg, hw0, rfl⟩
    refine ⟨w, ⟨_, (mem_neighbourIndices ..).mpr hadj, neighbourValue_nat a k' j' i' w hg⟩, ?_⟩
    rw [ratioOf_finite _ _ hv0 hw0.le, if_pos ⟨hpos, hw0⟩]

theorem one_le_quot (v w : ℚ) (hv : 0 < v) (hw : 0 < w) : 1 ≤ (if v < w then w / v else v / w) := by
  split
  · rename_i h; rw [le_div_iff₀ hv]; linarith
  · rename_i h; rw [le_div_iff₀ hw]; linarith

theorem quot_le_iff (v w r : ℚ) (hv : 0 < v) (hw : 0 < w) :
    (if v < w then w / v else v / w) ≤ r ↔ v / w ≤ r ∧ w / v ≤ r := by
  split
  · rename_i h
    constructor
    · intro h2; refine ⟨?_, h2⟩
      have : v / w < 1 := by rw [div_lt_one hw]; exact h
      have : 1 < w / v := by rw [one_lt_div hv]; exact h
      linarith
    · exact fun h2 => h2.2
  · rename_i h
    have hle : w ≤ v := not_lt.mp h
    constructor
    · intro h2; refine ⟨h2, ?_⟩
      have : w / v ≤ 1 := by rw [div_le_one hv]; exact hle
      have : 1 ≤ v / w := by rw [one_le_div hw]; exact hle
      linarith
    · exact fun h2 => h2.1

theorem maxRatioFrom_spec (v : ℚ) (ns : List ℚ) :
    let l := ns.filterMap (fun n => (ratioOf v n).finite?)
    (∀ x ∈ l, x ≤ maxRatioFrom v ns) ∧ (maxRatioFrom v ns ∈ l ∨ (l = [] ∧ maxRatioFrom v ns = 1)) := by
  simp only [maxRatioFrom]
  generalize hl : ns.filterMap (fun n => (ratioOf v n).finite?) = l
  cases l with
  | nil => simp
  | cons r rs =>
    obtain ⟨h1, h2, h3⟩ := foldl_max_spec rs r
    refine ⟨?_, Or.inl ?_⟩
    · intro x hx
      rcases List.mem_cons.mp hx with rfl | hx
      · exact h1
      · exact h2 x hx
    · rcases h3 with h3 | h3
      · simp [h3]
      · exact List.mem_cons_of_mem _ h3

theorem maxRatio_get (a : Arr3) (k j i : Nat) (v : ℚ) (hv : a.get k j i = some v) :
    (maxRatioArray a).get k j i = some (maxRatioFrom v (findNeighbours a k j i)) := by
  have hin : k < a.nk ∧ j < a.nj ∧ i < a.ni := by
    unfold Arr3.get at hv; split at hv
    · assumption
    · cases hv
  unfold maxRatioArray
  rw [tab_get, if_pos hin, hv]; rfl

/-! ## C04 -/

/-- **C04**. The ratio map has the shape of the value map and, for every voxel of a non-negative
map, the ratio is at least 1; for a positive voxel it bounds `v/w` and `w/v` for every positive face
neighbour `w`; and it is attained (or is 1). -/
theorem c04_max_ratio (a : Arr3) (hw : a.WF) (hn : NonNeg a) :
    (maxRatioArray a).WF ∧ (maxRatioArray a).nk = a.nk ∧ (maxRatioArray a).nj = a.nj ∧
    (maxRatioArray a).ni = a.ni ∧
    ∀ k j i v, a.get k j i = some v → ∃ r, (maxRatioArray a).get k j i = some r ∧ 1 ≤ r ∧
      (0 < v → ∀ k' j' i' w, FaceAdj (k, j, i) (k', j', i') → a.get k' j' i' = some w → 0 < w →
        v / w ≤ r ∧ w / v ≤ r) ∧
      (r = 1 ∨ ∃ k' j' i' w, FaceAdj (k, j, i) (k', j', i') ∧ a.get k' j' i' = some w ∧ 0 < v ∧ 0 < w ∧
        (r = v / w ∨ r = w / v)) := by
  refine ⟨tab_wf _ _ _ _, rfl, rfl, rfl, ?_⟩
  intro k j i v hv
  obtain ⟨h1, h2⟩ := maxRatioFrom_spec v (findNeighbours a k j i)
  refine ⟨_, maxRatio_get a k j i v hv, ?_, ?_, ?_⟩
  · rcases h2 with h2 | ⟨_, h2⟩
    · obtain ⟨hv0, k', j', i', w, _, _, hw0, e⟩ := (mem_ratios a hw hn k j i v _ hv).mp h2
      rw [e]; exact one_le_quot v w hv0 hw0
    · rw [h2]
  · intro hv0 k' j' i' w hadj hg hw0
    rw [← quot_le_iff v w _ hv0 hw0]
    exact h1 _ ((mem_ratios a hw hn k j i v _ hv).mpr ⟨hv0, k', j', i', w, hadj, hg, hw0, rfl⟩)
  · rcases h2 with h2 | ⟨_, h2⟩
    · right
      obtain ⟨hv0, k', j', i', w, hadj, hg, hw0, e⟩ := (mem_ratios a hw hn k j i v _ hv).mp h2
      refine ⟨k', j', i', w, hadj, hg, hv0, hw0, ?_⟩
      rw [e]; split
      · exact Or.inr rfl
      · exact Or.inl rfl
    · exact Or.inl h2

/-- The ratio map is characterised by C04: any bound that dominates 1 and all the quotients with
positive neighbours dominates the ratio. -/
theorem c04_le_iff (a : Arr3) (hw : a.WF) (hn : NonNeg a) (k j i : Nat) (v M : ℚ)
    (hv : a.get k j i = some v) (hM : 1 ≤ M) :
    (∀ r, (maxRatioArray a).get k j i = some r → r ≤ M) ↔
      (0 < v → ∀ k' j' i' w, FaceAdj (k, j, i) (k', j', i') → a.get k' j' i' = some w → 0 < w →
        v ≤ M * w ∧ w ≤ M * v) := by
  obtain ⟨_, _, _, _, h⟩ := c04_max_ratio a hw hn
  obtain ⟨r, hr, h1, h2, h3⟩ := h k j i v hv
  constructor
  · intro hle hv0 k' j' i' w hadj hg hw0
    obtain ⟨q1, q2⟩ := h2 hv0 k' j' i' w hadj hg hw0
    have := hle r hr
    exact ⟨(div_le_iff₀ hw0).mp (le_trans q1 this), (div_le_iff₀ hv0).mp (le_trans q2 this)⟩
  · intro hq r' hr'
    rw [hr] at hr'; obtain rfl := Option.some.inj hr'
    rcases h3 with rfl | ⟨k', j', i', w, hadj, hg, hv0, hw0, e⟩
    · exact hM
    · obtain ⟨q1, q2⟩ := hq hv0 k' j' i' w hadj hg hw0
      rcases e with rfl | rfl
      · exact (div_le_iff₀ hw0).mpr q1
      · exact (div_le_iff₀ hv0).mpr q2

/-- a 1×2×3 map with a zero voxel -/
example : (maxRatioArray ⟨1, 2, 3, [1, 2, 0, 8, 1, 4]⟩).data = [8, 2, 1, 8, 8, 4] ∧
    (⟨1, 2, 3, [1, 2, 0, 8, 1, 4]⟩ : Arr3).WF ∧ NonNeg ⟨1, 2, 3, [1, 2, 0, 8, 1, 4]⟩ := by
  refine ⟨?_, rfl, ?_⟩
  · decide +kernel
  · intro x hx; simp at hx; rcases hx with rfl | rfl | rfl | rfl | rfl | rfl <;> norm_num

/-- With negative values (which MCNP does not produce, but `multiply` by a negative factor does) the
ratio can drop below 1: the hypothesis is needed. -/
theorem c04_needs_nonneg : (maxRatioArray ⟨1, 1, 2, [-1, 2]⟩).data = [0, -1/2] := by decide +kernel

end F4Enix.WW
