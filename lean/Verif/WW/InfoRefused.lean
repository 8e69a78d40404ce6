import Verif.WW.Info
/-!
# Summaries that are refused (C178)
-/
namespace F4Enix.WW
open F4Enix

/-- arrays that cannot be put together: none, or two that differ in the second or third dimension (specification) -/
def Unjoinable (d : Dict ℚ Arr3) : Prop := d = [] ∨ ∃ x ∈ d, ∃ y ∈ d, x.2.nj ≠ y.2.nj ∨ x.2.ni ≠ y.2.ni

theorem joined_refused {d : Dict ℚ Arr3} (h : Unjoinable d) : joined d = .error .valueError := by
  rcases h with rfl | ⟨x, hx, y, hy, hd⟩
  · rfl
  · cases d with
    | nil => simp at hx
    | cons ea d =>
      unfold joined
      simp only
      rw [if_neg]
      intro hall
      rw [List.all_eq_true] at hall
      have h1 := hall x hx
      have h2 := hall y hy
      simp only [decide_eq_true_eq] at h1 h2
      rcases hd with hd | hd
      · exact hd (h1.1.trans h2.1.symm)
      · exact hd (h1.2.trans h2.2.symm)

theorem minList_none {l : List ℚ} : minList l = none ↔ l = [] := by cases l <;> simp [minList]

/-- **C178 (refused).** The summary of a particle without values, and of one without ratios, is a `KeyError`; with values or ratios at no energy, at meshes of
different size or without any voxel it is a `ValueError`. The summary of a mesh without coarse values in some direction is an `IndexError`. -/
theorem summary_refused (s : Window) (p : Particle) :
    (s.values.get? p = none → particleInfo s p = .error .keyError) ∧
    (∀ d, s.values.get? p = some d → Unjoinable d → particleInfo s p = .error .valueError) ∧
    (∀ d, s.values.get? p = some d → (∀ x ∈ d, x.2.data = []) → particleInfo s p = .error .valueError) ∧
    (∀ d all, s.values.get? p = some d → joined d = .ok all → all ≠ [] → s.ratios.get? p = none → particleInfo s p = .error .keyError) ∧
    (∀ d all r, s.values.get? p = some d → joined d = .ok all → all ≠ [] → s.ratios.get? p = some r → Unjoinable r →
      particleInfo s p = .error .valueError) ∧
    (∀ d all r, s.values.get? p = some d → joined d = .ok all → all ≠ [] → s.ratios.get? p = some r → (∀ x ∈ r, x.2.data = []) →
      particleInfo s p = .error .valueError) ∧
    (∀ (ci cj ck : List ℚ) (fi fj fk : List ℤ), ci = [] ∨ cj = [] ∨ ck = [] → meshInfo ci cj ck fi fj fk = .error .indexError) := by
  have emptyJ : ∀ d : Dict ℚ Arr3, (∀ x ∈ d, x.2.data = []) → joined d = .error .valueError ∨ joined d = .ok [] := by
    intro d hd
    cases d with
    | nil => exact Or.inl rfl
    | cons ea d =>
      unfold joined
      simp only
      split
      · right
        congr 1
        rw [List.flatten_eq_nil_iff]
        intro l hl
        obtain ⟨x, hx, rfl⟩ := List.mem_map.1 hl
        exact hd x hx
      · exact Or.inl rfl
  refine ⟨?_, ?_, ?_, ?_, ?_, ?_, ?_⟩
  · intro h; unfold particleInfo; simp only [h]
  · intro d h hu; unfold particleInfo; simp only [h, joined_refused hu]
  · intro d h he
    unfold particleInfo
    rcases emptyJ d he with e | e <;> simp only [h, e, minList, maxList]
  · intro d all h hj h0 hr
    obtain ⟨lo, h1⟩ := minList_some h0
    obtain ⟨hi, h2⟩ := maxList_some h0
    unfold particleInfo; simp only [h, hj, h1, h2, hr]
  · intro d all r h hj h0 hr hu
    obtain ⟨lo, h1⟩ := minList_some h0
    obtain ⟨hi, h2⟩ := maxList_some h0
    unfold particleInfo; simp only [h, hj, h1, h2, hr, joined_refused hu]
  · intro d all r h hj h0 hr he
    obtain ⟨lo, h1⟩ := minList_some h0
    obtain ⟨hi, h2⟩ := maxList_some h0
    unfold particleInfo
    have h3 : maxList ([] : List ℚ) = none := rfl
    rcases emptyJ r he with e | e
    · simp only [h, hj, h1, h2, hr, e]
    · simp only [h, hj, h1, h2, hr, e, h3]
  · intro ci cj ck fi fj fk h
    have ax : ∀ (c : List ℚ) (f : List ℤ), axisInfo c f = .error .indexError ∨ (c ≠ [] ∧ ∃ r, axisInfo c f = .ok r) := by
      intro c f
      cases c with
      | nil => exact Or.inl rfl
      | cons a c =>
        right
        refine ⟨by simp, ?_⟩
        obtain ⟨b, hb⟩ : ∃ b, (a :: c).getLast? = some b := ⟨_, List.getLast?_eq_some_getLast (by simp)⟩
        unfold axisInfo
        rw [hb]
        exact ⟨_, rfl⟩
    unfold meshInfo
    rcases ax ci fi with e1 | ⟨n1, r1, e1⟩
    · rw [e1]
    · rw [e1]
      rcases ax cj fj with e2 | ⟨n2, r2, e2⟩
      · simp only [e2]
      · simp only [e2]
        rcases ax ck fk with e3 | ⟨n3, r3, e3⟩
        · simp only [e3]
        · tauto

/-- two meshes that agree in the second dimension only -/
example : Unjoinable [(1, ⟨1, 1, 2, [1, 2]⟩), (2, ⟨1, 1, 1, [1]⟩)] ∧
    joined [(1, ⟨1, 1, 2, [1, 2]⟩), (2, ⟨1, 1, 1, [1]⟩)] = .error .valueError := by
  constructor
  · exact Or.inr ⟨(1, ⟨1, 1, 2, [1, 2]⟩), by simp, (2, ⟨1, 1, 1, [1]⟩), by simp, Or.inr (by decide)⟩
  · decide +kernel

end F4Enix.WW
