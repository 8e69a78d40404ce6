import Verif.Mat.Names
import Mathlib.Tactic.IntervalCases
/-!
# C45: which zaid numbers and formulas are refused, and how (`src/f4enix/input/libmanager.py:58-78, 505-584`)
-/
namespace F4Enix.Mat
open F4Enix

/-- **C45** (letters). The letters of a formula are those of the Latin alphabet, small and capital. -/
theorem letters_exact (c : Char) : isLetter c = true ↔ c ∈ "abcdefghijklmnopqrstuvwxyzABCDEFGHIJKLMNOPQRSTUVWXYZ".toList := by
  constructor
  · intro h
    have hc : c = Char.ofNat c.toNat := (Char.ofNat_toNat c).symm
    simp only [isLetter, Bool.or_eq_true, Bool.and_eq_true, decide_eq_true_eq] at h
    generalize c.toNat = n at h hc
    subst hc
    rcases h with ⟨h1, h2⟩ | ⟨h1, h2⟩ <;> interval_cases n <;> decide
  · intro h
    revert c
    decide

/-- **C45** (zaids refused). A zaid whose first part is not a number before its last three characters is refused with a `ValueError`, a number
that is no element of the table with a `KeyError`, an isotope that is not a number with a `ValueError`; everything else gets its formula. -/
theorem name_refused (lm : LibMan) {e i suffix : Str} (hdot : '.' ∉ e ++ i) (hi : i.length = 3) (hs : suffix = [] ∨ ∃ l, suffix = '.' :: l) :
    (parseInt e = none → lm.zaidName (e ++ i ++ suffix) = .error .valueError) ∧
    (∀ k, parseInt e = some k → (∀ r ∈ lm.isos, (r.z : ℤ) ≠ k) → lm.zaidName (e ++ i ++ suffix) = .error .keyError) ∧
    (∀ k, parseInt e = some k → (∃ r ∈ lm.isos, (r.z : ℤ) = k) → parseInt i = none → lm.zaidName (e ++ i ++ suffix) = .error .valueError) ∧
    (∀ k n, parseInt e = some k → (∃ r ∈ lm.isos, (r.z : ℤ) = k) → parseInt i = some n → ∃ r ∈ lm.isos, (r.z : ℤ) = k ∧
      lm.zaidName (e ++ i ++ suffix) = .ok (if 0 < n then r.sym ++ '-' :: intStr n else r.sym)) := by
  have hfirst : ∃ r, splitDot (e ++ i ++ suffix) = (e ++ i) :: r := by
    rcases hs with rfl | ⟨l, rfl⟩
    · exact ⟨[], by rw [List.append_nil]; exact splitDot_no hdot⟩
    · exact ⟨splitDot l, splitDot_append hdot⟩
  obtain ⟨r, hr⟩ := hfirst
  have hd3 : dropLast3 (e ++ i) = e := by simp [dropLast3, hi]
  have hl3 : last3 (e ++ i) = i := by simp [last3, hi]
  have hnone : ∀ k : ℤ, (∀ r ∈ lm.isos, (r.z : ℤ) ≠ k) → lm.symbolOf k = none := by
    intro k hk
    unfold LibMan.symbolOf
    rw [List.find?_eq_none.2 (by intro x hx; simpa using hk x hx)]
    rfl
  have hsome : ∀ k : ℤ, (∃ r ∈ lm.isos, (r.z : ℤ) = k) → ∃ r ∈ lm.isos, (r.z : ℤ) = k ∧ lm.symbolOf k = some r.sym := by
    rintro k ⟨r, hr, hk⟩
    unfold LibMan.symbolOf
    cases hf : lm.isos.find? (fun r => decide ((r.z : ℤ) = k)) with
    | none => exact absurd hk (by simpa using (List.find?_eq_none.1 hf) r hr)
    | some q => exact ⟨q, List.mem_of_find?_eq_some hf, by simpa using List.find?_some hf, rfl⟩
  refine ⟨?_, ?_, ?_, ?_⟩
  · intro h
    simp only [LibMan.zaidName, hr, hd3, h]
  · intro k h hk
    simp only [LibMan.zaidName, hr, hd3, h, hnone k hk]
  · intro k h hk h3
    obtain ⟨q, -, -, hq⟩ := hsome k hk
    simp only [LibMan.zaidName, hr, hd3, h, hq, hl3, h3]
  · intro k n h hk h3
    obtain ⟨q, hq1, hq2, hq⟩ := hsome k hk
    refine ⟨q, hq1, hq2, ?_⟩
    simp only [LibMan.zaidName, hr, hd3, h, hq, hl3, h3]
    split <;> rfl

theorem numberOf_none {lm : LibMan} {w : Str} (h : ∀ r ∈ lm.isos, r.sym ≠ w) : lm.numberOf w = none := by
  unfold LibMan.numberOf
  rw [List.find?_eq_none.2 (by intro x hx; simpa using h x hx)]
  rfl

theorem dropWhile_letters {a rest : Str} (ha : ∀ c ∈ a, isLetter c = false) (hr : ∀ c, rest.head? = some c → isLetter c = true) :
    (a ++ rest).dropWhile (fun c => !isLetter c) = rest := by
  rw [List.dropWhile_append_of_pos (by intro c hc; simp [ha c hc])]
  cases rest with
  | nil => rfl
  | cons c cs => rw [List.dropWhile_cons_of_neg]; simp [hr c rfl]

/-- **C45** (formulas refused). A formula without letters is refused with a `ValueError`; one whose first letters are no symbol of the table with a `KeyError`. -/
theorem num_refused (lm : LibMan) (f : Str) :
    ((∀ c ∈ f, isLetter c = false) → lm.zaidNum f = .error .valueError) ∧
    (∀ a w b, f = a ++ (w ++ b) → (∀ c ∈ a, isLetter c = false) → w ≠ [] → (∀ c ∈ w, isLetter c = true) → (∀ c, b.head? = some c → isLetter c = false) →
      (∀ r ∈ lm.isos, r.sym ≠ w) → lm.zaidNum f = .error .keyError) := by
  constructor
  · intro h
    have : searchLetters f = none := by
      have := dropWhile_letters (rest := []) h (by intro c hc; cases hc)
      rw [List.append_nil] at this
      unfold searchLetters
      rw [this]
      rfl
    simp only [LibMan.zaidNum, this]
  · intro a w b hf ha hw hl hb hn
    have : searchLetters f = some w := by
      have h1 : f.dropWhile (fun c => !isLetter c) = w ++ b := by
        rw [hf]
        refine dropWhile_letters ha ?_
        intro c hc
        cases w with
        | nil => exact absurd rfl hw
        | cons d w => simp at hc; subst hc; exact hl _ (by simp)
      have h2 : (w ++ b).takeWhile isLetter = w := by
        rw [List.takeWhile_append_of_pos hl]
        cases b with
        | nil => simp
        | cons c cs => rw [List.takeWhile_cons_of_neg (by simp [hb c rfl])]; simp
      unfold searchLetters
      rw [h1, h2]
      cases w with
      | nil => exact absurd rfl hw
      | cons c cs => rfl
    simp only [LibMan.zaidNum, this, numberOf_none hn]

/-- **C45** (`get_formulazaid` refuses). A text that does not start with letters and digits behind them is refused with an `AttributeError`; letters that are no symbol of the table with an `IndexError`. -/
theorem formula_refused (lm : LibMan) (w b : Str) (hl : ∀ c ∈ w, isLetter c = true) (hb : ∀ c, b.head? = some c → isLetter c = false) :
    ((w = [] ∨ ∀ c, b.head? = some c → isDigit c = false) → lm.formulaZaid (w ++ b) = .error .attributeError) ∧
    (w ≠ [] → (∃ d r, b = d :: r ∧ isDigit d = true) → (∀ r ∈ lm.isos, r.sym ≠ w) → lm.formulaZaid (w ++ b) = .error .indexError) := by
  have h1 : (w ++ b).takeWhile isLetter = w := by
    rw [List.takeWhile_append_of_pos hl]
    cases b with
    | nil => simp
    | cons c cs => rw [List.takeWhile_cons_of_neg (by simp [hb c rfl])]; simp
  have h2 : (w ++ b).dropWhile isLetter = b := by
    rw [List.dropWhile_append_of_pos hl]
    cases b with
    | nil => simp
    | cons c cs => rw [List.dropWhile_cons_of_neg (by simp [hb c rfl])]
  constructor
  · intro h
    unfold LibMan.formulaZaid
    rw [h1, h2]
    cases w with
    | nil => rfl
    | cons c w =>
      rcases h with h | h
      · cases h
      · cases b with
        | nil => rfl
        | cons d r =>
          rw [List.takeWhile_cons_of_neg (by simp [h d rfl])]
  · intro hw hd hn
    obtain ⟨d, r, rfl, hd⟩ := hd
    unfold LibMan.formulaZaid
    rw [h1, h2]
    cases w with
    | nil => exact absurd rfl hw
    | cons c w =>
      rw [List.takeWhile_cons_of_pos hd]
      simp only [numberOf_none hn]

/-! ### concrete cases -/

example (lm : LibMan) (h : lm.isos = shippedIsotopes) : lm.zaidName "H001".toList = .error .valueError ∧ lm.zaidName "200001".toList = .error .keyError ∧
    lm.zaidNum "12".toList = .error .valueError := by
  refine ⟨?_, ?_, (num_refused lm _).1 (by decide)⟩
  · exact (name_refused lm (e := "H".toList) (i := "001".toList) (suffix := []) (by decide) rfl (Or.inl rfl)).1 (by decide)
  · refine (name_refused lm (e := "200".toList) (i := "001".toList) (suffix := []) (by decide) rfl (Or.inl rfl)).2.1 200 (by decide +kernel) ?_
    rw [h]
    decide +kernel

end F4Enix.Mat
