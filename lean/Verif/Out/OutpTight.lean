import Verif.Out.OutpStats
import Verif.Out.FispactProps
/-!
# Further theorems about MCNP outputs

Added after wrong programs had survived the first ones: which lines report a fatal error, where the name
of D1SUNED is found, what happens to a lost particle whose coordinates are cut.
-/
namespace F4Enix.Outp
open F4Enix Fispact

/-- **C81 (which lines).** A line reports a fatal error exactly when it begins with at least one blank character,
followed (after more blanks) by `fatal error`. -/
theorem isFatal_iff (l : Str) : isFatal l = true ↔
    ∃ b s, l = b ++ "fatal error".toList ++ s ∧ b ≠ [] ∧ ∀ c ∈ b, isSpace c = true := by
  unfold isFatal
  rw [Bool.and_eq_true, List.isPrefixOf_iff_prefix]
  constructor
  · rintro ⟨h1, s, hs⟩
    refine ⟨l.takeWhile isSpace, s, ?_, ?_, fun c hc => mem_takeWhile_imp hc⟩
    · rw [List.append_assoc, hs, List.takeWhile_append_dropWhile]
    · cases l with
      | nil => cases h1
      | cons c l => simp only [startsSpace] at h1; simp [h1]
  · rintro ⟨b, s, rfl, hne, hb⟩
    constructor
    · cases b with
      | nil => exact absurd rfl hne
      | cons c b => exact hb c (by simp)
    · have := (takeWhile_run (p := isSpace) (a := b) (s := "fatal error".toList ++ s) hb (by
        intro c t hc
        have e : "fatal error".toList = 'f' :: "atal error".toList := by decide
        rw [e, List.cons_append] at hc
        simp only [List.cons.injEq] at hc
        rw [← hc.1]; decide)).2
      rw [List.append_assoc, this]
      exact List.prefix_append _ _

/-- **C88 (D1SUNED).** The name of the code is found at a place of a line exactly when there is `d1suned`, blanks,
`version`, blanks and digits; all the digits are taken. -/
theorem d1sHere_iff (s w : Str) : d1sHere s = some w ↔
    ∃ b1 b2 r, s = "d1suned".toList ++ b1 ++ "version".toList ++ b2 ++ w ++ r ∧ b1 ≠ [] ∧ b2 ≠ [] ∧ w ≠ [] ∧
      (∀ c ∈ b1, isSpace c = true) ∧ (∀ c ∈ b2, isSpace c = true) ∧ (∀ c ∈ w, isDigit c = true) ∧
      ∀ c t, r = c :: t → isDigit c = false := by
  constructor
  · intro h
    unfold d1sHere at h
    split at h
    · rename_i h1
      obtain ⟨r, rfl⟩ := List.isPrefixOf_iff_prefix.mp h1
      have e1 : ("d1suned".toList ++ r).drop 7 = r := rfl
      simp only at h
      rw [e1] at h
      split at h
      · rename_i h2
        obtain ⟨h2, h3⟩ := h2
        obtain ⟨r3, hr3⟩ := List.isPrefixOf_iff_prefix.mp h3
        rw [← hr3] at h
        have e2 : ("version".toList ++ r3).drop 7 = r3 := rfl
        rw [e2] at h
        split at h
        · rename_i h4
          have key : (r3.dropWhile isSpace).takeWhile isDigit = w ∧ w ≠ [] := by
            split at h
            · cases h
            · rename_i hne
              simp only [Option.some.injEq] at h
              exact ⟨h, fun hc => hne (by rw [h, hc])⟩
          refine ⟨r.takeWhile isSpace, r3.takeWhile isSpace, (r3.dropWhile isSpace).dropWhile isDigit, ?_, ?_, ?_, key.2,
            fun c hc => mem_takeWhile_imp hc, fun c hc => mem_takeWhile_imp hc, ?_, ?_⟩
          · rw [← key.1]
            simp only [List.append_assoc, List.takeWhile_append_dropWhile, hr3]
          · cases r with
            | nil => cases h2
            | cons c l => simp only [startsSpace] at h2; simp [h2]
          · cases r3 with
            | nil => cases h4
            | cons c l => simp only [startsSpace] at h4; simp [h4]
          · rw [← key.1]; exact fun c hc => mem_takeWhile_imp hc
          · intro c t hc
            have := List.head?_dropWhile_not isDigit (r3.dropWhile isSpace)
            rw [hc] at this
            simpa using this
        · cases h
      · cases h
    · cases h
  · rintro ⟨b1, b2, r, rfl, n1, n2, nw, h1, h2, hw, hr⟩
    have e : "d1suned".toList ++ b1 ++ "version".toList ++ b2 ++ w ++ r =
        "d1suned".toList ++ (b1 ++ ("version".toList ++ (b2 ++ (w ++ r)))) := by simp
    rw [e]
    unfold d1sHere
    rw [if_pos (List.isPrefixOf_iff_prefix.mpr (List.prefix_append _ _))]
    have e1 : ("d1suned".toList ++ (b1 ++ ("version".toList ++ (b2 ++ (w ++ r))))).drop 7 =
        b1 ++ ("version".toList ++ (b2 ++ (w ++ r))) := rfl
    have s1 : startsSpace (b1 ++ ("version".toList ++ (b2 ++ (w ++ r)))) = true := by
      cases b1 with
      | nil => exact absurd rfl n1
      | cons c b => exact h1 c (by simp)
    have d1 := (takeWhile_run (p := isSpace) (a := b1) (s := "version".toList ++ (b2 ++ (w ++ r))) h1 (by
      intro c t hc
      have e : "version".toList = 'v' :: "ersion".toList := by decide
      rw [e, List.cons_append] at hc
      simp only [List.cons.injEq] at hc
      rw [← hc.1]; decide)).2
    have e2 : ("version".toList ++ (b2 ++ (w ++ r))).drop 7 = b2 ++ (w ++ r) := rfl
    have s2 : startsSpace (b2 ++ (w ++ r)) = true := by
      cases b2 with
      | nil => exact absurd rfl n2
      | cons c b => exact h2 c (by simp)
    have d2 := (takeWhile_run (p := isSpace) (a := b2) (s := w ++ r) h2 (by
      intro c t hc
      exact Fispact.digit_not_space (head_of nw hw c t hc))).2
    have d3 := (takeWhile_run (p := isDigit) (a := w) (s := r) hw hr).1
    simp only
    rw [e1, d1, if_pos ⟨s1, List.isPrefixOf_iff_prefix.mpr (List.prefix_append _ _)⟩, e2, if_pos s2, d2, d3]
    cases w with
    | nil => exact absurd rfl nw
    | cons c w => rfl

example : d1sHere "d1suned  version 42 x".toList = some "42".toList ∧ d1sHere "d1sunedversion 42".toList = none := by
  decide +kernel

/-- **C82 (cut lines).** A lost particle whose line of coordinates shows fewer than three numbers is not tabulated:
the call fails with `IndexError`. -/
theorem three_short (num : Str → Option ℚ) (ws : List Str) (h : ws.length < 3) : three num ws = .error .indexError := by
  match ws, h with
  | [], _ => rfl
  | [_], _ => rfl
  | [_, _], _ => rfl
  | _ :: _ :: _ :: _, h => simp only [List.length_cons] at h; omega

end F4Enix.Outp
