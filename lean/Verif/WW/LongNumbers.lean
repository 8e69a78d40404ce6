import Verif.WW.ParserProps
import Verif.Base.Fortran
/-!
# Weight-window files with numbers that cannot be read (C193)
-/
namespace F4Enix.WW
open F4Enix

theorem floats_refused (f : NumFmt) (ws : List Str) : floats f ws = .error .valueError ↔ ∃ w ∈ ws, f.num w = none := by
  induction ws with
  | nil => simp [floats]
  | cons w ws ih =>
    rw [floats]
    cases hw : f.num w with
    | none => simp [hw]
    | some q =>
      simp only
      cases hr : floats f ws with
      | error x =>
        have hx : x = .valueError := by
          by_contra hne
          have : ∀ ws : List Str, floats f ws = .error x → x = .valueError := by
            intro ws
            induction ws with
            | nil => intro h; cases h
            | cons w ws ih2 =>
              intro h
              rw [floats] at h
              cases hw2 : f.num w with
              | none => rw [hw2] at h; simpa using h.symm
              | some q2 =>
                rw [hw2] at h
                simp only at h
                cases hr2 : floats f ws with
                | error y => rw [hr2] at h; simp only [Except.error.injEq] at h; subst h; exact ih2 hr2
                | ok qs => rw [hr2] at h; cases h
          exact hne (this ws hr)
        subst hx
        have := ih.mp hr
        simp [this]
      | ok qs =>
        simp only [reduceCtorEq, false_iff, List.mem_cons, exists_eq_or_imp, not_or]
        refine ⟨by rw [hw]; simp, fun h => ?_⟩
        have := ih.mpr h
        rw [hr] at this; cases this

/-- **C193 (weight windows).** If a line that is needed shows a number with an exponent of three digits as Fortran writes it, the file is refused. -/
theorem window_refused (f : NumFmt) (hf : f.num = parseFloat) {d : ℕ} {expected : ℤ} {acc : List ℚ} {good : List Str} {l : Str}
    (qss : List (List ℚ)) (hg : List.Forall₂ (fun l qs => floats f (tokens l) = .ok qs) good qss)
    (hn : ((acc ++ qss.flatten).length : ℤ) < expected) {q : ℚ} (hl : fmtFortran d q ∈ tokens l) (hq : ¬ TwoDigits d q) (rest : List Str) :
    readUntil f expected acc (good ++ l :: rest) = .error .valueError := by
  induction hg generalizing acc with
  | nil =>
    have he : floats f (tokens l) = .error .valueError := (floats_refused f _).mpr ⟨_, hl, by rw [hf]; exact fortran_refused hq⟩
    rw [List.nil_append, readUntil, if_pos (by simpa using hn), he]
  | @cons l' qs good qss h _ ih =>
    rw [List.cons_append, readUntil, if_pos, h]
    · simp only
      apply ih
      simpa [List.append_assoc] using hn
    · simp only [List.flatten_cons, List.length_append, Nat.cast_add] at hn
      omega

example : floats { g := fmtGen 4, e := fmtSci (Char.ofNat 69) 4, num := parseFloat } (tokens " 1.00000E+00 1.00000-110".toList) = .error .valueError := by
  rw [floats_refused]
  exact ⟨"1.00000-110".toList, by decide +kernel, by decide +kernel⟩

end F4Enix.WW
