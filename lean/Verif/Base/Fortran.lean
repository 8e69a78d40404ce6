import Verif.Base.Decimal
/-!
# Numbers as Fortran writes them (`1PEw.d`), read by `float`

MCNP writes its results with Fortran's `E` edit descriptor. An exponent of two digits is written `E+05`; an exponent of three digits
is written without the letter, `+105` (Fortran 2018, 13.7.2.3.3). The readers of the project give such words to `float`
(aux_meshtal_functions.py:117-200, mctal.py:1040-1041, ww_parser.py:96-98) or look for them with `SCIENTIFIC_PAT` (constants.py:47).
-/
namespace F4Enix
open F4Enix

/-- `1PEw.d` without leading blanks, for numbers whose exponent has at most three digits (specification) -/
def fmtFortran (d : ℕ) (q : ℚ) : Str :=
  if (sciParts d q).2.natAbs < 100 then fmtSci 'E' d q
  else
    signStr q ++ digitChar ((sciParts d q).1 / 10 ^ d) :: '.' ::
      (digitsW d (sciParts d q).1 ++ (if (sciParts d q).2 < 0 then '-' else '+') :: padZeros 3 (sciParts d q).2.natAbs)

/-- what is written needs no more than two digits for the exponent (specification) -/
def TwoDigits (d : ℕ) (q : ℚ) : Prop :=
  q = 0 ∨ ((10 : ℚ) ^ (-99 : ℤ) ≤ |roundSig d q| ∧ |roundSig d q| < (10 : ℚ) ^ (100 : ℤ))

theorem twoDigits_iff (d : ℕ) (q : ℚ) : TwoDigits d q ↔ (sciParts d q).2.natAbs < 100 := by
  unfold TwoDigits
  by_cases hq : q = 0
  · subst hq; simp [sciParts]
  · have hb := sciParts_digits d q
    have hlo : ((10 : ℚ) ^ d) ≤ ((sciParts d q).1 : ℚ) := by exact_mod_cast hb.2 hq
    have hhi : ((sciParts d q).1 : ℚ) < (10 : ℚ) ^ (d + 1) := by exact_mod_cast hb.1
    rw [abs_roundSig]
    generalize (sciParts d q).1 = m at *
    generalize (sciParts d q).2 = e at *
    have hp := ten_zpow_pos (e - d)
    have e1 : (10 : ℚ) ^ d * (10 : ℚ) ^ (e - d) = (10 : ℚ) ^ e := by
      rw [← zpow_natCast, ← zpow_add₀ (by norm_num)]; congr 1; omega
    have e2 : (10 : ℚ) ^ (d + 1) * (10 : ℚ) ^ (e - d) = (10 : ℚ) ^ (e + 1) := by
      rw [← zpow_natCast, ← zpow_add₀ (by norm_num)]; congr 1; push_cast; omega
    have l1 : (10 : ℚ) ^ e ≤ (m : ℚ) * (10 : ℚ) ^ (e - d) := by rw [← e1]; exact mul_le_mul_of_nonneg_right hlo hp.le
    have l2 : (m : ℚ) * (10 : ℚ) ^ (e - d) < (10 : ℚ) ^ (e + 1) := by rw [← e2]; exact mul_lt_mul_of_pos_right hhi hp
    have h10 : (1 : ℚ) < 10 := by norm_num
    constructor
    · rintro (h | ⟨h1, h2⟩)
      · exact absurd h hq
      · have a1 := (zpow_lt_zpow_iff_right₀ h10).mp (lt_of_le_of_lt h1 l2)
        have a2 := (zpow_lt_zpow_iff_right₀ h10).mp (lt_of_le_of_lt l1 h2)
        omega
    · intro h
      refine .inr ⟨le_trans ((zpow_le_zpow_iff_right₀ h10).mpr (by omega)) l1, lt_of_lt_of_le l2 ((zpow_le_zpow_iff_right₀ h10).mpr (by omega))⟩

/-- **C193.** A number written with an exponent of two digits is read as what is written. -/
theorem fortran_read {d : ℕ} {q : ℚ} (h : TwoDigits d q) : parseFloat (fmtFortran d q) = some (roundSig d q) := by
  rw [fmtFortran, if_pos ((twoDigits_iff d q).mp h)]
  exact fmtSci_read (.inr rfl) d q

theorem long_chars {d : ℕ} {q : ℚ} (h : ¬ TwoDigits d q) : ∀ c ∈ fmtFortran d q, isDigit c = true ∨ c = '.' ∨ c = '-' ∨ c = '+' := by
  have hm := (sciParts_digits d q).1
  have hd : (sciParts d q).1 / 10 ^ d < 10 := by
    rw [Nat.div_lt_iff_lt_mul (by positivity)]; rw [pow_succ] at hm; linarith
  rw [fmtFortran, if_neg (fun h' => h ((twoDigits_iff d q).mpr h'))]
  intro c hc
  simp only [List.mem_append, List.mem_cons] at hc
  rcases hc with hc | rfl | rfl | hc | rfl | hc
  · simp only [signStr] at hc
    split at hc
    · simp only [List.mem_singleton] at hc; simp [hc]
    · cases hc
  · exact .inl (isDigit_digitChar hd)
  · simp
  · exact .inl (digitsW_digit _ _ _ hc)
  · split <;> simp
  · exact .inl (padZeros_digit _ _ _ hc)

theorem parseUnsigned_long {d m : ℕ} (hm : m < 10 ^ (d + 1)) (s : Char) (hs : s = '-' ∨ s = '+') (w : Str) :
    parseUnsigned (digitChar (m / 10 ^ d) :: '.' :: (digitsW d m ++ s :: w)) = none := by
  have hd : m / 10 ^ d < 10 := by
    rw [Nat.div_lt_iff_lt_mul (by positivity)]; rw [pow_succ] at hm; linarith
  have h1 := takeWhile_digits (a := [digitChar (m / 10 ^ d)]) (t := '.' :: (digitsW d m ++ s :: w))
    (by intro x hx; simp only [List.mem_singleton] at hx; rw [hx]; exact isDigit_digitChar hd) (by intro c u h; cases h; decide)
  have h2 := takeWhile_digits (a := digitsW d m) (t := s :: w) (digitsW_digit d m)
    (by intro c u h; cases h; rcases hs with rfl | rfl <;> decide)
  have h3 : parseExp (s :: w) = none := by
    have : ¬ (s = 'e' ∨ s = 'E') := by rcases hs with rfl | rfl <;> decide
    cases w <;> simp only [parseExp, this, if_false]
  rw [List.singleton_append] at h1
  unfold parseUnsigned
  rw [h1.1, h1.2]
  simp only [h2.1, h2.2, h3]
  simp

/-- **C193.** A number with an exponent of three digits is refused by `float`. -/
theorem fortran_refused {d : ℕ} {q : ℚ} (h : ¬ TwoDigits d q) : parseFloat (fmtFortran d q) = none := by
  have hm := (sciParts_digits d q).1
  have hd : (sciParts d q).1 / 10 ^ d < 10 := by
    rw [Nat.div_lt_iff_lt_mul (by positivity)]; rw [pow_succ] at hm; linarith
  have hst : strip (fmtFortran d q) = fmtFortran d q := by
    apply strip_isWord
    intro c hc
    rcases long_chars h c hc with hc | rfl | rfl | rfl
    · exact isSpace_of_isDigit hc
    all_goals decide
  have hu := parseUnsigned_long hm (if (sciParts d q).2 < 0 then '-' else '+') (by split <;> simp) (padZeros 3 (sciParts d q).2.natAbs)
  have hdig := isDigit_digitChar hd
  unfold parseFloat
  rw [hst, fmtFortran, if_neg (fun h' => h ((twoDigits_iff d q).mpr h'))]
  by_cases hq : q < 0
  · simp only [signStr, hq, if_true, List.cons_append, List.nil_append, hu, Option.map_none]
  · have n1 : digitChar ((sciParts d q).1 / 10 ^ d) ≠ '-' := by intro e; rw [e] at hdig; revert hdig; decide
    have n2 : digitChar ((sciParts d q).1 / 10 ^ d) ≠ '+' := by intro e; rw [e] at hdig; revert hdig; decide
    simp only [signStr, hq, if_false, List.nil_append, n1, n2, hu]

theorem fortran_ne (d : ℕ) (q : ℚ) : fmtFortran d q ≠ [] := by
  unfold fmtFortran
  split
  · exact (fmtSci_word (.inr rfl) d q).1
  · simp

theorem fortran_word (d : ℕ) (q : ℚ) : IsWord (fmtFortran d q) := by
  by_cases h : TwoDigits d q
  · rw [fmtFortran, if_pos ((twoDigits_iff d q).mp h)]; exact fmtSci_word (.inr rfl) d q
  · refine ⟨fortran_ne d q, fun c hc => ?_⟩
    rcases long_chars h c hc with hc | rfl | rfl | rfl
    · exact isSpace_of_isDigit hc
    all_goals decide

/-- when a number is read, in terms of the number itself -/
theorem fortran_read_iff (d : ℕ) (q : ℚ) : (parseFloat (fmtFortran d q)).isSome ↔ TwoDigits d q := by
  constructor
  · intro h
    by_contra hc
    rw [fortran_refused hc] at h
    simp at h
  · intro h; rw [fortran_read h]; rfl

example : fmtFortran 4 (-123456 / 100) = "-1.2346E+03".toList ∧ fmtFortran 2 (1 / 10 ^ 104) = "1.00-104".toList ∧
    TwoDigits 4 (-123456 / 100) ∧ ¬ TwoDigits 2 (1 / 10 ^ 104) := by
  refine ⟨by decide +kernel, by decide +kernel, ?_, ?_⟩
  · rw [twoDigits_iff]; decide +kernel
  · rw [twoDigits_iff]; decide +kernel

end F4Enix
