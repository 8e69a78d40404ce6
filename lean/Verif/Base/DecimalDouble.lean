import Verif.Base.Binary64
/-!
# Decimal text and floats: up to 15 digits survive the way through a float

A number printed with at most 15 significant digits and read as the nearest float prints the same again.
-/
namespace F4Enix
open F4Enix

/-- a number near one of `p + 1` digits has these digits (proof) -/
theorem sciParts_near (p : ℕ) {m : ℕ} {e : ℤ} (h1 : 10 ^ p ≤ m) (h2 : m < 10 ^ (p + 1)) {q d : ℚ}
    (hd : d * 10 ^ (p + 1) < 1 / 2) (hq : |(|q| - (m : ℚ) * (10 : ℚ) ^ (e - p))| ≤ (m : ℚ) * (10 : ℚ) ^ (e - p) * d) : sciParts p q = (m, e) := by
  have hu := ten_zpow_pos (e - p)
  have m1 : (10 : ℚ) ^ p ≤ m := by exact_mod_cast h1
  have m2 : (m : ℚ) + 1 ≤ (10 : ℚ) ^ (p + 1) := by exact_mod_cast h2
  have hm : (0 : ℚ) < m := lt_of_lt_of_le (by positivity) m1
  have hd0 : 0 ≤ d := by
    have h := le_trans (abs_nonneg _) hq
    by_contra hc
    have : (m : ℚ) * (10 : ℚ) ^ (e - p) * d < 0 := mul_neg_of_pos_of_neg (mul_pos hm hu) (not_le.1 hc)
    linarith
  have hp10 : (0 : ℚ) < (10 : ℚ) ^ (p + 1) := by positivity
  have hdm : (m : ℚ) * d < 1 / 2 := by
    have : (m : ℚ) * d ≤ (10 : ℚ) ^ (p + 1) * d := mul_le_mul_of_nonneg_right (by linarith) hd0
    linarith
  -- the scaled number
  have hs : |(|q| / (10 : ℚ) ^ (e - p) - m)| ≤ (m : ℚ) * d := by
    have : |q| / (10 : ℚ) ^ (e - p) - m = (|q| - (m : ℚ) * (10 : ℚ) ^ (e - p)) / (10 : ℚ) ^ (e - p) := by
      rw [sub_div, mul_div_cancel_right₀ _ hu.ne']
    rw [this, abs_div, abs_of_pos hu, div_le_iff₀ hu]
    calc _ ≤ _ := hq
      _ = _ := by ring
  have hs' := abs_le.1 hs
  have e10 : (10 : ℚ) ^ e = (10 : ℚ) ^ p * (10 : ℚ) ^ (e - p) := by
    rw [← zpow_natCast, ← zpow_add₀ (by norm_num)]; congr 1; ring
  have e10' : (10 : ℚ) ^ (e + 1) = (10 : ℚ) ^ (p + 1) * (10 : ℚ) ^ (e - p) := by
    rw [← zpow_natCast, ← zpow_add₀ (by norm_num)]; congr 1; push_cast; ring
  have p1 : (1 : ℚ) ≤ (10 : ℚ) ^ p := one_le_pow₀ (by norm_num)
  have hlow : (m : ℚ) - 1 / 2 < |q| / (10 : ℚ) ^ (e - p) := by linarith [hs'.1]
  have hup : |q| / (10 : ℚ) ^ (e - p) < (m : ℚ) + 1 / 2 := by linarith [hs'.2]
  have hq0 : q ≠ 0 := by
    intro h
    rw [h, abs_zero, zero_div] at hlow
    linarith
  have hpos : 0 < |q| := abs_pos.mpr hq0
  have hlt : |q| < (10 : ℚ) ^ (e + 1) := by
    rw [e10', ← div_lt_iff₀ hu]
    linarith
  by_cases hc : (10 : ℚ) ^ e ≤ |q|
  · have hlog : Int.log 10 |q| = e := by
      apply le_antisymm
      · apply Int.lt_add_one_iff.mp
        rw [← Int.lt_zpow_iff_log_lt (R := ℚ) (b := 10) (by norm_num) hpos]
        exact_mod_cast hlt
      · rw [← Int.zpow_le_iff_le_log (R := ℚ) (b := 10) (by norm_num) hpos]
        exact_mod_cast hc
    have hr : roundEven (|q| / (10 : ℚ) ^ (e - p)) = m :=
      roundEven_of_near (by positivity) (abs_lt.2 ⟨by linarith, by linarith⟩)
    unfold sciParts
    simp only [hq0, if_false, hlog, hr]
    rw [if_neg (ne_of_lt h2)]
  · -- just below a power of ten
    push Not at hc
    have hmp : m = 10 ^ p := by
      by_contra hne
      have hlt' : 10 ^ p + 1 ≤ m := by omega
      have h3 : (10 : ℚ) ^ p + 1 ≤ m := by exact_mod_cast hlt'
      rw [e10, ← div_lt_iff₀ hu] at hc
      linarith
    have hmq : (m : ℚ) = (10 : ℚ) ^ p := by rw [hmp]; push_cast; rfl
    have hu' := ten_zpow_pos (e - 1 - p)
    have hten : (10 : ℚ) ^ (e - p) = 10 * (10 : ℚ) ^ (e - 1 - p) := by
      rw [← zpow_one_add₀ (by norm_num)]; congr 1; ring
    have hs2 : |q| / (10 : ℚ) ^ (e - 1 - p) = 10 * (|q| / (10 : ℚ) ^ (e - p)) := by
      rw [hten]; field_simp
    have hlow2 : (10 : ℚ) ^ (p + 1) - 1 / 2 < |q| / (10 : ℚ) ^ (e - 1 - p) := by
      rw [hs2]
      have h4 := hs'.1
      rw [hmq] at h4
      have h5 : 10 * ((10 : ℚ) ^ p * d) = d * 10 ^ (p + 1) := by rw [pow_succ]; ring
      have h6 : (10 : ℚ) ^ (p + 1) = 10 * 10 ^ p := by rw [pow_succ]; ring
      rw [h6]
      linarith
    have hup2 : |q| / (10 : ℚ) ^ (e - 1 - p) < (10 : ℚ) ^ (p + 1) := by
      rw [hs2, pow_succ]
      rw [e10, ← div_lt_iff₀ hu] at hc
      linarith
    have hlog : Int.log 10 |q| = e - 1 := by
      apply le_antisymm
      · have : Int.log 10 |q| < e := by
          rw [← Int.lt_zpow_iff_log_lt (R := ℚ) (b := 10) (by norm_num) hpos]
          exact_mod_cast hc
        omega
      · rw [← Int.zpow_le_iff_le_log (R := ℚ) (b := 10) (by norm_num) hpos]
        push_cast
        have e11 : (10 : ℚ) ^ (e - 1) = (10 : ℚ) ^ p * (10 : ℚ) ^ (e - 1 - p) := by
          rw [← zpow_natCast, ← zpow_add₀ (by norm_num)]; congr 1; ring
        rw [e11, ← le_div_iff₀ hu']
        have h6 : (10 : ℚ) ^ (p + 1) = 10 * 10 ^ p := by rw [pow_succ]; ring
        rw [h6] at hlow2
        linarith
    have hr : roundEven (|q| / (10 : ℚ) ^ (e - 1 - p)) = 10 ^ (p + 1) := by
      apply roundEven_of_near (by positivity)
      push_cast
      exact abs_lt.2 ⟨by linarith, by linarith⟩
    unfold sciParts
    simp only [hq0, if_false, hlog, hr, if_true]
    rw [hmp]
    simp

/-! ## Specification -/

/-- zero, or a number in the range in which floats have 53 digits (specification) -/
def Ordinary (q : ℚ) : Prop := q = 0 ∨ ((10 : ℚ) ^ (-307 : ℤ) ≤ |q| ∧ |q| ≤ (10 : ℚ) ^ (308 : ℤ))

theorem ordinary_normal {q : ℚ} (h : Ordinary q) (h0 : q ≠ 0) : (2 : ℚ) ^ (-1022 : ℤ) ≤ |q| := by
  rcases h with h | h
  · exact absurd h h0
  · refine le_trans ?_ h.1
    rw [zpow_neg, zpow_neg]
    apply inv_anti₀ (by positivity)
    have : (10 : ℕ) ^ 307 ≤ 2 ^ 1022 := by decide +kernel
    exact_mod_cast this

theorem roundSig_ordinary (p : ℕ) {q : ℚ} (h : Ordinary q) : Ordinary (roundSig p q) := by
  rcases h with h | ⟨h1, h2⟩
  · left; rw [h, roundSig_zero]
  · right
    have habs : |roundSig p q| = roundSig p |q| := by
      rcases le_total 0 q with hq | hq
      · rw [abs_of_nonneg hq]
        apply abs_of_nonneg
        rw [← roundSig_zero p]; exact roundSig_mono p hq
      · rw [abs_of_nonpos hq, roundSig_neg]
        apply abs_of_nonpos
        rw [← roundSig_zero p]; exact roundSig_mono p hq
    have hpow : ∀ k : ℤ, roundSig p ((10 : ℚ) ^ k) = (10 : ℚ) ^ k := by
      intro k
      apply roundSig_exact p (m := 1) (k := k)
      · exact Nat.one_lt_pow (by omega) (by norm_num)
      · rw [abs_of_pos (ten_zpow_pos k)]; simp
    rw [habs]
    constructor
    · rw [← hpow (-307)]; exact roundSig_mono p h1
    · rw [← hpow 308]; exact roundSig_mono p h2

/-- an ordinary number does not overflow -/
theorem ordinary_finite {q : ℚ} (h : Ordinary q) : ¬ Overflows q := by
  unfold Overflows
  rw [not_le]
  rcases h with h | ⟨-, h⟩
  · rw [h, dbl_zero]; simp
  · rw [abs_dbl]
    refine lt_of_le_of_lt (dbl_mono h) ?_
    have h1 : (2 : ℚ) ^ (-1022 : ℤ) ≤ |(10 : ℚ) ^ (308 : ℤ)| := by
      rw [abs_of_pos (ten_zpow_pos _)]
      exact le_trans (zpow_le_one_of_nonpos₀ (by norm_num) (by norm_num)) (one_le_zpow₀ (by norm_num) (by norm_num))
    have h2 := dbl_near h1
    rw [abs_of_pos (ten_zpow_pos _)] at h2
    have h3 := (abs_le.1 h2).2
    have h4 : 3 * (10 : ℚ) ^ (308 : ℤ) < 2 * (2 : ℚ) ^ (1024 : ℤ) := by
      have : 3 * (10 : ℕ) ^ 308 < 2 * 2 ^ 1024 := by decide +kernel
      exact_mod_cast this
    have h5 : (10 : ℚ) ^ (308 : ℤ) / 2 ^ 53 ≤ (10 : ℚ) ^ (308 : ℤ) / 2 := by
      apply div_le_div_of_nonneg_left (ten_zpow_pos _).le (by norm_num) (by norm_num)
    generalize (10 : ℚ) ^ (308 : ℤ) = t at *
    generalize (2 : ℚ) ^ (1024 : ℤ) = u at *
    linarith

/-- the nearest float of an ordinary number has its sign -/
theorem dbl_sign {q : ℚ} (h : Ordinary q) : (dbl q < 0 ↔ q < 0) ∧ (dbl q = 0 ↔ q = 0) := by
  by_cases h0 : q = 0
  · subst h0; simp [dbl_zero]
  · have hn := abs_le.1 (dbl_near (ordinary_normal h h0))
    have hpos := abs_pos.2 h0
    have hsmall : |q| / 2 ^ 53 < |q| := div_lt_self hpos (by norm_num)
    rcases lt_or_gt_of_ne h0 with hq | hq
    · rw [abs_of_neg hq] at hn hsmall
      constructor
      · simp only [hq, iff_true]; linarith [hn.2]
      · simp only [h0, iff_false]; intro hc; linarith [hn.2]
    · rw [abs_of_pos hq] at hn hsmall
      constructor
      · simp only [not_lt.2 hq.le, iff_false, not_lt]; linarith [hn.1]
      · simp only [h0, iff_false]; intro hc; linarith [hn.1]

/-- **15 digits survive.** A number rounded to at most 15 significant digits has the same digits after it became a float. -/
theorem sciParts_dbl {p : ℕ} (hp : p ≤ 14) {q : ℚ} (h : Ordinary q) : sciParts p (dbl (roundSig p q)) = sciParts p q := by
  by_cases h0 : q = 0
  · rw [h0, roundSig_zero, dbl_zero]
  · obtain ⟨h1, h2⟩ := sciParts_digits p q
    have hr := roundSig_ordinary p h
    have hr0 := (roundSig_sign p h0).2
    have hn := dbl_near (ordinary_normal hr hr0)
    have := sciParts_near p (h2 h0) h1 (e := (sciParts p q).2) (q := dbl (roundSig p q)) (d := 1 / 2 ^ 53) ?_ ?_
    · rw [this]
    · have : (10 : ℚ) ^ (p + 1) ≤ 10 ^ 15 := pow_le_pow_right₀ (by norm_num) (by omega)
      have h5 : (1 : ℚ) / 2 ^ 53 * 10 ^ 15 < 1 / 2 := by norm_num
      have : (1 : ℚ) / 2 ^ 53 * 10 ^ (p + 1) ≤ 1 / 2 ^ 53 * 10 ^ 15 := mul_le_mul_of_nonneg_left this (by positivity)
      linarith
    · rw [← abs_roundSig]
      refine le_trans (abs_abs_sub_abs_le _ _) (le_trans hn (le_of_eq ?_))
      ring

theorem signStr_dbl {q : ℚ} (h : Ordinary q) : signStr (dbl q) = signStr q := by
  simp only [signStr, (dbl_sign h).1]

/-- **C03, C10 and others**: a number printed, read as a float and printed again gives the same text -/
theorem print_read_print {p : ℕ} (hp : p ≤ 14) {q : ℚ} (h : Ordinary q) :
    (∀ c, fmtSci c p (dbl (roundSig p q)) = fmtSci c p q) ∧ fmtGen p (dbl (roundSig p q)) = fmtGen p q ∧
      fmtDecimal p (dbl (roundSig p q)) = fmtDecimal p q := by
  have hs := sciParts_dbl hp h
  have hr := roundSig_ordinary p h
  have hg : signStr (dbl (roundSig p q)) = signStr q := by rw [signStr_dbl hr, signStr_roundSig]
  have hz : dbl (roundSig p q) = 0 ↔ q = 0 := by
    rw [(dbl_sign hr).2]
    constructor
    · intro hc; by_contra h0; exact (roundSig_sign p h0).2 hc
    · rintro rfl; exact roundSig_zero p
  refine ⟨fun c => ?_, ?_, ?_⟩
  · simp only [fmtSci, hs, hg]
  · simp only [fmtGen, hs, hg]
  · simp only [fmtDecimal, hs, hg, hz]

/-- `0.1` is not a float, and read as a float it is printed again as it was; with 21 digits it is not -/
example : dbl (1 / 10) ≠ 1 / 10 ∧ fmtSci 'E' 4 (dbl (1 / 10)) = "1.0000E-01".toList ∧
    fmtSci 'e' 20 (dbl (1 / 10)) = "1.00000000000000005551e-01".toList := by
  decide +kernel

/-- the greatest float, the number from which the result is infinite, the smallest number, and one half of it (a tie, to the even zero) -/
example : ¬ Overflows ((2 : ℚ) ^ 1024 - (2 : ℚ) ^ 971) ∧ Overflows ((2 : ℚ) ^ 1024 - (2 : ℚ) ^ 970) ∧ dbl (1 / 2 ^ 1074) = 1 / 2 ^ 1074 ∧
    dbl (1 / 2 ^ 1075) = 0 := by
  decide +kernel

end F4Enix
