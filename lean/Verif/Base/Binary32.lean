import Verif.Base.Binary64
/-!
# Numbers as the points of a VTK grid hold them: IEEE binary32

A finite float is a rational number with 24 binary digits; the result of an operation is the float nearest to the exact result, halves to the even
last digit. `sgl` is that float without the upper limit of the exponent; `Overflows32` says where the result is infinite instead.
-/
namespace F4Enix
open F4Enix

/-! ## Model -/

/-- the exponent of the last of the 24 binary digits of a number, not below that of the smallest float (vtk, numpy float32) -/
def ulpExp32 (x : ℚ) : ℤ := max (Int.log 2 |x| - 23) (-149)

/-- the float nearest to a number, halves to the even last digit (vtk, numpy float32) -/
def sgl (x : ℚ) : ℚ := (if x < 0 then -1 else 1) * (roundEven (|x| / (2 : ℚ) ^ ulpExp32 x) : ℚ) * (2 : ℚ) ^ ulpExp32 x

/-- the nearest float has an exponent that is too high: the result is an infinity (vtk, numpy float32) -/
def Overflows32 (x : ℚ) : Prop := (2 : ℚ) ^ (128 : ℤ) ≤ |sgl x|

instance (x : ℚ) : Decidable (Overflows32 x) := inferInstanceAs (Decidable (_ ≤ _))

/-! ## Specification -/

/-- the finite floats: 24 binary digits, the last one not below `2 ^ -149`, less than `2 ^ 128` (specification) -/
def IsSingle (x : ℚ) : Prop := ∃ (m : ℕ) (k : ℤ), m < 2 ^ 24 ∧ -149 ≤ k ∧ |x| = (m : ℚ) * (2 : ℚ) ^ k ∧ |x| < (2 : ℚ) ^ (128 : ℤ)

/-! ## Rounding -/

theorem sgl_pos_val {x : ℚ} (h : 0 ≤ x) : sgl x = (roundEven (x / (2 : ℚ) ^ ulpExp32 x) : ℚ) * (2 : ℚ) ^ ulpExp32 x := by
  unfold sgl
  rw [if_neg (not_lt.2 h), abs_of_nonneg h, one_mul]

theorem ulpExp32_neg (x : ℚ) : ulpExp32 (-x) = ulpExp32 x := by unfold ulpExp32; rw [abs_neg]

theorem sgl_zero : sgl 0 = 0 := by
  rw [sgl_pos_val le_rfl]
  have : roundEven ((0 : ℚ) / 2 ^ ulpExp32 0) = 0 := by rw [zero_div]; exact_mod_cast roundEven_nat 0
  rw [this]; simp

/-- the float nearest to `-x` is the negative of that nearest to `x` -/
theorem sgl_neg (x : ℚ) : sgl (-x) = -sgl x := by
  by_cases h0 : x = 0
  · subst h0; simp [sgl_zero]
  · unfold sgl
    rw [ulpExp32_neg, abs_neg]
    by_cases hx : x < 0
    · rw [if_neg (by linarith), if_pos hx]; ring
    · have : 0 < x := lt_of_le_of_ne (not_lt.1 hx) (Ne.symm h0)
      rw [if_pos (by linarith), if_neg hx]; ring

theorem sgl_nonneg {x : ℚ} (h : 0 ≤ x) : 0 ≤ sgl x := by
  rw [sgl_pos_val h]
  have := (two_zpow_pos (ulpExp32 x)).le
  positivity

theorem abs_sgl (x : ℚ) : |sgl x| = sgl |x| := by
  rcases le_total 0 x with h | h
  · rw [abs_of_nonneg h, abs_of_nonneg (sgl_nonneg h)]
  · have hn : 0 ≤ -x := by linarith
    rw [abs_of_nonpos h, ← abs_neg, ← sgl_neg, abs_of_nonneg (sgl_nonneg hn)]

/-- the digits of a positive number: `2 ^ 23` at least in the normal range, `2 ^ 24` at most -/
theorem scaled_le32 {x : ℚ} (hx : 0 < x) : x / (2 : ℚ) ^ ulpExp32 x < ((2 ^ 24 : ℕ) : ℚ) := by
  have h1 : x < (2 : ℚ) ^ (Int.log 2 x + 1) := Int.lt_zpow_succ_log_self (by norm_num) x
  have h2 : (2 : ℚ) ^ (Int.log 2 x + 1) ≤ (2 : ℚ) ^ (ulpExp32 x + 24) := by
    apply zpow_le_zpow_right₀ (by norm_num)
    unfold ulpExp32
    rw [abs_of_pos hx]
    have := le_max_left (Int.log 2 x - 23) (-149)
    omega
  rw [div_lt_iff₀ (two_zpow_pos _)]
  refine lt_of_lt_of_le (lt_of_lt_of_le h1 h2) (le_of_eq ?_)
  rw [zpow_add₀ (by norm_num)]
  push_cast
  ring

theorem round_le32 {x : ℚ} (hx : 0 < x) : roundEven (x / (2 : ℚ) ^ ulpExp32 x) ≤ 2 ^ 24 := by
  have h := roundEven_mono (div_nonneg hx.le (two_zpow_pos (ulpExp32 x)).le) (scaled_le32 hx).le
  rwa [roundEven_nat] at h

/-- a number that is a float is the float nearest to itself -/
theorem sgl_exact {x : ℚ} {m : ℕ} {k : ℤ} (hm : m < 2 ^ 24) (hk : -149 ≤ k) (hx : |x| = (m : ℚ) * (2 : ℚ) ^ k) : sgl x = x := by
  have key : ∀ y : ℚ, 0 ≤ y → y = (m : ℚ) * (2 : ℚ) ^ k → sgl y = y := by
    intro y hy h
    by_cases hm0 : m = 0
    · subst hm0
      have : y = 0 := by rw [h]; simp
      rw [this, sgl_zero]
    have hmpos : (0 : ℚ) < m := by exact_mod_cast Nat.pos_of_ne_zero hm0
    have hypos : 0 < y := by rw [h]; exact mul_pos hmpos (two_zpow_pos k)
    have hlog : Int.log 2 y < k + 24 := by
      rw [← Int.lt_zpow_iff_log_lt (by norm_num) hypos, h]
      have h2 : (m : ℚ) < (2 : ℚ) ^ (24 : ℤ) := by
        have : ((m : ℕ) : ℚ) < ((2 ^ 24 : ℕ) : ℚ) := by exact_mod_cast hm
        norm_num at this ⊢
        exact this
      calc (m : ℚ) * 2 ^ k < (2 : ℚ) ^ (24 : ℤ) * 2 ^ k := by
            exact mul_lt_mul_of_pos_right h2 (two_zpow_pos k)
        _ = _ := by
            rw [← zpow_add₀ (by norm_num)]; congr 1; ring
    have hle : ulpExp32 y ≤ k := by
      unfold ulpExp32
      rw [abs_of_pos hypos]
      exact max_le (by omega) hk
    obtain ⟨d, hd⟩ := Int.le.dest hle
    have hq : y / (2 : ℚ) ^ ulpExp32 y = ((m * 2 ^ d : ℕ) : ℚ) := by
      rw [div_eq_iff (two_zpow_pos _).ne']
      conv_lhs => rw [h, ← hd, zpow_add₀ (by norm_num), zpow_natCast]
      push_cast
      ring
    rw [sgl_pos_val hy, hq, roundEven_nat, ← hq, div_mul_cancel₀ _ (two_zpow_pos _).ne']
  rcases le_total 0 x with h | h
  · exact key x h (by rw [← hx, abs_of_nonneg h])
  · have := key (-x) (by linarith) (by rw [← hx, abs_of_nonpos h])
    rw [sgl_neg] at this
    linarith

theorem sgl_one : sgl 1 = 1 := sgl_exact (m := 1) (k := 0) (by norm_num) (by norm_num) (by norm_num)

/-- rounding keeps the order of non-negative numbers -/
theorem sgl_mono_pos {x y : ℚ} (hx : 0 ≤ x) (h : x ≤ y) : sgl x ≤ sgl y := by
  rcases hx.eq_or_lt with rfl | hx
  · rw [sgl_zero]; exact sgl_nonneg h
  have hy : 0 < y := lt_of_lt_of_le hx h
  have hlog : Int.log 2 x ≤ Int.log 2 y := Int.log_mono_right hx h
  have hle : ulpExp32 x ≤ ulpExp32 y := by
    unfold ulpExp32
    rw [abs_of_pos hx, abs_of_pos hy]
    exact max_le_max (by omega) le_rfl
  rw [sgl_pos_val hx.le, sgl_pos_val hy.le]
  rcases hle.eq_or_lt with heq | hlt
  · rw [heq]
    apply mul_le_mul_of_nonneg_right _ (two_zpow_pos _).le
    have := roundEven_mono (div_nonneg hx.le (two_zpow_pos (ulpExp32 y)).le) (div_le_div_of_nonneg_right h (two_zpow_pos (ulpExp32 y)).le)
    exact_mod_cast this
  · -- a power of two lies between them
    have hy1 : ulpExp32 y = Int.log 2 y - 23 := by
      unfold ulpExp32 at hlt ⊢
      rw [abs_of_pos hx, abs_of_pos hy] at hlt
      rw [abs_of_pos hy]
      rcases max_choice (Int.log 2 y - 23) (-149) with hc | hc
      · exact hc
      · rw [hc] at hlt
        exact absurd hlt (not_lt.2 (le_max_right _ _))
    have hxe : ulpExp32 x + 24 ≤ ulpExp32 y + 23 := by omega
    calc (roundEven (x / (2 : ℚ) ^ ulpExp32 x) : ℚ) * (2 : ℚ) ^ ulpExp32 x ≤ ((2 ^ 24 : ℕ) : ℚ) * (2 : ℚ) ^ ulpExp32 x := by
          apply mul_le_mul_of_nonneg_right _ (two_zpow_pos _).le
          exact_mod_cast round_le32 hx
      _ = (2 : ℚ) ^ (ulpExp32 x + 24) := by
          rw [zpow_add₀ (by norm_num)]; push_cast; ring
      _ ≤ (2 : ℚ) ^ (ulpExp32 y + 23) := zpow_le_zpow_right₀ (by norm_num) hxe
      _ = ((2 ^ 23 : ℕ) : ℚ) * (2 : ℚ) ^ ulpExp32 y := by
          rw [zpow_add₀ (by norm_num)]; push_cast; ring
      _ ≤ _ := by
          apply mul_le_mul_of_nonneg_right _ (two_zpow_pos _).le
          have h1 : ((2 ^ 23 : ℕ) : ℚ) ≤ y / (2 : ℚ) ^ ulpExp32 y := by
            rw [le_div_iff₀ (two_zpow_pos _)]
            have h2 : (2 : ℚ) ^ Int.log 2 y ≤ y := Int.zpow_log_le_self (by norm_num) hy
            refine le_trans (le_of_eq ?_) h2
            rw [hy1, zpow_sub₀ (by norm_num)]
            push_cast
            ring
          have := roundEven_mono (by positivity) h1
          rw [roundEven_nat] at this
          exact_mod_cast this

/-- **rounding keeps the order** -/
theorem sgl_mono {x y : ℚ} (h : x ≤ y) : sgl x ≤ sgl y := by
  rcases le_total 0 x with hx | hx
  · exact sgl_mono_pos hx h
  · rcases le_total 0 y with hy | hy
    · have h1 : 0 ≤ sgl (-x) := sgl_nonneg (by linarith)
      rw [sgl_neg] at h1
      linarith [sgl_nonneg hy]
    · have := sgl_mono_pos (x := -y) (y := -x) (by linarith) (by linarith)
      rw [sgl_neg, sgl_neg] at this
      linarith

/-- **the error of rounding**: half a unit of the last digit -/
theorem sgl_near_ulp (x : ℚ) : |sgl x - x| ≤ (2 : ℚ) ^ ulpExp32 x / 2 := by
  have key : ∀ y : ℚ, 0 ≤ y → |sgl y - y| ≤ (2 : ℚ) ^ ulpExp32 y / 2 := by
    intro y hy
    have hu := two_zpow_pos (ulpExp32 y)
    have h1 := roundEven_near (div_nonneg hy hu.le)
    rw [sgl_pos_val hy]
    have h2 : (roundEven (y / (2 : ℚ) ^ ulpExp32 y) : ℚ) * (2 : ℚ) ^ ulpExp32 y - y =
        ((roundEven (y / (2 : ℚ) ^ ulpExp32 y) : ℚ) - y / (2 : ℚ) ^ ulpExp32 y) * (2 : ℚ) ^ ulpExp32 y := by
      rw [sub_mul, div_mul_cancel₀ _ hu.ne']
    rw [h2, abs_mul, abs_of_pos hu]
    calc _ ≤ 1 / 2 * (2 : ℚ) ^ ulpExp32 y := mul_le_mul_of_nonneg_right h1 hu.le
      _ = _ := by ring
  rcases le_total 0 x with h | h
  · exact key x h
  · have := key (-x) (by linarith)
    rw [sgl_neg, ulpExp32_neg] at this
    rwa [show -sgl x - -x = -(sgl x - x) by ring, abs_neg] at this

/-- **the relative error** of a number in the normal range -/
theorem sgl_near {x : ℚ} (h : (2 : ℚ) ^ (-126 : ℤ) ≤ |x|) : |sgl x - x| ≤ |x| / 2 ^ 24 := by
  have hpos : 0 < |x| := lt_of_lt_of_le (two_zpow_pos _) h
  have hl : -126 ≤ Int.log 2 |x| := by rwa [← Int.zpow_le_iff_le_log (by norm_num) hpos]
  have hu : ulpExp32 x = Int.log 2 |x| - 23 := max_eq_left (by omega)
  have h1 : (2 : ℚ) ^ Int.log 2 |x| ≤ |x| := Int.zpow_log_le_self (by norm_num) hpos
  refine le_trans (sgl_near_ulp x) ?_
  rw [hu, zpow_sub₀ (by norm_num), div_div]
  have : (2 : ℚ) ^ (23 : ℤ) * 2 = 2 ^ 24 := by norm_num
  rw [this]
  exact div_le_div_of_nonneg_right h1 (by positivity)

/-- what rounding gives is a float or too large -/
theorem sgl_isSingle {x : ℚ} (h : ¬ Overflows32 x) : IsSingle (sgl x) := by
  have hb : |sgl x| < (2 : ℚ) ^ (128 : ℤ) := not_le.1 h
  by_cases h0 : x = 0
  · subst h0; rw [sgl_zero]; exact ⟨0, 0, by norm_num, by norm_num, by simp, by simp⟩
  have hpos : 0 < |x| := abs_pos.2 h0
  have hv : |sgl x| = (roundEven (|x| / (2 : ℚ) ^ ulpExp32 |x|) : ℚ) * (2 : ℚ) ^ ulpExp32 |x| := by
    rw [abs_sgl, sgl_pos_val (abs_nonneg x)]
  have hk : -149 ≤ ulpExp32 |x| := le_max_right _ _
  rcases (round_le32 hpos).eq_or_lt with he | hlt
  · refine ⟨1, ulpExp32 |x| + 24, by norm_num, by omega, ?_, hb⟩
    rw [hv, he, zpow_add₀ (by norm_num)]
    push_cast
    norm_num
    ring
  · exact ⟨_, _, hlt, hk, hv, hb⟩

/-- a float is unchanged -/
theorem sgl_of_isSingle {x : ℚ} (h : IsSingle x) : sgl x = x ∧ ¬ Overflows32 x := by
  obtain ⟨m, k, hm, hk, hx, hb⟩ := h
  have := sgl_exact hm hk hx
  exact ⟨this, by unfold Overflows32; rw [this]; exact not_le.2 hb⟩

/-- rounding again changes nothing -/
theorem sgl_idem (x : ℚ) : sgl (sgl x) = sgl x := by
  by_cases h0 : x = 0
  · subst h0; rw [sgl_zero, sgl_zero]
  have hpos : 0 < |x| := abs_pos.2 h0
  have hv : |sgl x| = (roundEven (|x| / (2 : ℚ) ^ ulpExp32 |x|) : ℚ) * (2 : ℚ) ^ ulpExp32 |x| := by
    rw [abs_sgl, sgl_pos_val (abs_nonneg x)]
  have hk : -149 ≤ ulpExp32 |x| := le_max_right _ _
  rcases (round_le32 hpos).eq_or_lt with he | hlt
  · apply sgl_exact (m := 1) (k := ulpExp32 |x| + 24) (by norm_num) (by omega)
    rw [hv, he, zpow_add₀ (by norm_num)]
    push_cast
    norm_num
    ring
  · exact sgl_exact hlt hk hv

/-- **no float is nearer** -/
theorem sgl_nearest (x : ℚ) {y : ℚ} (h : IsSingle y) : |sgl x - x| ≤ |y - x| := by
  have key : ∀ x y : ℚ, 0 < x → IsSingle y → |sgl x - x| ≤ |y - x| := by
    rintro x y hx ⟨m, k, hm, hk, hy, -⟩
    have hu := two_zpow_pos (ulpExp32 x)
    -- multiples of the unit of `x`
    have hmul : ∀ n : ℤ, |sgl x - x| ≤ |(n : ℚ) * (2 : ℚ) ^ ulpExp32 x - x| := by
      intro n
      have h1 := roundEven_nearest (div_nonneg hx.le hu.le) n
      rw [sgl_pos_val hx.le]
      have e : ∀ a : ℚ, a * (2 : ℚ) ^ ulpExp32 x - x = (a - x / (2 : ℚ) ^ ulpExp32 x) * (2 : ℚ) ^ ulpExp32 x := by
        intro a; rw [sub_mul, div_mul_cancel₀ _ hu.ne']
      rw [e, e, abs_mul, abs_mul]
      exact mul_le_mul_of_nonneg_right h1 (abs_nonneg _)
    by_cases hek : ulpExp32 x ≤ k
    · obtain ⟨d, hd⟩ := Int.le.dest hek
      have hy' : ∃ n : ℤ, y = (n : ℚ) * (2 : ℚ) ^ ulpExp32 x := by
        rw [← hd, zpow_add₀ (by norm_num), zpow_natCast] at hy
        rcases abs_choice y with hc | hc
        · exact ⟨(m : ℤ) * 2 ^ d, by rw [hc] at hy; rw [hy]; push_cast; ring⟩
        · exact ⟨-((m : ℤ) * 2 ^ d), by rw [hc] at hy; rw [show y = -(-y) by ring, hy]; push_cast; ring⟩
      obtain ⟨n, hn⟩ := hy'
      rw [hn]
      exact hmul n
    · have hu1 : ulpExp32 x = Int.log 2 x - 23 := by
        unfold ulpExp32 at hek ⊢
        rw [abs_of_pos hx] at hek ⊢
        rcases max_choice (Int.log 2 x - 23) (-149) with hc | hc
        · exact hc
        · rw [hc] at hek; omega
      have hP : (2 : ℚ) ^ Int.log 2 x ≤ x := Int.zpow_log_le_self (by norm_num) hx
      have hPm : (2 : ℚ) ^ Int.log 2 x = ((2 ^ 23 : ℤ) : ℚ) * (2 : ℚ) ^ ulpExp32 x := by
        rw [hu1, zpow_sub₀ (by norm_num)]; push_cast; ring
      have hyP : |y| ≤ (2 : ℚ) ^ Int.log 2 x := by
        rw [hy]
        have h1 : (m : ℚ) ≤ (2 : ℚ) ^ (24 : ℤ) := by
          have : ((m : ℕ) : ℚ) ≤ ((2 ^ 24 : ℕ) : ℚ) := by exact_mod_cast hm.le
          norm_num at this ⊢
          exact this
        calc (m : ℚ) * 2 ^ k ≤ (2 : ℚ) ^ (24 : ℤ) * 2 ^ k := mul_le_mul_of_nonneg_right h1 (two_zpow_pos k).le
          _ = (2 : ℚ) ^ (24 + k) := by rw [← zpow_add₀ (by norm_num)]
          _ ≤ _ := zpow_le_zpow_right₀ (by norm_num) (by omega)
      have h1 := hmul (2 ^ 23)
      rw [← hPm, abs_of_nonpos (a := (2 : ℚ) ^ Int.log 2 x - x) (by linarith)] at h1
      have h2 : y ≤ |y| := le_abs_self y
      rw [abs_of_nonpos (a := y - x) (by linarith)]
      linarith
  rcases lt_trichotomy x 0 with hx | hx | hx
  · have h' : IsSingle (-y) := by
      obtain ⟨m, k, a, b, c, d⟩ := h
      exact ⟨m, k, a, b, by rw [abs_neg]; exact c, by rw [abs_neg]; exact d⟩
    have := key (-x) (-y) (by linarith) h'
    rw [sgl_neg, show -sgl x - -x = -(sgl x - x) by ring, show -y - -x = -(y - x) by ring, abs_neg, abs_neg] at this
    exact this
  · subst hx; rw [sgl_zero]; simp
  · exact key x y hx h

end F4Enix
