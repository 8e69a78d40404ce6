import Verif.Base.TextLemmas
import Mathlib.Data.Int.Log
import Mathlib.Algebra.Order.Field.Basic
import Mathlib.Data.Rat.Floor
import Mathlib.Tactic.Linarith
import Mathlib.Tactic.Ring
import Mathlib.Tactic.FieldSimp
import Mathlib.Tactic.Positivity
import Mathlib.Algebra.Order.Field.Power
/-!
# Decimal numbers as text: `{:.4E}`, `{:#.5g}`, `{:.6E}` of `Decimal`, and `float(str)`

The formats used by the writers of the project (ww_parser.py:320-367, materials.py:179, MCNPinput.py:1088, d1suned.py:458) and the
reading of a number, on exact rational numbers: the only rounding is the one to the digits shown, to the nearest, halves to the
even. Not modelled: infinities and `nan`, the sign of a zero, the underscores that `float` accepts between digits; the rounding
of the number read to a double is in Base/Binary64.lean and Base/DecimalDouble.lean.
-/
namespace F4Enix
open F4Enix

/-! ## Model -/

/-- a non-negative number to the nearest whole one, halves to the even (Python, formatting of numbers) -/
def roundEven (y : ℚ) : ℕ :=
  let f := ⌊y⌋.toNat
  let r := y - (f : ℚ)
  if r < 1 / 2 then f else if 1 / 2 < r then f + 1 else if f % 2 = 0 then f else f + 1

/-- the last `w` decimal digits of `n`, with leading zeros (Python, formatting of numbers) -/
def digitsW : ℕ → ℕ → Str
  | 0, _ => []
  | w + 1, n => digitsW w (n / 10) ++ [digitChar (n % 10)]

/-- a whole number with at least `w` digits (Python, formatting of numbers) -/
def padZeros (w n : ℕ) : Str := List.replicate (w - (natStr n).length) '0' ++ natStr n

/-- `p + 1` significant digits and the exponent of the first of them; zero has the exponent 0 (Python, formatting of numbers) -/
def sciParts (p : ℕ) (q : ℚ) : ℕ × ℤ :=
  if q = 0 then (0, 0)
  else
    let e := Int.log 10 |q|
    let m := roundEven (|q| / (10 : ℚ) ^ (e - p))
    if m = 10 ^ (p + 1) then (10 ^ p, e + 1) else (m, e)

/-- the sign of a number (Python, formatting of numbers) -/
def signStr (q : ℚ) : Str := if q < 0 then ['-'] else []

/-- `d.ddddE±xx` without the sign; `w` is the least number of digits of the exponent (Python, formatting of numbers) -/
def sciStr (c : Char) (w p m : ℕ) (e : ℤ) : Str :=
  digitChar (m / 10 ^ p) :: '.' :: (digitsW p m ++ c :: (if e < 0 then '-' else '+') :: padZeros w e.natAbs)

/-- `ddd.dddd` without the sign (Python, formatting of numbers) -/
def fixStr (d m : ℕ) : Str := natStr (m / 10 ^ d) ++ '.' :: digitsW d m

/-- `f"{q:.{p}E}"` (`c = 'E'`) or `f"{q:.{p}e}"` (`c = 'e'`) of a float, for `p > 0` (Python) -/
def fmtSci (c : Char) (p : ℕ) (q : ℚ) : Str :=
  signStr q ++ sciStr c 2 p (sciParts p q).1 (sciParts p q).2

/-- `"{:.{p}E}".format(Decimal(q))` for `p > 0`: the exponent is not padded, and that of a zero is `p` (Python) -/
def fmtDecimal (p : ℕ) (q : ℚ) : Str :=
  signStr q ++ sciStr 'E' 1 p (sciParts p q).1 (if q = 0 then (p : ℤ) else (sciParts p q).2)

/-- `f"{q:#.{p+1}g}"` of a float (Python) -/
def fmtGen (p : ℕ) (q : ℚ) : Str :=
  let (m, e) := sciParts p q
  signStr q ++ (if -4 ≤ e ∧ e ≤ p then fixStr (p - e).toNat m else sciStr 'e' 2 p m e)

/-- the exponent behind a mantissa: nothing, or `e`, a sign or none, and digits (Python, `float`) -/
def parseExp : Str → Option ℤ
  | [] => some 0
  | c :: t =>
    if c = 'e' ∨ c = 'E' then
      match t with
      | [] => none
      | s :: ds =>
        if s = '-' then (if ds ≠ [] ∧ ds.all isDigit then some (-(digitsVal ds : ℤ)) else none)
        else if s = '+' then (if ds ≠ [] ∧ ds.all isDigit then some (digitsVal ds : ℤ) else none)
        else if (s :: ds).all isDigit then some (digitsVal (s :: ds) : ℤ) else none
    else none

/-- digits with or without a point, then the exponent (Python, `float`) -/
def parseUnsigned (s : Str) : Option ℚ :=
  let a := s.takeWhile isDigit
  let r := s.dropWhile isDigit
  let (b, r') := match r with
    | '.' :: t => (t.takeWhile isDigit, t.dropWhile isDigit)
    | r => ([], r)
  if a = [] ∧ b = [] then none
  else
    match parseExp r' with
    | none => none
    | some k => some ((digitsVal (a ++ b) : ℚ) * (10 : ℚ) ^ (k - b.length))

/-- `float(s)`; `none` is the `ValueError` (Python) -/
def parseFloat (s : Str) : Option ℚ :=
  match strip s with
  | [] => none
  | c :: cs =>
    if c = '-' then (parseUnsigned cs).map (fun q => -q)
    else if c = '+' then parseUnsigned cs
    else parseUnsigned (c :: cs)

/-! ## Specification -/

/-- a number rounded to `p + 1` significant digits (specification) -/
def roundSig (p : ℕ) (q : ℚ) : ℚ :=
  (if q < 0 then -1 else 1) * ((sciParts p q).1 : ℚ) * (10 : ℚ) ^ ((sciParts p q).2 - p)

/-! ## Digits -/

theorem digitsVal_append (a b : Str) : digitsVal (a ++ b) = digitsVal a * 10 ^ b.length + digitsVal b := by
  unfold digitsVal
  rw [List.foldl_append]
  generalize a.foldl (fun a c => a * 10 + (c.toNat - 48)) 0 = x
  have : ∀ (b : Str) (x y : ℕ), b.foldl (fun a c => a * 10 + (c.toNat - 48)) (x + y) = x * 10 ^ b.length + b.foldl (fun a c => a * 10 + (c.toNat - 48)) y := by
    intro b
    induction b with
    | nil => intro x y; simp
    | cons c b ih =>
      intro x y
      simp only [List.foldl_cons, List.length_cons]
      rw [show (x + y) * 10 + (c.toNat - 48) = x * 10 + (y * 10 + (c.toNat - 48)) by ring, ih]
      ring
  simpa using this b x 0

theorem digitsW_length (w n : ℕ) : (digitsW w n).length = w := by
  induction w generalizing n with
  | zero => rfl
  | succ w ih => simp [digitsW, ih]

theorem digitsW_digit (w n : ℕ) : ∀ c ∈ digitsW w n, isDigit c = true := by
  induction w generalizing n with
  | zero => intro c hc; cases hc
  | succ w ih =>
    intro c hc
    simp only [digitsW, List.mem_append, List.mem_singleton] at hc
    rcases hc with hc | rfl
    · exact ih _ c hc
    · exact isDigit_digitChar (Nat.mod_lt _ (by norm_num))

theorem digitsVal_digitsW (w n : ℕ) : digitsVal (digitsW w n) = n % 10 ^ w := by
  induction w generalizing n with
  | zero => simp [digitsW, digitsVal, Nat.mod_one]
  | succ w ih =>
    have h1 : digitsVal [digitChar (n % 10)] = n % 10 := by
      simp [digitsVal, digitChar_toNat (Nat.mod_lt n (by norm_num : 0 < 10))]
    rw [digitsW, digitsVal_append, ih, h1, List.length_singleton, pow_one, pow_succ, mul_comm (10 ^ w) 10, Nat.mod_mul]
    ring

theorem padZeros_digit (w n : ℕ) : ∀ c ∈ padZeros w n, isDigit c = true := by
  intro c hc
  simp only [padZeros, List.mem_append, List.mem_replicate] at hc
  rcases hc with ⟨_, rfl⟩ | hc
  · decide
  · exact natStr_all_digit n c hc

theorem padZeros_ne (w n : ℕ) : padZeros w n ≠ [] := by
  simp [padZeros, natStr_ne_nil]

theorem digitsVal_zeros (k : ℕ) : digitsVal (List.replicate k '0') = 0 := by
  induction k with
  | zero => rfl
  | succ k ih => rw [List.replicate_succ', digitsVal_append, ih]; rfl

theorem digitsVal_padZeros (w n : ℕ) : digitsVal (padZeros w n) = n := by
  rw [padZeros, digitsVal_append, digitsVal_zeros, digitsVal_natStr]; simp

theorem natStrFuel_length {k : ℕ} : ∀ (f n : ℕ), n ≤ f → n < 10 ^ (k + 1) → (natStrFuel f n).length ≤ k + 1 := by
  induction k with
  | zero =>
    intro f n _ h
    cases f with
    | zero => simp [natStrFuel]
    | succ f => rw [natStrFuel, if_pos (by simpa using h)]; simp
  | succ k ih =>
    intro f n hf h
    cases f with
    | zero => simp [natStrFuel]
    | succ f =>
      rw [natStrFuel]
      split
      · simp
      · rw [List.length_append, List.length_singleton]
        have := ih f (n / 10) (by omega) (by rw [pow_succ] at h; omega)
        omega

theorem natStr_length {k n : ℕ} (h : n < 10 ^ (k + 1)) : (natStr n).length ≤ k + 1 := natStrFuel_length n n le_rfl h

theorem padZeros_length {w k n : ℕ} (hw : w ≤ k + 1) (h : n < 10 ^ (k + 1)) : (padZeros w n).length ≤ k + 1 := by
  have := natStr_length h
  simp only [padZeros, List.length_append, List.length_replicate]
  omega

/-! ## Reading -/

theorem takeWhile_digits {a t : Str} (ha : ∀ c ∈ a, isDigit c = true) (ht : ∀ c u, t = c :: u → isDigit c = false) :
    (a ++ t).takeWhile isDigit = a ∧ (a ++ t).dropWhile isDigit = t := by
  induction a with
  | nil =>
    cases t with
    | nil => exact ⟨rfl, rfl⟩
    | cons c u => simp [ht c u rfl]
  | cons c a ih =>
    have := ih (fun d hd => ha d (List.mem_cons_of_mem _ hd))
    simp [ha c (by simp), this]

/-- what `float` does with digits, a point, digits and an exponent -/
theorem parseUnsigned_point {a b t : Str} {k : ℤ} (ha : ∀ c ∈ a, isDigit c = true) (hb : ∀ c ∈ b, isDigit c = true)
    (hne : a ≠ [] ∨ b ≠ []) (ht : ∀ c u, t = c :: u → isDigit c = false) (hk : parseExp t = some k) :
    parseUnsigned (a ++ '.' :: (b ++ t)) = some ((digitsVal (a ++ b) : ℚ) * (10 : ℚ) ^ (k - b.length)) := by
  have h1 := takeWhile_digits (t := '.' :: (b ++ t)) ha (by intro c u h; cases h; decide)
  have h2 := takeWhile_digits hb ht
  unfold parseUnsigned
  rw [h1.1, h1.2]
  simp only [h2.1, h2.2, hk]
  rw [if_neg (by rintro ⟨x, y⟩; rcases hne with h | h <;> contradiction)]

/-- no number without a digit before the exponent -/
theorem parseUnsigned_none {t : Str} (ht : ∀ c u, t = c :: u → isDigit c = false) :
    parseUnsigned ('.' :: t) = none ∧ ((∀ u, t ≠ '.' :: u) → parseUnsigned t = none) := by
  have h1 := takeWhile_digits (a := []) (t := t) (by simp) ht
  constructor
  · have h0 := takeWhile_digits (a := []) (t := '.' :: t) (by simp) (by intro c u h; cases h; decide)
    simp only [List.nil_append] at h0 h1
    unfold parseUnsigned
    rw [h0.1, h0.2]
    simp only [h1.1]
    simp
  · intro hd
    simp only [List.nil_append] at h1
    unfold parseUnsigned
    rw [h1.1, h1.2]
    simp only
    simp

theorem parseExp_sci {c : Char} (hc : c = 'e' ∨ c = 'E') (w : ℕ) (e : ℤ) :
    parseExp (c :: (if e < 0 then '-' else '+') :: padZeros w e.natAbs) = some e := by
  have hall : (padZeros w e.natAbs).all isDigit = true := List.all_eq_true.mpr (padZeros_digit w _)
  rw [parseExp, if_pos hc]
  by_cases he : e < 0
  · simp only [he, if_true, hall, padZeros_ne, ne_eq, not_false_iff, and_self, digitsVal_padZeros]
    congr 1; omega
  · simp only [he, if_false, show ('+' : Char) ≠ '-' by decide, if_true, hall, padZeros_ne, ne_eq, not_false_iff, and_self, digitsVal_padZeros]
    congr 1; omega

theorem digitsVal_one {d : ℕ} (h : d < 10) : digitsVal [digitChar d] = d := by
  simp [digitsVal, digitChar_toNat h]

theorem parse_sciStr {c : Char} (hc : c = 'e' ∨ c = 'E') {w p m : ℕ} {e : ℤ} (hm : m < 10 ^ (p + 1)) :
    parseUnsigned (sciStr c w p m e) = some ((m : ℚ) * (10 : ℚ) ^ (e - p)) := by
  have hd : m / 10 ^ p < 10 := by
    rw [Nat.div_lt_iff_lt_mul (by positivity)]; rw [pow_succ] at hm; linarith
  have hlead : isDigit (digitChar (m / 10 ^ p)) = true := isDigit_digitChar hd
  have := parseUnsigned_point (a := [digitChar (m / 10 ^ p)]) (b := digitsW p m)
    (t := c :: (if e < 0 then '-' else '+') :: padZeros w e.natAbs) (k := e)
    (by intro x hx; simp only [List.mem_singleton] at hx; rw [hx]; exact hlead)
    (digitsW_digit p m) (by simp)
    (by intro x u h; cases h; rcases hc with rfl | rfl <;> decide)
    (parseExp_sci hc w e)
  rw [digitsVal_append, digitsVal_one hd, digitsVal_digitsW, digitsW_length, Nat.div_add_mod'] at this
  exact this

theorem parse_fixStr (d m : ℕ) : parseUnsigned (fixStr d m) = some ((m : ℚ) * (10 : ℚ) ^ (-(d : ℤ))) := by
  have := parseUnsigned_point (a := natStr (m / 10 ^ d)) (b := digitsW d m) (t := []) (k := 0)
    (natStr_all_digit _) (digitsW_digit d m) (Or.inl (natStr_ne_nil _)) (by intro c u h; cases h) rfl
  rw [digitsVal_append, digitsVal_natStr, digitsVal_digitsW, digitsW_length, Nat.div_add_mod', List.append_nil] at this
  simpa [fixStr] using this

/-! ## The texts are words -/

/-- the characters of a number -/
def isNumChar (c : Char) : Bool := isDigit c || c == '.' || c == '-' || c == '+' || c == 'e' || c == 'E'

theorem isSpace_numChar {c : Char} (h : isNumChar c = true) : isSpace c = false := by
  simp only [isNumChar, Bool.or_eq_true, beq_iff_eq] at h
  rcases h with ((((h | rfl) | rfl) | rfl) | rfl) | rfl
  · exact isSpace_of_isDigit h
  all_goals decide

theorem numChar_digit {c : Char} (h : isDigit c = true) : isNumChar c = true := by simp [isNumChar, h]

theorem sciStr_chars {c : Char} (hc : c = 'e' ∨ c = 'E') {w p m : ℕ} {e : ℤ} (hm : m < 10 ^ (p + 1)) :
    ∀ x ∈ sciStr c w p m e, isNumChar x = true := by
  have hd : m / 10 ^ p < 10 := by
    rw [Nat.div_lt_iff_lt_mul (by positivity)]; rw [pow_succ] at hm; linarith
  intro x hx
  simp only [sciStr, List.mem_cons, List.mem_append] at hx
  rcases hx with rfl | rfl | hx | rfl | rfl | hx
  · exact numChar_digit (isDigit_digitChar hd)
  · decide
  · exact numChar_digit (digitsW_digit _ _ _ hx)
  · rcases hc with rfl | rfl <;> decide
  · split <;> decide
  · exact numChar_digit (padZeros_digit _ _ _ hx)

theorem fixStr_chars (d m : ℕ) : ∀ x ∈ fixStr d m, isNumChar x = true := by
  intro x hx
  simp only [fixStr, List.mem_cons, List.mem_append] at hx
  rcases hx with hx | rfl | hx
  · exact numChar_digit (natStr_all_digit _ _ hx)
  · decide
  · exact numChar_digit (digitsW_digit _ _ _ hx)

theorem strip_isWord {w : Str} (h : ∀ c ∈ w, isSpace c = false) : strip w = w := by
  by_cases hw : w = []
  · subst hw; rfl
  · exact strip_word ⟨hw, h⟩

theorem parseFloat_signed {q v : ℚ} {s : Str} (hs : ∀ c ∈ s, isNumChar c = true) (hh : ∀ c t, s = c :: t → isDigit c = true)
    (hp : parseUnsigned s = some v) (hne : s ≠ []) :
    parseFloat (signStr q ++ s) = some ((if q < 0 then -1 else 1) * v) := by
  have hst : strip (signStr q ++ s) = signStr q ++ s := by
    apply strip_isWord
    intro c hc
    rcases List.mem_append.mp hc with hc | hc
    · simp only [signStr] at hc
      split at hc
      · simp only [List.mem_singleton] at hc; subst hc; decide
      · cases hc
    · exact isSpace_numChar (hs c hc)
  unfold parseFloat
  rw [hst]
  by_cases hq : q < 0
  · simp only [signStr, hq, if_true, List.cons_append, List.nil_append, hp, Option.map_some, neg_mul, one_mul]
  · match s, hne, hh, hp with
    | c :: t, _, hh, hp =>
      have hc := hh c t rfl
      have h1 : c ≠ '-' := by rintro rfl; revert hc; decide
      have h2 : c ≠ '+' := by rintro rfl; revert hc; decide
      simp only [signStr, hq, if_false, List.nil_append, h1, h2, hp, one_mul]

theorem sciStr_head {c : Char} {w p m : ℕ} {e : ℤ} (hm : m < 10 ^ (p + 1)) :
    ∀ x t, sciStr c w p m e = x :: t → isDigit x = true := by
  have hd : m / 10 ^ p < 10 := by
    rw [Nat.div_lt_iff_lt_mul (by positivity)]; rw [pow_succ] at hm; linarith
  intro x t h
  simp only [sciStr, List.cons.injEq] at h
  rw [← h.1]
  exact isDigit_digitChar hd

theorem fixStr_head (d m : ℕ) : ∀ x t, fixStr d m = x :: t → isDigit x = true := by
  intro x t h
  cases hn : natStr (m / 10 ^ d) with
  | nil => exact absurd hn (natStr_ne_nil _)
  | cons y u =>
    simp only [fixStr, hn, List.cons_append, List.cons.injEq] at h
    rw [← h.1]
    exact natStr_all_digit _ y (by rw [hn]; simp)

/-! ## Rounding -/

theorem roundEven_near {y : ℚ} (hy : 0 ≤ y) : |(roundEven y : ℚ) - y| ≤ 1 / 2 := by
  have hf : ((⌊y⌋.toNat : ℕ) : ℚ) = (⌊y⌋ : ℚ) := by
    have := Int.toNat_of_nonneg (Int.floor_nonneg.mpr hy)
    exact_mod_cast this
  have h1 := Int.floor_le y
  have h2 := Int.lt_floor_add_one y
  unfold roundEven
  simp only
  rw [abs_le]
  split
  · constructor <;> linarith
  · split
    · push_cast; constructor <;> linarith
    · split
      · constructor <;> linarith
      · push_cast; constructor <;> linarith

theorem roundEven_nat (n : ℕ) : roundEven (n : ℚ) = n := by
  simp [roundEven]

theorem roundEven_mono {x y : ℚ} (hx : 0 ≤ x) (h : x ≤ y) : roundEven x ≤ roundEven y := by
  have hy : 0 ≤ y := hx.trans h
  have fl : ∀ z : ℚ, 0 ≤ z → ((⌊z⌋.toNat : ℕ) : ℚ) = (⌊z⌋ : ℚ) := by
    intro z hz
    have := Int.toNat_of_nonneg (Int.floor_nonneg.mpr hz)
    exact_mod_cast this
  have hle : ⌊x⌋.toNat ≤ ⌊y⌋.toNat := Int.toNat_le_toNat (Int.floor_mono h)
  have up : ∀ z : ℚ, roundEven z ≤ ⌊z⌋.toNat + 1 := by
    intro z; unfold roundEven; simp only; split_ifs <;> omega
  have lo : ∀ z : ℚ, ⌊z⌋.toNat ≤ roundEven z := by
    intro z; unfold roundEven; simp only; split_ifs <;> omega
  rcases Nat.lt_or_ge ⌊x⌋.toNat ⌊y⌋.toNat with hlt | hge
  · exact (up x).trans ((Nat.succ_le_of_lt hlt).trans (lo y))
  · have he : ⌊x⌋.toNat = ⌊y⌋.toNat := le_antisymm hle hge
    unfold roundEven
    simp only [he]
    split_ifs <;> first | omega | (exfalso; linarith)

theorem ten_zpow_pos (e : ℤ) : (0 : ℚ) < (10 : ℚ) ^ e := zpow_pos (by norm_num) e

theorem scaled_bounds (p : ℕ) {q : ℚ} (hq : q ≠ 0) :
    (10 : ℚ) ^ p ≤ |q| / (10 : ℚ) ^ (Int.log 10 |q| - p) ∧ |q| / (10 : ℚ) ^ (Int.log 10 |q| - p) < (10 : ℚ) ^ (p + 1) := by
  have hpos : 0 < |q| := abs_pos.mpr hq
  have h1 := Int.zpow_log_le_self (R := ℚ) (b := 10) (by norm_num) hpos
  have h2 := Int.lt_zpow_succ_log_self (R := ℚ) (b := 10) (by norm_num) |q|
  have hp := ten_zpow_pos (Int.log 10 |q| - p)
  push_cast at h1 h2
  constructor
  · rw [le_div_iff₀ hp, ← zpow_natCast, ← zpow_add₀ (by norm_num)]
    convert h1 using 2; ring
  · rw [div_lt_iff₀ hp, ← zpow_natCast, ← zpow_add₀ (by norm_num)]
    convert h2 using 2; push_cast; ring

theorem round_bounds (p : ℕ) {q : ℚ} (hq : q ≠ 0) :
    10 ^ p ≤ roundEven (|q| / (10 : ℚ) ^ (Int.log 10 |q| - p)) ∧
      roundEven (|q| / (10 : ℚ) ^ (Int.log 10 |q| - p)) ≤ 10 ^ (p + 1) := by
  obtain ⟨h1, h2⟩ := scaled_bounds p hq
  have a := roundEven_mono (x := ((10 ^ p : ℕ) : ℚ)) (by positivity) (by push_cast; exact h1)
  have b := roundEven_mono (x := |q| / (10 : ℚ) ^ (Int.log 10 |q| - p)) (y := ((10 ^ (p + 1) : ℕ) : ℚ))
    (div_nonneg (abs_nonneg q) (ten_zpow_pos _).le) (by push_cast; exact h2.le)
  rw [roundEven_nat] at a b
  exact ⟨a, b⟩

theorem sciParts_digits (p : ℕ) (q : ℚ) : (sciParts p q).1 < 10 ^ (p + 1) ∧ (q ≠ 0 → 10 ^ p ≤ (sciParts p q).1) := by
  unfold sciParts
  by_cases hq : q = 0
  · simp [hq]
  · obtain ⟨h1, h2⟩ := round_bounds p hq
    simp only [hq, if_false]
    have : 10 ^ p < 10 ^ (p + 1) := Nat.pow_lt_pow_right (by norm_num) (by omega)
    split
    · exact ⟨this, fun _ => le_rfl⟩
    · rename_i hne
      exact ⟨lt_of_le_of_ne h2 hne, fun _ => h1⟩

/-- the absolute value of the rounded number, before and after the carry -/
theorem sciParts_val (p : ℕ) {q : ℚ} (hq : q ≠ 0) :
    ((sciParts p q).1 : ℚ) * (10 : ℚ) ^ ((sciParts p q).2 - p) =
      (roundEven (|q| / (10 : ℚ) ^ (Int.log 10 |q| - p)) : ℚ) * (10 : ℚ) ^ (Int.log 10 |q| - p) := by
  unfold sciParts
  simp only [hq, if_false]
  split
  · rename_i h
    rw [h]
    push_cast
    rw [pow_succ, mul_assoc]
    congr 1
    rw [show Int.log 10 |q| + 1 - (p : ℤ) = 1 + (Int.log 10 |q| - p) by ring, zpow_add₀ (by norm_num), zpow_one]
  · rfl

theorem abs_roundSig (p : ℕ) (q : ℚ) : |roundSig p q| = ((sciParts p q).1 : ℚ) * (10 : ℚ) ^ ((sciParts p q).2 - p) := by
  unfold roundSig
  have := ten_zpow_pos ((sciParts p q).2 - p)
  rw [abs_mul, abs_mul, abs_of_pos this, Nat.abs_cast]
  split <;> simp

/-- the rounded number is within half a unit of the last of the digits shown -/
theorem roundSig_near (p : ℕ) (q : ℚ) : |roundSig p q - q| ≤ |q| / (2 * 10 ^ p) := by
  by_cases hq : q = 0
  · subst hq; simp [roundSig, sciParts]
  · have hpos : 0 < |q| := abs_pos.mpr hq
    have hu := ten_zpow_pos (Int.log 10 |q| - p)
    set u := (10 : ℚ) ^ (Int.log 10 |q| - p) with hudef
    have h1 := (scaled_bounds p hq).1
    have hn := roundEven_near (y := |q| / u) (by positivity)
    have key : |roundSig p q - q| = abs ((roundEven (|q| / u) : ℚ) * u - |q|) := by
      unfold roundSig
      rw [mul_assoc, sciParts_val p hq]
      rw [← hudef]
      generalize (roundEven (|q| / u) : ℚ) * u = v
      rcases lt_or_gt_of_ne hq with h | h
      · rw [if_pos h, abs_of_neg h, show -1 * v - q = -(v - -q) by ring, abs_neg]
      · rw [if_neg (not_lt.mpr h.le), abs_of_pos h, one_mul]
    rw [key, show (roundEven (|q| / u) : ℚ) * u - |q| = ((roundEven (|q| / u) : ℚ) - |q| / u) * u by field_simp, abs_mul, abs_of_pos hu]
    have h3 : u ≤ |q| / 10 ^ p := by
      rw [le_div_iff₀ (by positivity)]
      rw [le_div_iff₀ hu] at h1
      linarith
    calc abs ((roundEven (|q| / u) : ℚ) - |q| / u) * u ≤ 1 / 2 * u := mul_le_mul_of_nonneg_right hn hu.le
      _ ≤ 1 / 2 * (|q| / 10 ^ p) := by linarith
      _ = |q| / (2 * 10 ^ p) := by field_simp

theorem roundSig_zero (p : ℕ) : roundSig p 0 = 0 := by simp [roundSig, sciParts]

/-- a number of at most `p + 1` digits -/
theorem sciParts_exact (p : ℕ) {m : ℕ} {e : ℤ} (h1 : 10 ^ p ≤ m) (h2 : m < 10 ^ (p + 1)) {q : ℚ}
    (hq : |q| = (m : ℚ) * (10 : ℚ) ^ (e - p)) : sciParts p q = (m, e) := by
  have hu := ten_zpow_pos (e - p)
  have hm : (0 : ℚ) < m := by
    have : 0 < m := lt_of_lt_of_le (by positivity) h1
    exact_mod_cast this
  have hq0 : q ≠ 0 := by
    intro h
    rw [h, abs_zero] at hq
    have := mul_pos hm hu
    linarith
  have m1 : (10 : ℚ) ^ p ≤ m := by exact_mod_cast h1
  have m2 : (m : ℚ) < (10 : ℚ) ^ (p + 1) := by exact_mod_cast h2
  have hlog : Int.log 10 |q| = e := by
    have hpos : 0 < |q| := abs_pos.mpr hq0
    apply le_antisymm
    · apply Int.lt_add_one_iff.mp
      rw [← Int.lt_zpow_iff_log_lt (R := ℚ) (b := 10) (by norm_num) hpos, hq]
      push_cast
      calc (m : ℚ) * (10 : ℚ) ^ (e - p) < (10 : ℚ) ^ (p + 1) * (10 : ℚ) ^ (e - p) := mul_lt_mul_of_pos_right m2 hu
        _ = (10 : ℚ) ^ (e + 1) := by
          rw [← zpow_natCast, ← zpow_add₀ (by norm_num)]; congr 1; push_cast; ring
    · rw [← Int.zpow_le_iff_le_log (R := ℚ) (b := 10) (by norm_num) hpos, hq]
      push_cast
      calc (10 : ℚ) ^ e = (10 : ℚ) ^ p * (10 : ℚ) ^ (e - p) := by
            rw [← zpow_natCast, ← zpow_add₀ (by norm_num)]; congr 1; ring
        _ ≤ (m : ℚ) * (10 : ℚ) ^ (e - p) := mul_le_mul_of_nonneg_right m1 hu.le
  have hdiv : |q| / (10 : ℚ) ^ (e - p) = (m : ℚ) := by rw [hq]; field_simp
  unfold sciParts
  simp only [hq0, if_false, hlog, hdiv, roundEven_nat]
  rw [if_neg (ne_of_lt h2)]

theorem roundSig_sign (p : ℕ) {q : ℚ} (hq : q ≠ 0) : (roundSig p q < 0 ↔ q < 0) ∧ roundSig p q ≠ 0 := by
  have hm : (0 : ℚ) < (sciParts p q).1 := by
    have : 0 < (sciParts p q).1 := lt_of_lt_of_le (by positivity) ((sciParts_digits p q).2 hq)
    exact_mod_cast this
  have hu := mul_pos hm (ten_zpow_pos ((sciParts p q).2 - p))
  unfold roundSig
  rw [mul_assoc]
  by_cases h : q < 0
  · simp only [h, if_true, iff_true]
    constructor <;> linarith
  · simp only [h, if_false, iff_false, one_mul]
    constructor <;> linarith

/-- rounding what was rounded changes nothing: same digits, same exponent -/
theorem sciParts_roundSig (p : ℕ) (q : ℚ) : sciParts p (roundSig p q) = sciParts p q := by
  by_cases hq : q = 0
  · rw [hq, roundSig_zero]
  · obtain ⟨h1, h2⟩ := sciParts_digits p q
    exact sciParts_exact p (h2 hq) h1 (abs_roundSig p q)

theorem roundSig_idem (p : ℕ) (q : ℚ) : roundSig p (roundSig p q) = roundSig p q := by
  by_cases hq : q = 0
  · rw [hq, roundSig_zero, roundSig_zero]
  · have hs := (roundSig_sign p hq).1
    have : ∀ r, roundSig p r = (if r < 0 then -1 else 1) * ((sciParts p r).1 : ℚ) * (10 : ℚ) ^ ((sciParts p r).2 - p) := fun _ => rfl
    rw [this (roundSig p q), sciParts_roundSig]
    simp only [hs]
    rfl

theorem signStr_roundSig (p : ℕ) (q : ℚ) : signStr (roundSig p q) = signStr q := by
  by_cases hq : q = 0
  · rw [hq, roundSig_zero]
  · simp only [signStr, (roundSig_sign p hq).1]

/-- a number with at most `p + 1` significant digits is not changed -/
theorem roundSig_exact (p : ℕ) {q : ℚ} {m : ℕ} {k : ℤ} (hm : m < 10 ^ (p + 1)) (hq : |q| = (m : ℚ) * (10 : ℚ) ^ k) :
    roundSig p q = q := by
  by_cases h0 : q = 0
  · rw [h0, roundSig_zero]
  · have hm0 : 0 < m := by
      rcases Nat.eq_zero_or_pos m with h | h
      · exfalso; rw [h] at hq; simp at hq; exact h0 hq
      · exact h
    -- scale `m` up to `p + 1` digits
    have : ∃ j : ℕ, 10 ^ p ≤ m * 10 ^ j ∧ m * 10 ^ j < 10 ^ (p + 1) := by
      refine ⟨p - Nat.log 10 m, ?_, ?_⟩
      all_goals
        have l1 := Nat.pow_log_le_self 10 (Nat.pos_iff_ne_zero.mp hm0)
        have l2 := Nat.lt_pow_succ_log_self (b := 10) (by norm_num) m
        have l3 : Nat.log 10 m ≤ p := by
          have := (Nat.pow_lt_pow_iff_right (a := 10) (by norm_num)).mp (lt_of_le_of_lt l1 hm)
          omega
      · calc 10 ^ p = 10 ^ Nat.log 10 m * 10 ^ (p - Nat.log 10 m) := by rw [← pow_add]; congr 1; omega
          _ ≤ m * 10 ^ (p - Nat.log 10 m) := Nat.mul_le_mul_right _ l1
      · calc m * 10 ^ (p - Nat.log 10 m) < 10 ^ (Nat.log 10 m).succ * 10 ^ (p - Nat.log 10 m) :=
              Nat.mul_lt_mul_of_pos_right l2 (by positivity)
          _ = 10 ^ (p + 1) := by rw [← pow_add]; congr 1; omega
    obtain ⟨j, j1, j2⟩ := this
    have hval : |q| = ((m * 10 ^ j : ℕ) : ℚ) * (10 : ℚ) ^ ((k - j + p) - p) := by
      rw [hq]
      push_cast
      rw [mul_assoc, ← zpow_natCast (10 : ℚ) j, ← zpow_add₀ (by norm_num)]
      congr 2; ring
    have hp := sciParts_exact p j1 j2 hval
    unfold roundSig
    rw [hp, mul_assoc, ← hval]
    rcases lt_or_gt_of_ne h0 with h | h
    · rw [if_pos h, abs_of_neg h]; ring
    · rw [if_neg (not_lt.mpr h.le), abs_of_pos h]; ring

theorem roundSig_int (p : ℕ) {n : ℤ} (h : n.natAbs < 10 ^ (p + 1)) : roundSig p n = n := by
  apply roundSig_exact p (m := n.natAbs) (k := 0) h
  rw [zpow_zero, mul_one, ← Int.cast_abs, Int.abs_eq_natAbs]
  simp

theorem roundSig_neg (p : ℕ) (q : ℚ) : roundSig p (-q) = -roundSig p q := by
  by_cases hq : q = 0
  · rw [hq, neg_zero, roundSig_zero, neg_zero]
  · have : sciParts p (-q) = sciParts p q := by simp [sciParts]
    unfold roundSig
    rw [this]
    rcases lt_or_gt_of_ne hq with h | h
    · rw [if_pos h, if_neg (by linarith)]; ring
    · rw [if_neg (not_lt.mpr h.le), if_pos (by linarith)]; ring

theorem roundSig_pos_val (p : ℕ) {q : ℚ} (hq : 0 < q) :
    roundSig p q = (roundEven (q / (10 : ℚ) ^ (Int.log 10 q - p)) : ℚ) * (10 : ℚ) ^ (Int.log 10 q - p) := by
  unfold roundSig
  rw [if_neg (not_lt.mpr hq.le), one_mul, sciParts_val p hq.ne', abs_of_pos hq]

theorem roundSig_mono_pos (p : ℕ) {x y : ℚ} (hx : 0 < x) (h : x ≤ y) : roundSig p x ≤ roundSig p y := by
  have hy : 0 < y := lt_of_lt_of_le hx h
  rw [roundSig_pos_val p hx, roundSig_pos_val p hy]
  have hlog : Int.log 10 x ≤ Int.log 10 y := Int.log_mono_right hx h
  rcases eq_or_lt_of_le hlog with he | hlt
  · rw [he]
    have hu := ten_zpow_pos (Int.log 10 y - p)
    apply mul_le_mul_of_nonneg_right _ hu.le
    exact_mod_cast roundEven_mono (by positivity) (div_le_div_of_nonneg_right h hu.le)
  · have b1 := (round_bounds p hx.ne').2
    have b2 := (round_bounds p hy.ne').1
    rw [abs_of_pos hx] at b1
    rw [abs_of_pos hy] at b2
    have ux := ten_zpow_pos (Int.log 10 x - p)
    have uy := ten_zpow_pos (Int.log 10 y - p)
    calc (roundEven (x / (10 : ℚ) ^ (Int.log 10 x - p)) : ℚ) * (10 : ℚ) ^ (Int.log 10 x - p)
        ≤ (10 : ℚ) ^ (p + 1) * (10 : ℚ) ^ (Int.log 10 x - p) := by
          apply mul_le_mul_of_nonneg_right _ ux.le; exact_mod_cast b1
      _ = (10 : ℚ) ^ (Int.log 10 x + 1) := by
          rw [← zpow_natCast, ← zpow_add₀ (by norm_num)]; congr 1; push_cast; ring
      _ ≤ (10 : ℚ) ^ (Int.log 10 y) := zpow_le_zpow_right₀ (by norm_num) (by omega)
      _ = (10 : ℚ) ^ p * (10 : ℚ) ^ (Int.log 10 y - p) := by
          rw [← zpow_natCast, ← zpow_add₀ (by norm_num)]; congr 1; ring
      _ ≤ _ := by apply mul_le_mul_of_nonneg_right _ uy.le; exact_mod_cast b2

/-- rounding keeps the order -/
theorem roundSig_mono (p : ℕ) {x y : ℚ} (h : x ≤ y) : roundSig p x ≤ roundSig p y := by
  have pos : ∀ z : ℚ, 0 ≤ z → 0 ≤ roundSig p z := by
    intro z hz
    rcases eq_or_lt_of_le hz with rfl | hz
    · rw [roundSig_zero]
    · rw [roundSig_pos_val p hz]; positivity
  rcases lt_trichotomy x 0 with hx | rfl | hx
  · rcases lt_trichotomy y 0 with hy | rfl | hy
    · have := roundSig_mono_pos p (x := -y) (y := -x) (by linarith) (by linarith)
      rw [roundSig_neg, roundSig_neg] at this
      linarith
    · have := pos (-x) (by linarith)
      rw [roundSig_neg] at this
      rw [roundSig_zero]; linarith
    · have h1 := pos (-x) (by linarith)
      rw [roundSig_neg] at h1
      have h2 := pos y hy.le
      linarith
  · rw [roundSig_zero]; exact pos y h
  · exact roundSig_mono_pos p hx h

/-! ## Writing and reading back -/

theorem fmtSci_read {c : Char} (hc : c = 'e' ∨ c = 'E') (p : ℕ) (q : ℚ) : parseFloat (fmtSci c p q) = some (roundSig p q) := by
  obtain ⟨hm, _⟩ := sciParts_digits p q
  unfold fmtSci
  rw [parseFloat_signed (sciStr_chars hc hm) (sciStr_head hm) (parse_sciStr hc hm) (by simp [sciStr])]
  rw [roundSig, mul_assoc]

theorem fmtDecimal_read (p : ℕ) (q : ℚ) : parseFloat (fmtDecimal p q) = some (roundSig p q) := by
  obtain ⟨hm, _⟩ := sciParts_digits p q
  unfold fmtDecimal
  rw [parseFloat_signed (sciStr_chars (Or.inr rfl) hm) (sciStr_head hm) (parse_sciStr (Or.inr rfl) hm) (by simp [sciStr])]
  by_cases hq : q = 0
  · subst hq; simp [roundSig, sciParts]
  · rw [if_neg hq, roundSig, mul_assoc]

theorem fmtGen_read (p : ℕ) (q : ℚ) : parseFloat (fmtGen p q) = some (roundSig p q) := by
  obtain ⟨hm, _⟩ := sciParts_digits p q
  unfold fmtGen
  simp only
  split
  · rename_i h
    rw [parseFloat_signed (fixStr_chars _ _) (fixStr_head _ _) (parse_fixStr _ _) (by simp [fixStr])]
    rw [roundSig, mul_assoc, Int.toNat_of_nonneg (by omega)]
    congr 4; ring
  · rw [parseFloat_signed (sciStr_chars (Or.inl rfl) hm) (sciStr_head hm) (parse_sciStr (Or.inl rfl) hm) (by simp [sciStr])]
    rw [roundSig, mul_assoc]

theorem signed_chars {q : ℚ} {s : Str} (hs : ∀ c ∈ s, isNumChar c = true) : ∀ c ∈ signStr q ++ s, isNumChar c = true := by
  intro c hc
  rcases List.mem_append.mp hc with hc | hc
  · simp only [signStr] at hc
    split at hc
    · simp only [List.mem_singleton] at hc; subst hc; decide
    · cases hc
  · exact hs c hc

theorem fmtSci_chars {c : Char} (hc : c = 'e' ∨ c = 'E') (p : ℕ) (q : ℚ) : ∀ x ∈ fmtSci c p q, isNumChar x = true :=
  signed_chars (sciStr_chars hc (sciParts_digits p q).1)

theorem fmtDecimal_chars (p : ℕ) (q : ℚ) : ∀ x ∈ fmtDecimal p q, isNumChar x = true :=
  signed_chars (sciStr_chars (Or.inr rfl) (sciParts_digits p q).1)

theorem fmtGen_chars (p : ℕ) (q : ℚ) : ∀ x ∈ fmtGen p q, isNumChar x = true := by
  unfold fmtGen
  simp only
  split
  · exact signed_chars (fixStr_chars _ _)
  · exact signed_chars (sciStr_chars (Or.inl rfl) (sciParts_digits p q).1)

theorem word_of_chars {s : Str} (hne : s ≠ []) (h : ∀ x ∈ s, isNumChar x = true) : IsWord s :=
  ⟨hne, fun c hc => isSpace_numChar (h c hc)⟩

theorem fmtSci_word {c : Char} (hc : c = 'e' ∨ c = 'E') (p : ℕ) (q : ℚ) : IsWord (fmtSci c p q) :=
  word_of_chars (by simp [fmtSci, sciStr]) (fmtSci_chars hc p q)

theorem fmtDecimal_word (p : ℕ) (q : ℚ) : IsWord (fmtDecimal p q) :=
  word_of_chars (by simp [fmtDecimal, sciStr]) (fmtDecimal_chars p q)

theorem fmtGen_word (p : ℕ) (q : ℚ) : IsWord (fmtGen p q) := by
  apply word_of_chars _ (fmtGen_chars p q)
  unfold fmtGen
  simp only
  split <;> simp [fixStr, sciStr]

/-- numbers of the size of a double, with a wide margin (specification) -/
def InRange (q : ℚ) : Prop := q = 0 ∨ ((10 : ℚ) ^ (-998 : ℤ) ≤ |q| ∧ |q| < (10 : ℚ) ^ (998 : ℤ))

theorem exponent_range (p : ℕ) {q : ℚ} (h : InRange q) : (sciParts p q).2.natAbs < 10 ^ (2 + 1) := by
  rcases h with rfl | ⟨h1, h2⟩
  · simp [sciParts]
  · have hpos : 0 < |q| := lt_of_lt_of_le (ten_zpow_pos _) h1
    have hq : q ≠ 0 := abs_pos.mp hpos
    have a := (Int.zpow_le_iff_le_log (R := ℚ) (b := 10) (x := -998) (by norm_num) hpos).mp (by exact_mod_cast h1)
    have b := (Int.lt_zpow_iff_log_lt (R := ℚ) (b := 10) (x := 998) (by norm_num) hpos).mp (by exact_mod_cast h2)
    unfold sciParts
    simp only [hq, if_false]
    split
    · simp only; omega
    · simp only; omega

theorem sciStr_length {c : Char} {p m : ℕ} {e : ℤ} (he : e.natAbs < 10 ^ (2 + 1)) : (sciStr c 2 p m e).length ≤ p + 7 := by
  have := padZeros_length (w := 2) (k := 2) (by norm_num) he
  simp only [sciStr, List.length_cons, List.length_append, digitsW_length]
  omega

theorem signStr_length (q : ℚ) : (signStr q).length ≤ 1 := by unfold signStr; split <;> simp

theorem fmtSci_length {c : Char} {p : ℕ} {q : ℚ} (h : InRange q) : (fmtSci c p q).length ≤ p + 8 := by
  have h1 := sciStr_length (c := c) (p := p) (m := (sciParts p q).1) (exponent_range p h)
  have h2 := signStr_length q
  simp only [fmtSci, List.length_append]
  omega

theorem fmtGen_length {p : ℕ} {q : ℚ} (h : InRange q) : (fmtGen p q).length ≤ p + 8 := by
  have hm := (sciParts_digits p q).1
  have h2 := signStr_length q
  unfold fmtGen
  simp only
  split
  · rename_i he
    generalize hd : ((p : ℤ) - (sciParts p q).2).toNat = d
    have hint : (natStr ((sciParts p q).1 / 10 ^ d)).length + d ≤ p + 5 := by
      rcases Nat.lt_or_ge p d with hlt | hge
      · have : (sciParts p q).1 / 10 ^ d = 0 :=
          Nat.div_eq_of_lt (lt_of_lt_of_le hm (Nat.pow_le_pow_right (by norm_num) hlt))
        rw [this]
        have : (natStr 0).length = 1 := rfl
        omega
      · have : (sciParts p q).1 / 10 ^ d < 10 ^ ((p - d) + 1) := by
          rw [Nat.div_lt_iff_lt_mul (by positivity), ← pow_add]
          rwa [show p - d + 1 + d = p + 1 by omega]
        have := natStr_length this
        omega
    simp only [List.length_append, fixStr, List.length_cons, digitsW_length]
    omega
  · have h1 := sciStr_length (c := 'e') (p := p) (m := (sciParts p q).1) (exponent_range p h)
    simp only [List.length_append]
    omega

/-- what was written is reproduced when the number read is written again -/
theorem fmtSci_again (c : Char) (p : ℕ) (q : ℚ) : fmtSci c p (roundSig p q) = fmtSci c p q := by
  simp only [fmtSci, signStr_roundSig, sciParts_roundSig]

theorem fmtGen_again (p : ℕ) (q : ℚ) : fmtGen p (roundSig p q) = fmtGen p q := by
  simp only [fmtGen, signStr_roundSig, sciParts_roundSig]

theorem fmtDecimal_again (p : ℕ) (q : ℚ) : fmtDecimal p (roundSig p q) = fmtDecimal p q := by
  have : (roundSig p q = 0) = (q = 0) := by
    apply propext
    constructor
    · intro h; by_contra hq; exact (roundSig_sign p hq).2 h
    · rintro rfl; exact roundSig_zero p
  simp only [fmtDecimal, signStr_roundSig, sciParts_roundSig, this]

/-- halves go to the even number -/
theorem roundEven_tie (n : ℕ) : roundEven ((n : ℚ) + 1 / 2) % 2 = 0 := by
  have hf : ⌊(n : ℚ) + 1 / 2⌋ = (n : ℤ) := by
    rw [Int.floor_eq_iff]; constructor <;> push_cast <;> linarith
  unfold roundEven
  simp only [hf, Int.toNat_natCast]
  rw [if_neg (by linarith), if_neg (by linarith)]
  split <;> omega

/-- an exponent without a sign -/
theorem parseExp_plain {c d : Char} (hc : c = 'e' ∨ c = 'E') {ds : Str} (h : ∀ x ∈ d :: ds, isDigit x = true) :
    parseExp (c :: d :: ds) = some (digitsVal (d :: ds) : ℤ) := by
  have hd : isDigit d = true := h d (by simp)
  have h1 : d ≠ '-' := by rintro rfl; exact absurd hd (by decide)
  have h2 : d ≠ '+' := by rintro rfl; exact absurd hd (by decide)
  simp only [parseExp]
  rw [if_pos hc, if_neg h1, if_neg h2, if_pos (List.all_eq_true.2 h)]

/-- digits without a point, and an exponent without a sign -/
theorem parseUnsigned_plain {c d : Char} (hc : c = 'e' ∨ c = 'E') {a ds : Str} (ha : ∀ x ∈ a, isDigit x = true) (hne : a ≠ [])
    (h : ∀ x ∈ d :: ds, isDigit x = true) :
    parseUnsigned (a ++ c :: d :: ds) = some ((digitsVal a : ℚ) * (10 : ℚ) ^ digitsVal (d :: ds)) := by
  have hcd : isDigit c = false := by rcases hc with rfl | rfl <;> decide
  obtain ⟨t1, t2⟩ := takeWhile_digits (t := c :: d :: ds) ha (by rintro x u hx; cases hx; exact hcd)
  unfold parseUnsigned
  simp only [t1, t2]
  split
  · rename_i heq; cases heq; rcases hc with hc | hc <;> exact absurd hc (by decide)
  · rw [if_neg (by simp [hne]), parseExp_plain hc h]
    simp

/-- `#g` writes an exponent exactly for the numbers that, rounded, are below `0.0001` or have more than `p + 1` digits before the point -/
theorem fmtGen_kind (p : ℕ) {q : ℚ} (hq : q ≠ 0) :
    'e' ∈ fmtGen p q ↔ ¬ (1 / 10 ^ 4 ≤ |roundSig p q| ∧ |roundSig p q| < 10 ^ (p + 1)) := by
  obtain ⟨h1, h2⟩ := sciParts_digits p q
  have h2 := h2 hq
  have habs := abs_roundSig p q
  have hsig : 'e' ∉ signStr q := by unfold signStr; split <;> decide
  have hdig : ∀ (w n : ℕ), 'e' ∉ digitsW w n := fun w n h => absurd (digitsW_digit w n _ h) (by decide)
  have hnat : ∀ n : ℕ, 'e' ∉ natStr n := by
    intro n h
    have := padZeros_digit 0 n 'e' (by unfold padZeros; simpa using h)
    exact absurd this (by decide)
  have lo : ((10 : ℚ) ^ p) ≤ ((sciParts p q).1 : ℚ) := by exact_mod_cast h2
  have hi : ((sciParts p q).1 : ℚ) < (10 : ℚ) ^ (p + 1) := by exact_mod_cast h1
  have key : (1 / 10 ^ 4 ≤ |roundSig p q| ∧ |roundSig p q| < 10 ^ (p + 1)) ↔ (-4 ≤ (sciParts p q).2 ∧ (sciParts p q).2 ≤ p) := by
    rw [habs]
    generalize (sciParts p q).2 = e at *
    generalize ((sciParts p q).1 : ℚ) = m at *
    have hp : (0 : ℚ) < 10 ^ (e - p) := ten_zpow_pos _
    have up : m * (10 : ℚ) ^ (e - p) < (10 : ℚ) ^ (e + 1) := by
      have := mul_lt_mul_of_pos_right hi hp
      rw [← zpow_natCast, ← zpow_add₀ (by norm_num)] at this
      rwa [show ((p + 1 : ℕ) : ℤ) + (e - p) = e + 1 by push_cast; ring] at this
    have dn : (10 : ℚ) ^ e ≤ m * (10 : ℚ) ^ (e - p) := by
      have := mul_le_mul_of_nonneg_right lo hp.le
      rw [← zpow_natCast, ← zpow_add₀ (by norm_num)] at this
      rwa [show (p : ℤ) + (e - p) = e by ring] at this
    have e4 : (1 / 10 ^ 4 : ℚ) = (10 : ℚ) ^ (-4 : ℤ) := by norm_num
    have ep : ((10 : ℚ) ^ (p + 1)) = (10 : ℚ) ^ ((p : ℤ) + 1) := by rw [← zpow_natCast]; push_cast; rfl
    rw [e4, ep]
    constructor
    · rintro ⟨a, b⟩
      have a' := lt_of_le_of_lt a up
      have b' := lt_of_le_of_lt dn b
      rw [zpow_lt_zpow_iff_right₀ (by norm_num)] at a' b'
      omega
    · rintro ⟨a, b⟩
      refine ⟨le_trans ?_ dn, lt_of_lt_of_le up ?_⟩
      · rw [zpow_le_zpow_iff_right₀ (by norm_num)]; omega
      · rw [zpow_le_zpow_iff_right₀ (by norm_num)]; omega
  rw [key]
  unfold fmtGen
  simp only [List.mem_append, hsig, false_or]
  by_cases h : -4 ≤ (sciParts p q).2 ∧ (sciParts p q).2 ≤ p
  · rw [if_pos h]
    simp only [h, fixStr, List.mem_append, List.mem_cons]
    simp [hnat, hdig]
  · rw [if_neg h]
    simp only [h, not_false_eq_true, iff_true, sciStr, List.mem_append, List.mem_cons]
    simp

/-- the exponent of a `Decimal` has no leading zeros -/
theorem fmtDecimal_exponent (p : ℕ) {q : ℚ} (hq : q ≠ 0) :
    ∃ m, fmtDecimal p q = m ++ 'E' :: (if (sciParts p q).2 < 0 then '-' else '+') :: natStr (sciParts p q).2.natAbs := by
  have h0 : ∀ n, padZeros 1 n = natStr n := by
    intro n
    unfold padZeros
    have : 1 ≤ (natStr n).length := List.length_pos_iff.2 (by
      have := padZeros_ne 0 n
      unfold padZeros at this
      simpa using this)
    rw [show 1 - (natStr n).length = 0 by omega]
    rfl
  refine ⟨signStr q ++ digitChar ((sciParts p q).1 / 10 ^ p) :: '.' :: digitsW p (sciParts p q).1, ?_⟩
  unfold fmtDecimal sciStr
  rw [if_neg hq, h0]
  simp

/-- some texts of Python -/
example : parseFloat ".5".toList = some (1 / 2) ∧ parseFloat "5.".toList = some 5 ∧ parseFloat "12e15".toList = some (12 * 10 ^ 15) ∧
    fmtGen 4 (1 / 10000) = "0.00010000".toList ∧ fmtGen 4 (9 / 100000) = "9.0000e-05".toList ∧ fmtGen 4 12345 = "12345.".toList ∧
    fmtDecimal 3 12345 = "1.234E+4".toList ∧ fmtDecimal 3 (5 / 10 ^ 12) = "5.000E-12".toList := by
  decide +kernel

/-- some texts of Python -/
example : fmtSci 'E' 4 (1234567 / 10) = "1.2346E+05".toList ∧ fmtGen 4 (-123456 / 10) = "-12346.".toList ∧
    fmtGen 4 0 = "0.0000".toList ∧ fmtGen 4 (999996 / 10) = "1.0000e+05".toList ∧ fmtGen 4 (12345678 / 100000000000) = "0.00012346".toList ∧
    fmtDecimal 6 0 = "0.000000E+6".toList ∧ fmtDecimal 6 (-1 / 10) = "-1.000000E-1".toList ∧
    parseFloat " -12.50e-1\n".toList = some (-5 / 4) ∧ parseFloat "1e".toList = none ∧ parseFloat ".".toList = none := by
  decide +kernel

end F4Enix
