import Verif.Base.DecimalDouble
import Verif.Inp.DensityNumbers
/-!
# Scaled densities in floating point (C51)

`Inp/DensityNumbers` has exact numbers. Here the density read, its product with the factor and the density read again are 64-bit floats.
-/
namespace F4Enix.Inp
open F4Enix

/-! ## Model -/

/-- `float(word)`, rounded to a float (Python); infinities are not modelled, the theorems have `Ordinary` numbers -/
def floatNum (s : Str) : Option ℚ := (parseFloat s).map dbl

/-- `"{:.5e}".format(density * factor)` (MCNPinput.py:1088), the product being rounded to a float -/
def scaledText (q : ℚ) : Str := fmtSci 'e' 5 (dbl q)

/-! ## Specification -/

/-- the density of a card as a float (specification) -/
def densityF (c : Card) : Option ℚ := c.dens.bind floatNum

/-- all products are ordinary (specification) -/
def OrdinaryProducts (f : ℚ) (cells : Dict Str Card) : Prop := ∀ kc ∈ cells, ∀ q, densityF kc.2 = some q → Ordinary (q * f)

theorem twice_rounded {x : ℚ} (h : Ordinary x) :
    |dbl (roundSig 5 (dbl x)) - x| ≤ |x| / 199999 ∧ (dbl (roundSig 5 (dbl x)) < 0 ↔ x < 0) ∧ (dbl (roundSig 5 (dbl x)) = 0 ↔ x = 0) := by
  by_cases h0 : x = 0
  · subst h0; rw [dbl_zero, roundSig_zero, dbl_zero]; simp
  have hx : 0 < |x| := abs_pos.2 h0
  have hn := ordinary_normal h h0
  have h1 := dbl_near hn
  have h2 := roundSig_near 5 (dbl x)
  obtain ⟨s1, s2⟩ := dbl_sign h
  have hd0 : dbl x ≠ 0 := fun hc => h0 (s2.1 hc)
  have h3 : |dbl x| ≤ |x| + |x| / 2 ^ 53 := by
    have := abs_add_le (dbl x - x) x
    rw [sub_add_cancel] at this
    linarith
  have h3' : |x| - |x| / 2 ^ 53 ≤ |dbl x| := by
    have := abs_add_le (x - dbl x) (dbl x)
    rw [sub_add_cancel, abs_sub_comm] at this
    linarith
  set r := roundSig 5 (dbl x) with hr
  norm_num at h2 h1 h3 h3'
  have h4 : |r| ≤ |dbl x| + |dbl x| / 200000 := by
    have := abs_add_le (r - dbl x) (dbl x)
    rw [sub_add_cancel] at this
    linarith
  have h4' : |dbl x| - |dbl x| / 200000 ≤ |r| := by
    have := abs_add_le (dbl x - r) r
    rw [sub_add_cancel, abs_sub_comm] at this
    linarith
  have hlow : (10 : ℚ) ^ (-307 : ℤ) ≤ |x| := by
    rcases h with h | h
    · exact absurd h h0
    · exact h.1
  have h5 : |x| * (9 / 10) ≤ |r| := by linarith
  have hlim : (2 : ℚ) ^ (-1022 : ℤ) ≤ (10 : ℚ) ^ (-307 : ℤ) * (9 / 10) := by
    have : (10 : ℕ) ^ 308 ≤ 9 * 2 ^ 1022 := by decide +kernel
    have hq : (10 : ℚ) ^ (308 : ℕ) ≤ 9 * 2 ^ (1022 : ℕ) := by exact_mod_cast this
    rw [zpow_neg, zpow_neg, show (1022 : ℤ) = ((1022 : ℕ) : ℤ) by norm_num, show (307 : ℤ) = ((307 : ℕ) : ℤ) by norm_num, zpow_natCast, zpow_natCast]
    have e : (10 : ℚ) ^ (308 : ℕ) = 10 ^ (307 : ℕ) * 10 := pow_succ _ _
    rw [e] at hq
    have p1 : (0 : ℚ) < 10 ^ (307 : ℕ) := by positivity
    have p2 : (0 : ℚ) < 2 ^ (1022 : ℕ) := by positivity
    generalize (10 : ℚ) ^ (307 : ℕ) = A at *
    generalize (2 : ℚ) ^ (1022 : ℕ) = B at *
    rw [inv_eq_one_div, div_le_iff₀ p2, inv_mul_eq_div, div_mul_eq_mul_div, le_div_iff₀ p1]
    linarith
  have hnr : (2 : ℚ) ^ (-1022 : ℤ) ≤ |r| := by
    refine le_trans hlim (le_trans ?_ h5)
    exact mul_le_mul_of_nonneg_right hlow (by norm_num)
  have h6 := dbl_near hnr
  norm_num at h6
  have hb : |dbl r - x| ≤ |x| / 199999 := by
    have a1 := abs_sub_le (dbl r) r x
    have a2 := abs_sub_le r (dbl x) x
    linarith
  have hr0 : r ≠ 0 := (roundSig_sign 5 hd0).2
  have hlt : |dbl r - x| < |x| := lt_of_le_of_lt hb (by linarith)
  refine ⟨hb, ⟨fun hneg => ?_, fun hneg => ?_⟩, ⟨fun hz => ?_, fun hz => absurd hz h0⟩⟩
  · by_contra hc
    rw [abs_of_pos (lt_of_le_of_ne (not_lt.1 hc) (Ne.symm h0))] at hlt
    have := (abs_lt.1 hlt).1
    linarith
  · rw [abs_of_neg hneg] at hlt
    have := (abs_lt.1 hlt).2
    linarith
  · rw [hz, zero_sub, abs_neg] at hlt
    exact absurd hlt (lt_irrefl _)

theorem forall₂_imp_mem {α β : Type} {R S : α → β → Prop} {l : List α} {l' : List β} (h : List.Forall₂ R l l') (hi : ∀ a b, a ∈ l → R a b → S a b) :
    List.Forall₂ S l l' := by
  induction h with
  | nil => exact .nil
  | cons hd _ ih => exact .cons (hi _ _ (by simp) hd) (ih (fun a b ha => hi a b (by simp [ha])))

/-- **C51**, in floating point. After `scale_densities(f)` the density that is read from a non-void cell is the float it had before times `f`, within a relative
error of `1 / 199999`, of the same sign as that product; void cells and everything else are as before. -/
theorem scaled_floats {f : ℚ} {cells cells' : Dict Str Card} (ho : OrdinaryProducts f cells)
    (h : scaleDensities floatNum scaledText f cells = .ok cells') :
    List.Forall₂ (fun kc kc' => kc'.1 = kc.1 ∧ (kc.2.mat = some 0 → kc'.2 = kc.2) ∧
      (kc.2.mat ≠ some 0 → ∃ q q' t, densityF kc.2 = some q ∧ densityF kc'.2 = some q' ∧ kc'.2 = { kc.2 with dens := some t } ∧
        |q' - q * f| ≤ |q * f| / 199999 ∧ (q' < 0 ↔ q * f < 0) ∧ (q' = 0 ↔ q * f = 0))) cells cells' := by
  refine forall₂_imp_mem (c51_scale floatNum scaledText f cells cells' h) ?_
  rintro kc kc' hk ⟨h1, h2, h3⟩
  refine ⟨h1, h2, fun hm => ?_⟩
  obtain ⟨d, q, a, b, c⟩ := h3 hm
  have hq : densityF kc.2 = some q := by simp [densityF, a, b]
  obtain ⟨t1, t2, t3⟩ := twice_rounded (ho kc hk q hq)
  refine ⟨q, dbl (roundSig 5 (dbl (q * f))), scaledText (q * f), hq, ?_, c, t1, t2, t3⟩
  rw [c]
  simp [densityF, floatNum, scaledText, fmtSci_read (Or.inl rfl) 5 (dbl (q * f))]

/-- cells 2 and 3 of the example scaled by the float nearest to a third -/
example : ∃ c, scaleDensities floatNum scaledText (dbl (1 / 3)) matDemo.cells = .ok c ∧
    c.map (fun kc => kc.2.dens) = [some "-3.33333e-01".toList, some "-6.66667e-01".toList, none] := by
  refine ⟨_, rfl, ?_⟩
  decide +kernel

/-- their products are ordinary -/
example : OrdinaryProducts (dbl (1 / 3)) matDemo.cells := by
  have h : ∀ kc ∈ matDemo.cells, ∀ q ∈ densityF kc.2, 1 / 100 ≤ |q * dbl (1 / 3)| ∧ |q * dbl (1 / 3)| ≤ 100 := by decide +kernel
  intro kc hk q hq
  obtain ⟨h1, h2⟩ := h kc hk q hq
  refine Or.inr ⟨le_trans ?_ h1, le_trans h2 ?_⟩
  · refine le_trans (zpow_le_zpow_right₀ (a := (10 : ℚ)) (by norm_num) (by norm_num : (-307 : ℤ) ≤ -2)) (by norm_num)
  · refine le_trans ?_ (zpow_le_zpow_right₀ (a := (10 : ℚ)) (by norm_num) (by norm_num : (2 : ℤ) ≤ 308))
    norm_num

end F4Enix.Inp
