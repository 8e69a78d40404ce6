import Verif.Base.Decimal
import Verif.Inp.MaterialProps
/-!
# Scaled densities as numbers (C51)

`Inp/MaterialProps` proves which cards `scale_densities` (MCNPinput.py:1075-1089) changes, for any printing of numbers. Here the printing
is `"{:.5e}".format` (MCNPinput.py:1088) and the reading is `float`, on exact numbers.
-/
namespace F4Enix.Inp
open F4Enix

/-- the density of a card as a number (specification) -/
def densityOf (c : Card) : Option ℚ := c.dens.bind parseFloat

/-- **C51**, with the numbers as Python prints them. After `scale_densities(f)` the density that is read from a non-void cell is that
before times `f`, within half a unit of the sixth digit, and of the same sign as that product; void cells and everything else are as before. -/
theorem scaled_numbers {f : ℚ} {cells cells' : Dict Str Card} (h : scaleDensities parseFloat (fmtSci 'e' 5) f cells = .ok cells') :
    List.Forall₂ (fun kc kc' => kc'.1 = kc.1 ∧ (kc.2.mat = some 0 → kc'.2 = kc.2) ∧
      (kc.2.mat ≠ some 0 → ∃ q q' t, densityOf kc.2 = some q ∧ densityOf kc'.2 = some q' ∧ kc'.2 = { kc.2 with dens := some t } ∧
        |q' - q * f| ≤ |q * f| / 200000 ∧ (q' < 0 ↔ q * f < 0) ∧ (q' = 0 ↔ q * f = 0))) cells cells' := by
  refine (c51_scale parseFloat (fmtSci 'e' 5) f cells cells' h).imp ?_
  rintro kc kc' ⟨h1, h2, h3⟩
  refine ⟨h1, h2, fun hm => ?_⟩
  obtain ⟨d, q, a, b, c⟩ := h3 hm
  refine ⟨q, roundSig 5 (q * f), fmtSci 'e' 5 (q * f), by simp [densityOf, a, b], ?_, c, ?_, ?_⟩
  · rw [c]; simp [densityOf, fmtSci_read (Or.inl rfl) 5 (q * f)]
  · have := roundSig_near 5 (q * f)
    norm_num at this
    rw [abs_mul]
    exact this
  · by_cases hq : q * f = 0
    · rw [hq, roundSig_zero]; simp
    · have := roundSig_sign 5 hq
      exact ⟨this.1, ⟨fun h => absurd h this.2, fun h => absurd h hq⟩⟩

/-- **C51**, the sign of the density tells atoms from weight: a positive factor keeps it. -/
theorem scaled_sign {f : ℚ} (hf : 0 < f) {cells cells' : Dict Str Card} (h : scaleDensities parseFloat (fmtSci 'e' 5) f cells = .ok cells') :
    List.Forall₂ (fun kc kc' => kc.2.mat ≠ some 0 → ∃ q q', densityOf kc.2 = some q ∧ densityOf kc'.2 = some q' ∧ (q' < 0 ↔ q < 0) ∧ (q' = 0 ↔ q = 0)) cells cells' := by
  refine (scaled_numbers h).imp ?_
  rintro kc kc' ⟨-, -, h3⟩ hm
  obtain ⟨q, q', t, a, b, -, -, d, e⟩ := h3 hm
  exact ⟨q, q', a, b, by rw [d, mul_neg_iff]; constructor
                         · rintro (⟨_, h⟩ | ⟨h, _⟩)
                           · linarith
                           · exact h
                         · intro h; exact Or.inr ⟨h, hf⟩, by rw [e, mul_eq_zero]; constructor
                                                             · rintro (h | h)
                                                               · exact h
                                                               · linarith
                                                             · intro h; exact Or.inl h⟩

/-- **C51**, a second scaling: what a cell has after `f` and then `g` is its density times both, within one unit of the sixth digit and a bit. -/
theorem scaled_twice {f g : ℚ} {cells c1 c2 : Dict Str Card} (h1 : scaleDensities parseFloat (fmtSci 'e' 5) f cells = .ok c1)
    (h2 : scaleDensities parseFloat (fmtSci 'e' 5) g c1 = .ok c2) :
    List.Forall₂ (fun kc kc' => kc'.1 = kc.1 ∧ (kc.2.mat = some 0 → kc'.2 = kc.2) ∧
      (kc.2.mat ≠ some 0 → ∃ q q', densityOf kc.2 = some q ∧ densityOf kc'.2 = some q' ∧
        |q' - q * f * g| ≤ |q * f * g| * (2 / 200000 + 1 / 200000 ^ 2))) cells c2 := by
  have comp : ∀ {R S T : Str × Card → Str × Card → Prop}, (∀ a b c, R a b → S b c → T a c) →
      ∀ {l m n : List (Str × Card)}, List.Forall₂ R l m → List.Forall₂ S m n → List.Forall₂ T l n := by
    intro R S T hT l m n hr
    induction hr generalizing n with
    | nil => intro hs; cases hs; exact .nil
    | cons a _ ih => intro hs; cases hs with | cons b hs => exact .cons (hT _ _ _ a b) (ih hs)
  refine comp ?_ (scaled_numbers h1) (scaled_numbers h2)
  rintro a b c ⟨x1, x2, x3⟩ ⟨y1, y2, y3⟩
  refine ⟨y1.trans x1, fun hm => ?_, fun hm => ?_⟩
  · have := x2 hm
    rw [y2 (by rw [this]; exact hm), this]
  · obtain ⟨q, q', t, a1, a2, a3, a4, -⟩ := x3 hm
    have hb : b.2.mat ≠ some 0 := by rw [a3]; exact hm
    obtain ⟨r, r', t', b1, b2, b3, b4, -⟩ := y3 hb
    rw [a2] at b1
    obtain rfl := Option.some.inj b1
    refine ⟨q, r', a1, b2, ?_⟩
    have e1 : |q' * g - q * f * g| ≤ |q * f * g| / 200000 := by
      rw [← sub_mul, abs_mul, abs_mul (q * f) g]
      have := mul_le_mul_of_nonneg_right a4 (abs_nonneg g)
      linarith
    have e2 : |q' * g| ≤ |q * f * g| + |q * f * g| / 200000 := by
      have := abs_sub_abs_le_abs_sub (q' * g) (q * f * g)
      linarith
    have e3 := abs_sub_le r' (q' * g) (q * f * g)
    have e4 : (0 : ℚ) ≤ |q * f * g| := abs_nonneg _
    nlinarith

/-- cells 2 and 3 of the example scaled by a third, cell 4 is void -/
example : ∃ c, scaleDensities parseFloat (fmtSci 'e' 5) (1 / 3) matDemo.cells = .ok c ∧
    c.map (fun kc => kc.2.dens) = [some "-3.33333e-01".toList, some "-6.66667e-01".toList, none] := by
  refine ⟨_, rfl, ?_⟩
  decide +kernel

end F4Enix.Inp
