import Verif.Base.Decimal
import Verif.Mat.TextRound
/-!
# Materials with the fractions as Python prints and reads them (C110)

`Mat/TextRound` proves the round trip for any way of printing numbers. Here the printing is `"{:.6E}".format(Decimal(fraction))`
(materials.py:179) and the reading is `float` (materials.py:145-167), on exact numbers.
-/
namespace F4Enix.Mat
open F4Enix

/-- seven significant digits (specification) -/
def seven (q : ℚ) : ℚ := roundSig 6 q

theorem not_dollar {s : Str} (h : ∀ c ∈ s, isNumChar c = true) : isDollar s = false := by
  cases s with
  | nil => rfl
  | cons c cs =>
    unfold isDollar
    split
    · rename_i e
      have := h c (by simp)
      rw [(List.cons.inj e).1] at this
      revert this; decide
    · rfl

/-- Python's printing and reading of a fraction fit together -/
theorem decimal_ok : FmtOk parseFloat (fmtDecimal 6) seven :=
  ⟨fun q => ⟨fmtDecimal_word 6 q, not_dollar (fmtDecimal_chars 6 q)⟩, fun q => fmtDecimal_read 6 q⟩

/-- **C110**, with the numbers as Python prints them. A material written and read back is the same material, its fractions rounded to
seven digits; a second time nothing is changed any more. Partial: as `material_round_trip_partial`, for materials without density and MX
cards in which only the first part may lack a comment. -/
theorem material_numbers_partial {info : Zaid → Str} (hi : InfoOk info) {m : TMat} {hs : List Str} {css : List (List Str)} (h : TMatOk m hs css) :
    matFromText parseFloat (fileLines (m.toText (fmtDecimal 6) info ++ ['\n'])) =
      .ok ⟨Inp.upper m.name, m.header, m.subs.map (rounded seven), []⟩ :=
  material_round_trip_partial decimal_ok hi h

/-- the fraction read is within half a unit of the seventh digit of the one written; up to seven digits nothing is lost; the order of
the fractions is kept, and so are their signs (atoms or weight) -/
theorem seven_exact : (∀ q, |seven q - q| ≤ |q| / 2000000) ∧
    (∀ (q : ℚ) (m : ℕ) (k : ℤ), m < 10 ^ 7 → |q| = (m : ℚ) * (10 : ℚ) ^ k → seven q = q) ∧
    (∀ x y, x ≤ y → seven x ≤ seven y) ∧ (∀ q, seven (seven q) = seven q) ∧ (∀ q, (seven q < 0 ↔ q < 0) ∧ (seven q = 0 ↔ q = 0)) := by
  refine ⟨fun q => ?_, fun _ _ _ hm hq => roundSig_exact 6 hm hq, fun _ _ h => roundSig_mono 6 h, roundSig_idem 6, fun q => ?_⟩
  · have := roundSig_near 6 q
    unfold seven
    norm_num at this
    exact this
  · by_cases hq : q = 0
    · subst hq; unfold seven; rw [roundSig_zero]; simp
    · have := roundSig_sign 6 hq
      exact ⟨this.1, ⟨fun h => absurd h this.2, fun h => absurd h hq⟩⟩

/-- one third is written `3.333333E-1`, a fifth of a millionth `2.000000E-7` -/
example : fmtDecimal 6 (1 / 3) = "3.333333E-1".toList ∧ fmtDecimal 6 (1 / 5000000) = "2.000000E-7".toList ∧
    seven (1 / 3) = 3333333 / 10000000 := by decide +kernel

/-- the material of `Mat/TextRound` -/
example : matFromText parseFloat (fileLines (exMat.toText (fmtDecimal 6) (fun _ => []) ++ ['\n'])) =
    .ok ⟨"M12".toList, exMat.header, exMat.subs.map (rounded seven), []⟩ :=
  material_numbers_partial (fun _ _ h => by cases h) ex_mat

end F4Enix.Mat
