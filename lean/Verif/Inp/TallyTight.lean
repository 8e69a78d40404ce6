import Verif.Inp.TallySummary
/-!
# Tally summary: multipliers on several lines, letters (C105)
-/
namespace F4Enix.Tally
open F4Enix F4Enix.Find

/-- the letters of card names are those of the alphabet -/
theorem isLetter_iff (c : Char) : isLetter c = true ↔ ('A' ≤ c ∧ c ≤ 'Z') ∨ ('a' ≤ c ∧ c ≤ 'z') := by
  have h : ∀ a b : Char, a ≤ b ↔ a.toNat ≤ b.toNat := fun a b => by
    rw [Char.le_def, UInt32.le_iff_toNat_le]; rfl
  simp only [isLetter, Bool.or_eq_true, Bool.and_eq_true, decide_eq_true_eq, h]
  rfl

/-- **C105 (multipliers).** Of an FM card on one line the words behind its name are given; of one on several lines the
normalisation is `N.A.`, followed by the words of the first line behind the name (as a printed list, if there are any)
and the other lines that do not begin with the letter C. -/
theorem multiplier_lines {tag l : Str} {ls : List Str} {s : Str} (h : retrieve tag (l :: ls) = .ok s) :
    (ls = [] → retrieveFM tag (l :: ls) = .ok (tokens s)) ∧
    (ls ≠ [] → ∃ first others, retrieveFM tag (l :: ls) = .ok ("N.A.".toList :: first ++ others) ∧
      (first = [] ↔ tokens s = []) ∧ (first ≠ [] → first = [reprWords (tokens s)]) ∧
      others = (ls.filter (fun x => decide (x.head? ≠ some 'C' ∧ x.head? ≠ some 'c'))).map strip) := by
  constructor
  · rintro rfl
    simp [retrieveFM, h]
  · intro hne
    cases ls with
    | nil => exact absurd rfl hne
    | cons l2 ls =>
      refine ⟨if tokens s = [] then [] else [reprWords (tokens s)], _, ?_, ?_, ?_, rfl⟩
      · unfold retrieveFM
        rw [h]
        simp only [List.drop_succ_cons, List.drop_zero, Except.ok.injEq]
        congr 2
        apply List.filter_congr
        intro x _
        cases x with
        | nil => rfl
        | cons c x =>
          by_cases h1 : c = 'C' <;> by_cases h2 : c = 'c' <;> simp [startsC, h1, h2]
      · split <;> simp_all
      · split <;> simp_all

/-- an `F` card without lines is an `IndexError` -/
theorem cardStep_empty {tag : Str} {d : Dict Str (List Str)} {id : ℕ} {a : Acc} (htag : (tag ++ natStr id).take 2 ≠ "FC".toList)
    (hd : Dict.get? d (tag ++ natStr id) = some []) : cardStep tag d id a (tag ++ natStr id) = .error .indexError := by
  unfold cardStep
  simp only [if_neg htag, hd, Option.getD_some, if_true]

example : retrieveFM "FM4".toList ["FM4\n".toList, "1.0 2\n".toList, "c text\n".toList, "(3)\n".toList] =
    .ok ["N.A.".toList, "1.0 2".toList, "(3)".toList] := by decide +kernel

example : retrieveFM "FM4".toList ["fm4 8\n".toList, "(3)\n".toList] = .ok ["N.A.".toList, "['8']".toList, "(3)".toList] := by
  decide +kernel

end F4Enix.Tally
