import Verif.D1S.InputProps
import Verif.Base.Find
/-!
# Reactions and tracking: refusals and comments (C98–C101)
-/
namespace F4Enix.D1S
open F4Enix F4Enix.Mat

/-- an unknown library or parent gives no reactions; a parent that is no zaid is an error -/
theorem reactions_unknown (lm : LibMan) (tab : ActTable) (lib parent : Str) :
    (Dict.get? tab lib = none → getReactions lm tab lib parent = .ok []) ∧
    (lm.zaidName parent = .error .keyError → getReactions lm tab lib parent = .ok []) ∧
    (∀ rows, Dict.get? tab lib = some rows → lm.zaidName parent = .error .valueError →
      getReactions lm tab lib parent = .error .valueError) := by
  refine ⟨fun h => by simp [getReactions, h], fun h => ?_, fun rows hr h => by simp [getReactions, h, hr]⟩
  unfold getReactions
  cases Dict.get? tab lib with
  | none => rfl
  | some rows => simp [h]

/-- the reactions behind a daughter that is unknown are dropped without an error; a daughter without a name is one -/
theorem reactions_cut_ok {lm : LibMan} {tab : ActTable} {lib parent f : Str} {rows before after : List ActRow} {r : ActRow}
    (ht : Dict.get? tab lib = some rows) (hf : lm.zaidName parent = .ok f)
    (hrows : rows.filter (fun r => decide (r.parent = f.filter (fun c => decide (c ≠ '-')))) = before ++ r :: after)
    (hb : ∀ row ∈ before, ∃ d, daughterNum lm row.daughter = .ok d) (hr : daughterNum lm r.daughter = .error .keyError) :
    getReactions lm tab lib parent = .ok (rowLoop lm before).1 := by
  unfold getReactions
  rw [ht]
  simp only [hf]
  rw [hrows, reactions_cut lm r before after hr hb]

theorem daughter_empty (lm : LibMan) : daughterNum lm [] = .error .indexError := rfl

/-- the number of a tally is that of the first digits of its card name; a name without digits is a `ValueError`, a card
that is not there a `KeyError`, and nothing changes -/
theorem addTrack_refused (data : Dict Str (List Str)) (key : Str) (zaids : List Str) (who : Who) :
    (Dict.get? data key = none → addTrack data key zaids who = (data, .error .keyError)) ∧
    (∀ lines, Dict.get? data key = some lines → (∀ c ∈ key, isDigit c = false) →
      addTrack data key zaids who = (data, .error .valueError)) := by
  refine ⟨fun h => by simp [addTrack, h], fun lines h hd => ?_⟩
  simp only [addTrack, h, numTally, Find.searchDigits_none hd]

/-- **C98 (comments).** The comment of a reaction is the name of the parent, given with the library, an arrow and the name of the daughter; the
name of an isomer (a number that ends with 900) is that of its nuclide with an `m`. -/
theorem comment_names (lm : LibMan) (lib : Str) (p : Path) (c : Str) :
    pathComment lm lib p = .ok c ↔ ∃ pf df, lm.zaidName (p.1 ++ ".".toList ++ lib) = .ok pf ∧ c = pf ++ " -> ".toList ++ df ∧
      ((¬ (∃ n, p.2.2 = n ++ "900".toList) ∧ lm.zaidName p.2.2 = .ok df) ∨
       ∃ n f, p.2.2 = n ++ "900".toList ∧ lm.zaidName n = .ok f ∧ df = f ++ "m".toList) := by
  have h900 : last3 p.2.2 = ['9', '0', '0'] ↔ ∃ n, p.2.2 = n ++ "900".toList := by
    constructor
    · intro h
      exact ⟨dropLast3 p.2.2, by
        unfold last3 at h; unfold dropLast3
        rw [show "900".toList = ['9', '0', '0'] by decide, ← h]
        exact (List.take_append_drop _ _).symm⟩
    · rintro ⟨n, e⟩
      rw [e]; unfold last3
      rw [List.length_append, show "900".toList.length = 3 by decide, Nat.add_sub_cancel, List.drop_left' rfl]
      decide
  have hdrop : ∀ n, p.2.2 = n ++ "900".toList → dropLast3 p.2.2 = n := by
    intro n e
    rw [e]; unfold dropLast3
    rw [List.length_append, show "900".toList.length = 3 by decide, Nat.add_sub_cancel, List.take_left' rfl]
  have hp : p.1 ++ ".".toList ++ lib = p.1 ++ '.' :: lib := by
    rw [show ".".toList = ['.'] by decide]; simp
  unfold pathComment
  rw [hp]
  cases hz : lm.zaidName (p.1 ++ '.' :: lib) with
  | error e => simp
  | ok pf =>
    simp only [Except.ok.injEq]
    by_cases hd : last3 p.2.2 = ['9', '0', '0']
    · rw [if_pos hd]
      obtain ⟨n, e⟩ := h900.1 hd
      rw [hdrop n e]
      cases hf : lm.zaidName n with
      | error x =>
        simp only [reduceCtorEq, false_iff]
        rintro ⟨pf', df, -, -, h | ⟨n', f, e', hn', -⟩⟩
        · exact h.1 ⟨n, e⟩
        · rw [← (hdrop n e).symm.trans (hdrop n' e'), hf] at hn'
          simp at hn'
      | ok f =>
        simp only [Except.ok.injEq]
        constructor
        · intro h
          refine ⟨pf, f ++ ['m'], rfl, h.symm, Or.inr ⟨n, f, e, hf, by rw [show "m".toList = ['m'] by decide]⟩⟩
        · rintro ⟨pf', df, rfl, rfl, h | ⟨n', f', e', hn', rfl⟩⟩
          · exact absurd ⟨n, e⟩ h.1
          · rw [← (hdrop n e).symm.trans (hdrop n' e'), hf, Except.ok.injEq] at hn'
            subst hn'
            rw [show "m".toList = ['m'] by decide]
    · rw [if_neg hd]
      have hno : ¬ ∃ n, p.2.2 = n ++ "900".toList := fun h => hd (h900.2 h)
      cases hf : lm.zaidName p.2.2 with
      | error x =>
        simp only [reduceCtorEq, false_iff]
        rintro ⟨pf', df, -, -, h | ⟨n', f, e', -⟩⟩
        · simp at h
        · exact hno ⟨n', e'⟩
      | ok f =>
        simp only [Except.ok.injEq]
        constructor
        · intro h
          exact ⟨pf, f, rfl, h.symm, Or.inl ⟨hno, rfl⟩⟩
        · rintro ⟨pf', df, rfl, rfl, h | ⟨n', f', e', -⟩⟩
          · rw [h.2]
          · exact absurd ⟨n', e'⟩ hno

end F4Enix.D1S
