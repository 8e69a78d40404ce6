import Verif.Mat.InfoBuild
/-!
# The tables of a list of materials, refusals (C170 - C172)
-/
namespace F4Enix.MatInfo
open F4Enix F4Enix.Mat

/-- **C170, C171 (lists).** The tables of a list of materials are those of its materials one after the other; a list without materials is refused, and so is
one with a material whose own tables are refused. -/
theorem list_info (lm : LibMan) (zaids : Bool) :
    listInfo [] lm zaids = .error .valueError ∧
    (∀ ms l, ms ≠ [] → List.Forall₂ (fun m t => getInfo m lm zaids = .ok t) ms l →
      listInfo ms lm zaids = .ok ((l.map Prod.fst).flatten, (l.map Prod.snd).flatten)) ∧
    (∀ pre l m e post, List.Forall₂ (fun m t => getInfo m lm zaids = .ok t) pre l → getInfo m lm zaids = .error e →
      listInfo (pre ++ m :: post) lm zaids = .error e) := by
  have hok : ∀ {ms l}, List.Forall₂ (fun m t => getInfo m lm zaids = .ok t) ms l → mapE (fun m => getInfo m lm zaids) ms = .ok l := by
    intro ms l h
    induction h with
    | nil => rfl
    | cons h1 _ ih => rw [mapE, h1]; simp only; rw [ih]
  refine ⟨rfl, ?_, ?_⟩
  · intro ms l h0 h
    unfold listInfo
    rw [hok h]
    simp only
    rw [if_neg]
    · simp [List.flatMap]
    · intro hl
      subst hl
      cases h
      exact h0 rfl
  · intro pre l m e post h he
    unfold listInfo
    have : mapE (fun m => getInfo m lm zaids) (pre ++ m :: post) = .error e := by
      induction h with
      | nil => rw [List.nil_append, mapE, he]
      | cons h1 _ ih => rw [List.cons_append, mapE, h1]; simp only; rw [ih]
    rw [this]

/-- **C170 (names).** A zaid whose number is not a number is refused with `ValueError`, one of an element that is not in the table with `KeyError`. -/
theorem full_name (lm : LibMan) (z : Zaid) :
    (parseInt z.element = none → fullName lm z = .error .valueError) ∧
    (∀ i, parseInt z.element = some i → lm.symbolOf i = none → fullName lm z = .error .keyError) ∧
    (∀ i sym, parseInt z.element = some i → lm.symbolOf i = some sym → parseInt z.isotope = none → fullName lm z = .error .valueError) ∧
    (∀ i sym (a : ℤ), parseInt z.element = some i → lm.symbolOf i = some sym → parseInt z.isotope = some a →
      fullName lm z = .ok (if 0 < a then sym ++ "-".toList ++ intStr a else sym)) := by
  unfold fullName
  refine ⟨?_, ?_, ?_, ?_⟩
  · intro h; rw [h]
  · intro i h1 h2; rw [h1]; simp only; rw [h2]
  · intro i sym h1 h2 h3; rw [h1]; simp only; rw [h2]; simp only; rw [h3]
  · intro i sym a h1 h2 h3
    rw [h1]; simp only; rw [h2]; simp only; rw [h3]; simp only
    split <;> simp

example : ∃ t, listInfo [exInfoMat, exInfoMat] sampleLib true = .ok t ∧ t.2.length = 2 * ((getInfo exInfoMat sampleLib true).toOption.map (fun p => p.2.length)).getD 0 := by
  have h := (list_info sampleLib true).2.1 [exInfoMat, exInfoMat]
  cases hg : getInfo exInfoMat sampleLib true with
  | error e => have := exInfo_ok; rw [hg] at this; cases this
  | ok t =>
    refine ⟨_, h [t, t] (by simp) (.cons hg (.cons hg .nil)), ?_⟩
    simp [Except.toOption]
    omega

/-! ### comments that cannot be made -/

/-- **C172 (refused).** If the table of elements has no row for a submaterial, or the rows of a submaterial have none for one of its elements (the first in
question), the comments are refused with `KeyError`. -/
theorem notes_missing (lm : LibMan) :
    (∀ (table : List ERow) (i : ℕ) (s : SubMat) (ss : List SubMat), (∀ r ∈ table, r.sub ≠ i + 1) → noteSubs lm table i (s :: ss) = .error .keyError) ∧
    (∀ (rows : List ERow) (s : SubMat) (e : Element) (es : List Element) (n : Str), collapse s.zaids = e :: es →
      fullName lm (fromString (e.z ++ "000".toList) (-1)) = .ok n → (∀ r ∈ rows, r.element ≠ beforeDash n) → noteSub lm rows s = .error .keyError) := by
  constructor
  · intro table i s ss h
    have : table.filter (fun r => decide (r.sub = i + 1)) = [] := by
      rw [List.filter_eq_nil_iff]
      intro r hr
      simpa using h r hr
    rw [noteSubs.eq_def]
    simp only [this]
  · intro rows s e es n hc hn hr
    have : rows.find? (fun r => decide (r.element = beforeDash n)) = none := by
      rw [List.find?_eq_none]
      intro r hm
      simpa using hr r hm
    unfold noteSub
    rw [hc]
    simp only [mapE, hn, this]

/-- a material with a submaterial without zaids has no comments -/
example : notes { sampleMat with subs := sampleMat.subs ++ [mkSub [] none []] } sampleLib = .error .keyError := by decide +kernel

end F4Enix.MatInfo
