import Verif.D1S.InputProps
/-!
# Further theorems about irradiation and reaction files

Theorems added after wrong programs had survived the first ones (see `seeded/LOG.jsonl`): the exact
effect of changing one factor, the exact error of every refused call, the meaning of `==` on
irradiations, the choice of the library from the text of a dictionary.
-/
namespace F4Enix.D1S
open F4Enix

/-! ## changing one factor -/

/-- **C20** (exact effect of changing). `modify_time_val` succeeds exactly for an index among the
factors, and then replaces the factor at that index and no other; daughter, decay constant and
comment stay. -/
theorem c20_modify_effect (i : Irradiation) (index : Int) (v : Str) :
    ((i.modifyTimeVal index v).2 = .ok () ↔ 0 ≤ index ∧ index < i.times.length) ∧
    (∀ e, (i.modifyTimeVal index v).2 = .error e → e = .indexError ∧ (i.modifyTimeVal index v).1 = i) ∧
    ((i.modifyTimeVal index v).2 = .ok () →
      (∀ k : Nat, (i.modifyTimeVal index v).1.times[k]? = if (k : Int) = index then some v else i.times[k]?) ∧
      (i.modifyTimeVal index v).1.daughter = i.daughter ∧ (i.modifyTimeVal index v).1.lambd = i.lambd ∧
      (i.modifyTimeVal index v).1.comment = i.comment) := by
  unfold Irradiation.modifyTimeVal
  by_cases h : index < 0 ∨ index ≥ i.times.length
  · rw [if_pos h]
    refine ⟨⟨fun h' => (nomatch h'), fun h' => by omega⟩, fun e h' => by cases h'; exact ⟨rfl, rfl⟩,
      fun h' => nomatch h'⟩
  · rw [if_neg h]
    push Not at h
    refine ⟨⟨fun _ => ⟨h.1, h.2⟩, fun _ => rfl⟩, fun e h' => (by cases h'), fun _ => ⟨fun k => ?_, rfl, rfl, rfl⟩⟩
    simp only [List.getElem?_set]
    by_cases hk : (k : Int) = index
    · have h1 : index.toNat = k := by omega
      have h2 : k < i.times.length := by omega
      rw [if_pos h1, if_pos hk, if_pos (by omega)]
    · have h1 : ¬ index.toNat = k := by omega
      rw [if_neg h1, if_neg hk]

/-- **C20** (exact effect of changing, in the file). Changing a factor of the schedule at `pos`
touches that schedule only; a position outside the list is refused with `IndexError` and nothing
changes. -/
theorem c20_modify_in_file (f : IrradiationFile) (pos : Nat) (index : Int) (v : Str) :
    (∀ i, f.schedules[pos]? = some i →
      (modifyAt f pos index v).2 = (i.modifyTimeVal index v).2 ∧
      (∀ k, (modifyAt f pos index v).1.schedules[k]? =
        if k = pos then some (i.modifyTimeVal index v).1 else f.schedules[k]?)) ∧
    (f.schedules[pos]? = none → modifyAt f pos index v = (f, .error .indexError)) ∧
    (modifyAt f pos index v).1.nsc = f.nsc ∧ (modifyAt f pos index v).1.header = f.header ∧
    (modifyAt f pos index v).1.cols = f.cols := by
  unfold modifyAt
  cases hp : f.schedules[pos]? with
  | none => simp
  | some i =>
    refine ⟨fun j hj => ?_, fun h => (by cases h), rfl, rfl, rfl⟩
    cases hj
    refine ⟨rfl, fun k => ?_⟩
    have hlt : pos < f.schedules.length := by
      rw [List.getElem?_eq_some_iff] at hp; exact hp.1
    simp only [List.getElem?_set]
    by_cases hk : k = pos
    · subst hk; simp [hlt]
    · rw [if_neg (fun h => hk h.symm), if_neg hk]

example : (modifyAt exFile 1 0 "9.000e+00".toList).2 = .ok () ∧
    ((modifyAt exFile 1 0 "9.000e+00".toList).1.schedules[1]?.map (·.times.head?)) =
      some (some "9.000e+00".toList) := by decide

/-! ## the errors of adding -/

/-- two lists of the dictionary differ in length -/
theorem lengthsDiffer_iff (td : Dict Str (List Str)) :
    lengthsDiffer td = true ↔ ∃ p ∈ td, ∃ q ∈ td, p.2.length ≠ q.2.length := by
  cases td with
  | nil => simp [lengthsDiffer]
  | cons a rest =>
    simp only [lengthsDiffer, List.any_eq_true, bne_iff_ne]
    constructor
    · rintro ⟨p, hp, h⟩
      exact ⟨p, by simp [hp], a, by simp, h⟩
    · rintro ⟨p, hp, q, hq, h⟩
      by_contra hc
      push Not at hc
      have hall : ∀ r ∈ a :: rest, r.2.length = a.2.length := by
        intro r hr
        rcases List.mem_cons.mp hr with rfl | hr
        · rfl
        · exact hc r hr
      exact h ((hall p hp).trans (hall q hq).symm)

/-- **C21** (when adding is refused). `add_irradiation_times` raises `ValueError` exactly when two
of the lists differ in length; otherwise `KeyError` exactly when the keys are not the daughters of
the file; otherwise `ValueError` exactly for a file without schedules; otherwise it succeeds. -/
theorem c21_add_outcome (f : IrradiationFile) (td : Dict Str (List Str)) :
    let uneven := ∃ p ∈ td, ∃ q ∈ td, p.2.length ≠ q.2.length
    let same := (∀ k ∈ td.keys, k ∈ getDaughters f) ∧ ∀ d ∈ getDaughters f, d ∈ td.keys
    (uneven → (addTimes f td).2 = .error .valueError) ∧
    (¬ uneven → ¬ same → (addTimes f td).2 = .error .keyError) ∧
    (¬ uneven → same → f.schedules = [] → (addTimes f td).2 = .error .valueError) ∧
    (¬ uneven → same → f.schedules ≠ [] → (addTimes f td).2 = .ok ()) := by
  intro uneven same
  have hu : lengthsDiffer td = true ↔ uneven := lengthsDiffer_iff td
  have hk1 : (td.keys.any fun k => !(getDaughters f).contains k) = true ↔
      ¬ ∀ k ∈ td.keys, k ∈ getDaughters f := by
    simp only [List.any_eq_true, Bool.not_eq_true', List.contains_eq_mem, decide_eq_false_iff_not]
    push Not
    rfl
  have hk2 : ((getDaughters f).any fun d => !td.has d) = true ↔ ¬ ∀ d ∈ getDaughters f, d ∈ td.keys := by
    simp only [List.any_eq_true, Bool.not_eq_true']
    push Not
    constructor
    · rintro ⟨x, hx, h⟩
      exact ⟨x, hx, fun hm => by rw [(Dict.has_iff td x).mpr hm] at h; cases h⟩
    · rintro ⟨x, hx, h⟩
      exact ⟨x, hx, by
        cases hh : td.has x with
        | false => rfl
        | true => exact absurd ((Dict.has_iff td x).mp hh) h⟩
  refine ⟨fun h => ?_, fun h hs => ?_, fun h hs he => ?_, fun h hs he => ?_⟩
  · unfold addTimes; rw [if_pos (hu.mpr h)]
  · unfold addTimes; rw [if_neg (fun h' => h (hu.mp h'))]
    by_cases h1 : ∀ k ∈ td.keys, k ∈ getDaughters f
    · rw [if_neg (fun h' => hk1.mp h' h1), if_pos (hk2.mpr (fun h2 => hs ⟨h1, h2⟩))]
    · rw [if_pos (hk1.mpr h1)]
  · unfold addTimes
    rw [if_neg (fun h' => h (hu.mp h')), if_neg (fun h' => hk1.mp h' hs.1),
      if_neg (fun h' => hk2.mp h' hs.2)]
    simp [he, maxTimes]
  · unfold addTimes
    rw [if_neg (fun h' => h (hu.mp h')), if_neg (fun h' => hk1.mp h' hs.1),
      if_neg (fun h' => hk2.mp h' hs.2)]
    cases hsch : f.schedules with
    | nil => exact absurd hsch he
    | cons a b => simp [maxTimes]

/-! ## equality of irradiations -/

/-- **C22** (equality). Two irradiations are `==` exactly when they have the same daughter, the same
decay constant *as a number* and the same factors *as numbers*, in order; comments are not looked at
(`num` stands for Python's `float`). -/
theorem c22_eq_iff {α : Type} [DecidableEq α] (num : Str → α) (a b : Irradiation) :
    a.pyEq num b = true ↔
      a.daughter = b.daughter ∧ num a.lambd = num b.lambd ∧ a.times.map num = b.times.map num := by
  have hz : ∀ (s t : List Str), (s.length = t.length ∧ ∀ p ∈ s.zip t, num p.1 = num p.2) ↔
      s.map num = t.map num := by
    intro s
    induction s with
    | nil => intro t; cases t <;> simp
    | cons x s ih =>
      intro t
      cases t with
      | nil => simp
      | cons y t =>
        simp only [List.length_cons, Nat.add_right_cancel_iff, List.zip_cons_cons, List.forall_mem_cons,
          List.map_cons, List.cons.injEq]
        rw [← ih t]
        tauto
  simp only [Irradiation.pyEq, Bool.and_eq_true, beq_iff_eq, List.all_eq_true]
  rw [← hz]
  tauto

/-- **C22** (equality is an equivalence), whatever the conversion to numbers. -/
theorem c22_eq_equivalence {α : Type} [DecidableEq α] (num : Str → α) :
    (∀ a : Irradiation, a.pyEq num a = true) ∧
    (∀ a b : Irradiation, a.pyEq num b = true → b.pyEq num a = true) ∧
    (∀ a b c : Irradiation, a.pyEq num b = true → b.pyEq num c = true → a.pyEq num c = true) := by
  refine ⟨fun a => (c22_eq_iff num a a).mpr ⟨rfl, rfl, rfl⟩, fun a b h => ?_, fun a b c h h' => ?_⟩
  · obtain ⟨h1, h2, h3⟩ := (c22_eq_iff num a b).mp h
    exact (c22_eq_iff num b a).mpr ⟨h1.symm, h2.symm, h3.symm⟩
  · obtain ⟨h1, h2, h3⟩ := (c22_eq_iff num a b).mp h
    obtain ⟨k1, k2, k3⟩ := (c22_eq_iff num b c).mp h'
    exact (c22_eq_iff num a c).mpr ⟨h1.trans k1, h2.trans k2, h3.trans k3⟩

example : Irradiation.pyEq List.length ⟨"24051".toList, "1e".toList, ["a".toList], none⟩
    ⟨"24051".toList, "2f".toList, ["b".toList], some "x".toList⟩ = true := by decide

/-! ## writing: what makes a row impossible -/

/-- **C23** (refused rows). A row cannot be written exactly when there are fewer fields than columns
or one of the fields used is `None`; the error is `TypeError` when a `None` comes first, otherwise
`IndexError`. -/
theorem c23_row_outcome (cols : List Nat) (args : List (Option Str)) :
    ((∃ s, formatCols cols args = .ok s) ↔
      cols.length ≤ args.length ∧ none ∉ args.take cols.length) ∧
    (formatCols cols args = .error .typeError ↔ none ∈ args.take cols.length) ∧
    (formatCols cols args = .error .indexError ↔
      args.length < cols.length ∧ none ∉ args.take cols.length) := by
  induction cols generalizing args with
  | nil => simp [formatCols]
  | cons w ws ih =>
    cases args with
    | nil => simp [formatCols]
    | cons a as =>
      cases a with
      | none => simp [formatCols]
      | some a =>
        obtain ⟨h1, h2, h3⟩ := ih as
        simp only [formatCols, List.length_cons, List.take_succ_cons, List.mem_cons, reduceCtorEq, false_or,
          Nat.add_le_add_iff_right, Nat.add_lt_add_iff_right]
        rw [← h1, ← h3, ← h2]
        cases hf : formatCols ws as with
        | error e => simp
        | ok r => simp

/-- **C24** (refused rows). A row of a reaction file with fewer than three words is refused with
`IndexError`, one whose second word is not an integer with `ValueError`; of all others the first word
is the parent, the second the MT number, the third the daughter and the rest the comment. -/
theorem c24_row_outcome (text : Str) :
    ((splitWs (strip text)).length < 3 → Reaction.fromText text = .error .indexError) ∧
    (∀ p m d rest, splitWs (strip text) = p :: m :: d :: rest →
      (parseInt m = none → Reaction.fromText text = .error .valueError) ∧
      (∀ n, parseInt m = some n → Reaction.fromText text =
        .ok ⟨strip p, n, d, some (strip (rest.map (fun w => ' ' :: w)).flatten)⟩)) := by
  constructor
  · intro h
    unfold Reaction.fromText
    split
    · rename_i hs; rw [hs] at h; simp only [List.length_cons] at h; omega
    · rfl
  · intro p m d rest hs
    unfold Reaction.fromText
    rw [hs]
    exact ⟨fun h => by simp [h], fun n h => by simp [h]⟩

example : Reaction.fromText "26054.99c 102".toList = .error .indexError ∧
    Reaction.fromText "26054.99c x 26055".toList = .error .valueError ∧
    (∃ c, Reaction.fromText "26054.99c 102 26055 Fe".toList = .ok ⟨"26054.99c".toList, 102, "26055".toList, c⟩) :=
  ⟨by decide, by decide, ⟨some "Fe".toList, by decide⟩⟩

/-- **C23** (the line with the number of schedules). A line gives the number of schedules exactly
when its first three characters are `nsc` in any case (`ſ`, U+017F, counts as an `s`). -/
theorem c23_nsc_line (l : Str) :
    isNscLine l = true ↔ ∃ a ∈ ['n', 'N'], ∃ b ∈ ['s', 'S', 'ſ'], ∃ c ∈ ['c', 'C'], [a, b, c] <+: l := by
  constructor
  · intro h
    unfold isNscLine at h
    split at h
    · rename_i a b c r
      simp only [Bool.and_eq_true, Bool.or_eq_true, beq_iff_eq] at h
      obtain ⟨⟨ha, hb⟩, hc⟩ := h
      exact ⟨a, by simpa using ha, b, by simpa [or_assoc] using hb, c, by simpa using hc, r, rfl⟩
    · cases h
  · rintro ⟨a, ha, b, hb, c, hc, r, rfl⟩
    simp only [List.mem_cons, List.not_mem_nil, or_false] at ha hb hc
    simp only [isNscLine, List.cons_append, List.nil_append, Bool.and_eq_true, Bool.or_eq_true, beq_iff_eq]
    exact ⟨⟨ha, by tauto⟩, hc⟩

/-! ## the library of a dictionary -/

/-- a library name as the pattern wants it: two digits and a letter (specification) -/
def IsLibName (l : Str) : Prop := ∃ a b c, l = [a, b, c] ∧ isDigit a = true ∧ isDigit b = true ∧ c.isAlpha = true

theorem findLibs_skip {pre : Str} (hp : '"' ∉ pre) (rest : Str) :
    findLibs (pre ++ rest) = findLibs rest ∨ rest = [] := by
  induction pre with
  | nil => left; rfl
  | cons c cs ih =>
    simp only [List.mem_cons, not_or] at hp
    have hstep : findLibs (c :: (cs ++ rest)) = findLibs (cs ++ rest) := by
      rcases hcr : cs ++ rest with _ | ⟨a, _ | ⟨b, _ | ⟨l, _ | ⟨q, r⟩⟩⟩⟩
      · simp [findLibs]
      · simp [findLibs]
      · simp [findLibs]
      · simp [findLibs]
      · rw [findLibs, if_neg]
        rintro ⟨h, -⟩; exact hp.1 h.symm
    rw [List.cons_append, hstep]
    exact ih hp.2

theorem findLibs_none {s : Str} (hs : '"' ∉ s) : findLibs s = [] := by
  rcases findLibs_skip hs [] with h | h
  · simpa [findLibs] using h
  · have : ∀ t : Str, '"' ∉ t → findLibs t = [] := by
      intro t
      induction t with
      | nil => intro _; simp [findLibs]
      | cons c cs ih =>
        intro ht
        simp only [List.mem_cons, not_or] at ht
        rcases cs with _ | ⟨a, _ | ⟨b, _ | ⟨l, _ | ⟨q, r⟩⟩⟩⟩
        · simp [findLibs]
        · simp [findLibs]
        · simp [findLibs]
        · simp [findLibs]
        · rw [findLibs, if_neg (by rintro ⟨h, -⟩; exact ht.1 h.symm)]
          exact ih ht.2
    exact this s hs

theorem findLibs_quoted {l : Str} (hl : IsLibName l) (rest : Str) :
    findLibs ('"' :: l ++ '"' :: rest) = l :: findLibs rest := by
  obtain ⟨a, b, c, rfl, h1, h2, h3⟩ := hl
  rw [show '"' :: [a, b, c] ++ '"' :: rest = '"' :: a :: b :: c :: '"' :: rest from rfl, findLibs,
    if_pos ⟨rfl, h1, h2, h3, rfl⟩]

/-- **C26** (dictionary form). The library taken from a dictionary written as text is the second
quoted library name, i.e. the *value* of the first entry; text without two quoted names is refused
with `IndexError`, as is the empty text. -/
theorem c26_dict_choice :
    (∀ (pre mid rest l1 l2 : Str), '"' ∉ pre → '"' ∉ mid → IsLibName l1 → IsLibName l2 →
      chooseLib ('{' :: pre ++ ('"' :: l1 ++ '"' :: (mid ++ ('"' :: l2 ++ '"' :: rest)))) = .ok l2) ∧
    (∀ (pre l1 rest : Str), '"' ∉ pre → '"' ∉ rest → IsLibName l1 →
      chooseLib ('{' :: pre ++ ('"' :: l1 ++ '"' :: rest)) = .error .indexError) ∧
    (∀ s : Str, '"' ∉ s → chooseLib ('{' :: s) = .error .indexError) ∧
    chooseLib [] = .error .indexError := by
  refine ⟨fun pre mid rest l1 l2 hp hm h1 h2 => ?_, fun pre l1 rest hp hr h1 => ?_, fun s hs => ?_, rfl⟩
  · have hp' : '"' ∉ '{' :: pre := by simp [hp]
    have e : findLibs ('{' :: pre ++ ('"' :: l1 ++ '"' :: (mid ++ ('"' :: l2 ++ '"' :: rest)))) =
        l1 :: l2 :: findLibs rest := by
      rcases findLibs_skip hp' ('"' :: l1 ++ '"' :: (mid ++ ('"' :: l2 ++ '"' :: rest))) with h | h
      · rw [h, findLibs_quoted h1]
        rcases findLibs_skip hm ('"' :: l2 ++ '"' :: rest) with h' | h'
        · rw [h', findLibs_quoted h2]
        · simp at h'
      · simp at h
    simp only [List.cons_append, chooseLib] at e ⊢
    rw [e]
  · have hp' : '"' ∉ '{' :: pre := by simp [hp]
    have e : findLibs ('{' :: pre ++ ('"' :: l1 ++ '"' :: rest)) = [l1] := by
      rcases findLibs_skip hp' ('"' :: l1 ++ '"' :: rest) with h | h
      · rw [h, findLibs_quoted h1, findLibs_none hr]
      · simp at h
    simp only [List.cons_append, chooseLib] at e ⊢
    rw [e]
  · have e := findLibs_none (s := '{' :: s) (by simp [hs])
    simp only [chooseLib]
    rw [e]

example : IsLibName "98c".toList ∧ '"' ∉ ": ".toList := ⟨⟨'9', '8', 'c', rfl, by decide, by decide, by decide⟩, by decide⟩

end F4Enix.D1S
