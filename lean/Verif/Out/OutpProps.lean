import Verif.Out.Outp
import Verif.Base.TextLemmas
/-!
# C43, C44, C80, C81: statistical checks in brief, warnings, fatal errors
-/
namespace F4Enix.Outp
open F4Enix F4Enix.Find

/-! ## C43: the outcome of the statistical checks of every tally -/

/-- Has the heading of the section. (specification) -/
def IsHeading (l : Str) : Prop := "result of statistical checks".toList <:+: l

/-- Has the words that close the section. (specification) -/
def IsClosing (l : Str) : Prop := "the 10 statistical checks are only".toList <:+: l

/-- A line inside the section: no heading, and the closing words only where a number is at the beginning. (specification) -/
def Interior (l : Str) : Prop := ¬ IsHeading l ∧ (tallyNumber l = none → ¬ IsClosing l)

/-- What a line of the section says about tally `n`. (specification) -/
def Says (n : Nat) (r : Check) (l : Str) : Prop := tallyNumber l = some n ∧ outcome l = some r

/-- entries of the lines that name a tally and an outcome (proof) -/
def entries (body : List Str) : List (Nat × Check) :=
  body.filterMap (fun l => match tallyNumber l, outcome l with
    | some n, some r => some (n, r)
    | _, _ => none)

/-- `storeAll` (proof) -/
def storeAll (d : Dict Nat Check) (es : List (Nat × Check)) : Dict Nat Check := es.foldl (fun d e => Dict.set d e.1 e.2) d

/-- variable `result` after these lines (proof) -/
def resAfter (res : Option Check) (body : List Str) : Option Check :=
  match (entries body).getLast? with
  | none => res
  | some e => some e.2

theorem tfc_pre (pre rest : List Str) (res : Option Check) (d : Dict Nat Check) (h : ∀ l ∈ pre, ¬ IsHeading l) :
    tfcLoop (pre ++ rest) false res d = tfcLoop rest false res d := by
  induction pre with
  | nil => rfl
  | cons l pre ih =>
    have h1 : ¬ contains "result of statistical checks".toList l = true := by rw [contains_iff]; exact h l (by simp)
    rw [List.cons_append, tfcLoop, if_neg h1, if_neg (by simp)]
    exact ih (fun x hx => h x (by simp [hx]))

theorem getLast?_cons_ne {α : Type} (a : α) (l : List α) (b : α) (h : l.getLast? = some b) : (a :: l).getLast? = some b := by
  cases l with
  | nil => simp at h
  | cons c l => simpa using h

theorem resAfter_cons (l : Str) (body : List Str) (res : Option Check) :
    resAfter res (l :: body) = resAfter (match tallyNumber l, outcome l with | some _, some r => some r | _, _ => res) body := by
  unfold resAfter entries
  cases hn : tallyNumber l with
  | none => simp [hn]
  | some n =>
    cases ho : outcome l with
    | none => simp [hn, ho]
    | some r =>
      simp only [List.filterMap_cons, hn, ho]
      cases hl : (List.filterMap (fun l => match tallyNumber l, outcome l with
          | some n, some r => some (n, r)
          | _, _ => none) body).getLast? with
      | none =>
        have := List.getLast?_eq_none_iff.mp hl
        rw [this]; rfl
      | some b => rw [getLast?_cons_ne _ _ _ hl]

theorem tfc_body (body rest : List Str) (res : Option Check) (d : Dict Nat Check) (h : ∀ l ∈ body, Interior l)
    (hk : ∀ l ∈ body, ∀ n, tallyNumber l = some n → outcome l ≠ none) :
    tfcLoop (body ++ rest) true res d = tfcLoop rest true (resAfter res body) (storeAll d (entries body)) := by
  induction body generalizing res d with
  | nil => rfl
  | cons l body ih =>
    have h1 : ¬ contains "result of statistical checks".toList l = true := by rw [contains_iff]; exact (h l (by simp)).1
    rw [List.cons_append, tfcLoop, if_neg h1, if_pos rfl]
    have ih' := fun res d => ih res d (fun x hx => h x (by simp [hx])) (fun x hx => hk x (by simp [hx]))
    cases hn : tallyNumber l with
    | none =>
      have h2 : ¬ contains "the 10 statistical checks are only".toList l = true := by
        rw [contains_iff]; exact (h l (by simp)).2 hn
      simp only
      rw [if_neg h2, ih', resAfter_cons]
      simp [hn, entries]
    | some n =>
      cases ho : outcome l with
      | none => exact absurd ho (hk l (by simp) n hn)
      | some r =>
        simp only
        rw [ih', resAfter_cons]
        simp [hn, ho, entries, storeAll]

theorem get?_storeAll (es : List (Nat × Check)) (d : Dict Nat Check) (n : Nat) :
    Dict.get? (storeAll d es) n = match (es.filter (fun e => decide (e.1 = n))).getLast? with
      | none => Dict.get? d n
      | some e => some e.2 := by
  induction es generalizing d with
  | nil => rfl
  | cons e es ih =>
    unfold storeAll at ih ⊢
    rw [List.foldl_cons, ih]
    by_cases he : e.1 = n
    · rw [List.filter_cons_of_pos (by simp [he])]
      cases hl : (es.filter (fun e => decide (e.1 = n))).getLast? with
      | none =>
        have := List.getLast?_eq_none_iff.mp hl
        rw [this]; simp [he]
      | some b => rw [getLast?_cons_ne _ _ _ hl]
    · rw [List.filter_cons_of_neg (by simp [he])]
      simp [Dict.get?_set, he]

theorem entries_filter (body : List Str) (n : Nat) (hk : ∀ l ∈ body, ∀ n, tallyNumber l = some n → outcome l ≠ none) :
    ((entries body).filter (fun e => decide (e.1 = n))).map (fun e => some e.2) =
      (body.filter (fun l => decide (tallyNumber l = some n))).map outcome := by
  induction body with
  | nil => rfl
  | cons l body ih =>
    have ih' := ih (fun x hx => hk x (by simp [hx]))
    unfold entries at ih' ⊢
    cases hn : tallyNumber l with
    | none => simpa [hn] using ih'
    | some m =>
      cases ho : outcome l with
      | none => exact absurd ho (hk l (by simp) m hn)
      | some r =>
        by_cases hm : m = n
        · simpa [hn, ho, hm] using ih'
        · simpa [hn, ho, hm] using ih'

/-- C43. The section between the heading and the closing words, in which every line that begins with a number says
an outcome: the dictionary has, for every tally number, the outcome of the last line of the section that begins with
that number, and nothing for the numbers that begin no line. What comes after the closing line plays no part. -/
theorem tfc_exact_partial (pre body post : List Str) (heading closing : Str) (hpre : ∀ l ∈ pre, ¬ IsHeading l)
    (hhead : IsHeading heading) (hbody : ∀ l ∈ body, Interior l)
    (hk : ∀ l ∈ body, ∀ n, tallyNumber l = some n → outcome l ≠ none)
    (hclose : IsClosing closing ∧ ¬ IsHeading closing ∧ tallyNumber closing = none) :
    ∃ d, tfcBins (pre ++ heading :: (body ++ closing :: post)) = .ok d ∧
      ∀ n, Dict.get? d n = ((body.filter (fun l => decide (tallyNumber l = some n))).getLast?).bind outcome := by
  refine ⟨storeAll [] (entries body), ?_, ?_⟩
  · unfold tfcBins
    rw [tfc_pre pre _ _ _ hpre, tfcLoop, if_pos ((contains_iff _ _).mpr hhead), tfc_body body _ _ _ hbody hk, tfcLoop,
      if_neg (by rw [contains_iff]; exact hclose.2.1), if_pos rfl, hclose.2.2]
    simp only
    rw [if_pos ((contains_iff _ _).mpr hclose.1)]
  · intro n
    rw [get?_storeAll]
    have hm := entries_filter body n hk
    have hl := congrArg List.getLast? hm
    rw [List.getLast?_map, List.getLast?_map] at hl
    cases h1 : ((entries body).filter (fun e => decide (e.1 = n))).getLast? with
    | none =>
      rw [h1] at hl
      cases h2 : (body.filter (fun l => decide (tallyNumber l = some n))).getLast? with
      | none => rfl
      | some l => rw [h2] at hl; simp at hl
    | some e =>
      rw [h1] at hl
      cases h2 : (body.filter (fun l => decide (tallyNumber l = some n))).getLast? with
      | none => rw [h2] at hl; simp at hl
      | some l => rw [h2] at hl; simpa using hl

/-- C43 in its simplest form: a tally with one line in the section gets the outcome on that line. -/
theorem tfc_one_line_partial (pre b1 b2 post : List Str) (heading closing l : Str) (n : Nat) (r : Check)
    (hpre : ∀ l ∈ pre, ¬ IsHeading l) (hhead : IsHeading heading) (hbody : ∀ x ∈ b1 ++ l :: b2, Interior x)
    (hk : ∀ x ∈ b1 ++ l :: b2, ∀ n, tallyNumber x = some n → outcome x ≠ none)
    (hclose : IsClosing closing ∧ ¬ IsHeading closing ∧ tallyNumber closing = none)
    (hl : Says n r l) (hone : ∀ x ∈ b2, tallyNumber x ≠ some n) :
    ∃ d, tfcBins (pre ++ heading :: ((b1 ++ l :: b2) ++ closing :: post)) = .ok d ∧ Dict.get? d n = some r := by
  obtain ⟨d, h1, h2⟩ := tfc_exact_partial pre (b1 ++ l :: b2) post heading closing hpre hhead hbody hk hclose
  refine ⟨d, h1, ?_⟩
  rw [h2 n]
  have h3 : (b2.filter (fun x => decide (tallyNumber x = some n))) = [] := by
    rw [List.filter_eq_nil_iff]; intro x hx; simpa using hone x hx
  rw [List.filter_append, List.filter_cons_of_pos (by simp [hl.1]), h3]
  simp [hl.2]

/-- C43 is false as soon as a tally line says none of the three outcomes: the tally is given the outcome of the tally
listed before it. -/
theorem tfc_stale (pre b1 mid b2 post : List Str) (heading closing l1 l2 : Str) (n m : Nat) (r : Check)
    (hpre : ∀ l ∈ pre, ¬ IsHeading l) (hhead : IsHeading heading)
    (hb1 : ∀ x ∈ b1, Interior x ∧ ∀ n, tallyNumber x = some n → outcome x ≠ none) (hl1 : Interior l1) (hs1 : Says n r l1)
    (hmid : ∀ x ∈ mid, Interior x ∧ tallyNumber x = none)
    (hl2 : Interior l2) (hs2 : tallyNumber l2 = some m) (hno : outcome l2 = none)
    (hb2 : ∀ x ∈ b2, Interior x ∧ tallyNumber x ≠ some m ∧ ∀ n, tallyNumber x = some n → outcome x ≠ none)
    (hclose : IsClosing closing ∧ ¬ IsHeading closing ∧ tallyNumber closing = none) :
    ∃ d, tfcBins (pre ++ heading :: ((b1 ++ l1 :: mid) ++ l2 :: (b2 ++ closing :: post))) = .ok d ∧ Dict.get? d m = some r := by
  have hI : ∀ x ∈ b1 ++ l1 :: mid, Interior x := by
    intro x hx
    simp only [List.mem_append, List.mem_cons] at hx
    rcases hx with hx | hx | hx
    · exact (hb1 x hx).1
    · exact hx ▸ hl1
    · exact (hmid x hx).1
  have hK : ∀ x ∈ b1 ++ l1 :: mid, ∀ n, tallyNumber x = some n → outcome x ≠ none := by
    intro x hx
    simp only [List.mem_append, List.mem_cons] at hx
    rcases hx with hx | hx | hx
    · exact (hb1 x hx).2
    · subst hx; intro _ _; rw [hs1.2]; simp
    · intro n hn; rw [(hmid x hx).2] at hn; cases hn
  have he : entries (b1 ++ l1 :: mid) = entries b1 ++ [(n, r)] := by
    have hm : entries mid = [] := by
      unfold entries
      rw [List.filterMap_eq_nil_iff]
      intro x hx; rw [(hmid x hx).2]
    unfold entries at hm ⊢
    rw [List.filterMap_append, List.filterMap_cons, hm, hs1.1, hs1.2]
  have hr : resAfter none (b1 ++ l1 :: mid) = some r := by
    unfold resAfter; rw [he, List.getLast?_concat]
  refine ⟨storeAll (Dict.set (storeAll [] (entries (b1 ++ l1 :: mid))) m r) (entries b2), ?_, ?_⟩
  · unfold tfcBins
    rw [tfc_pre pre _ _ _ hpre, tfcLoop, if_pos ((contains_iff _ _).mpr hhead), tfc_body _ _ _ _ hI hK, hr, tfcLoop,
      if_neg (by rw [contains_iff]; exact hl2.1), if_pos rfl, hs2]
    simp only [hno]
    rw [tfc_body b2 _ _ _ (fun x hx => (hb2 x hx).1) (fun x hx => (hb2 x hx).2.2), tfcLoop,
      if_neg (by rw [contains_iff]; exact hclose.2.1), if_pos rfl, hclose.2.2]
    simp only
    rw [if_pos ((contains_iff _ _).mpr hclose.1)]
  · rw [get?_storeAll]
    have : (entries b2).filter (fun e => decide (e.1 = m)) = [] := by
      have h := entries_filter b2 m (fun x hx => (hb2 x hx).2.2)
      have h2 : (b2.filter (fun l => decide (tallyNumber l = some m))) = [] := by
        rw [List.filter_eq_nil_iff]; intro x hx; simpa using (hb2 x hx).2.1
      rw [h2] at h
      simpa using h
    rw [this]; simp

/-- C43: if the first tally line says none of the three outcomes the reader crashes. -/
theorem tfc_unbound (pre mid post : List Str) (heading l : Str) (m : Nat) (hpre : ∀ l ∈ pre, ¬ IsHeading l)
    (hhead : IsHeading heading) (hmid : ∀ x ∈ mid, Interior x ∧ tallyNumber x = none)
    (hl : Interior l) (hs : tallyNumber l = some m) (hno : outcome l = none) :
    tfcBins (pre ++ heading :: (mid ++ l :: post)) = .error .unboundLocal := by
  unfold tfcBins
  have hm : entries mid = [] := by
    unfold entries
    rw [List.filterMap_eq_nil_iff]
    intro x hx; rw [(hmid x hx).2]
  rw [tfc_pre pre _ _ _ hpre, tfcLoop, if_pos ((contains_iff _ _).mpr hhead),
    tfc_body mid _ _ _ (fun x hx => (hmid x hx).1) (fun x hx n hn => by rw [(hmid x hx).2] at hn; cases hn), tfcLoop,
    if_neg (by rw [contains_iff]; exact hl.1), if_pos rfl, hs]
  simp only [hno, resAfter, hm, List.getLast?_nil]

/-- `exHeading` (example) -/
def exHeading : Str := " tally   result of statistical checks for the tfc bin\n".toList
/-- `exClosing` (example) -/
def exClosing : Str := " the 10 statistical checks are only suggestions\n".toList
/-- `exBody` (example) -/
def exBody : List Str :=
  ["\n".toList, "        2   passed the 10 statistical checks for the tally fluctuation chart bin result\n".toList,
   "         missed all bin error check:   176 tally bins had\n".toList,
   "        4   no nonzero tallies were made in the tally fluctuation chart bin\n".toList,
   "       14   missed  3 of 10 tfc bin checks\n".toList]

/-- the hypotheses of `tfc_exact_partial` are met by a section of a real output -/
example : tfcBins (["1status\n".toList] ++ exHeading :: (exBody ++ exClosing :: ["   9 passed\n".toList])) =
    .ok [(2, .passed), (4, .allZeros), (14, .missed)] := by decide +kernel

example : (∀ l ∈ exBody, Interior l) ∧ (∀ l ∈ exBody, ∀ n, tallyNumber l = some n → outcome l ≠ none) ∧ IsHeading exHeading ∧
    (IsClosing exClosing ∧ ¬ IsHeading exClosing ∧ tallyNumber exClosing = none) := by
  unfold Interior IsHeading IsClosing
  refine ⟨?_, ?_, ?_, ?_, ?_, ?_⟩
  · simp only [← contains_iff]; decide +kernel
  · have : ∀ l ∈ exBody, outcome l ≠ none ∨ tallyNumber l = none := by decide +kernel
    intro l hl n hn h
    rcases this l hl with h1 | h1
    · exact h1 h
    · rw [h1] at hn; cases hn
  · rw [← contains_iff]; decide +kernel
  · rw [← contains_iff]; decide +kernel
  · rw [← contains_iff]; decide +kernel
  · decide +kernel

/-- and those of `tfc_stale` and `tfc_unbound` -/
example : tfcBins [exHeading, "   2  passed\n".toList, "   4  1 bin error\n".toList, exClosing] = .ok [(2, .passed), (4, .passed)] ∧
    tfcBins [exHeading, "   4  1 bin error\n".toList, "   2  passed\n".toList, exClosing] = .error .unboundLocal := by
  decide +kernel

/-! ## C44, C80: warnings -/

/-- C44 is false: every line with a warning is reported, the "uninteresting" ones too: the text reported for a line
which is none of the two general kinds is the line without the words `warning.` and without surrounding blanks. -/
theorem uninteresting_reported (lines : List Str) (l : Str) (collapse : Bool) (hl : l ∈ lines)
    (hw : warnMark <:+: l)
    (hg : ¬ (unusedMark <:+: l) ∧ ¬ (replacedMark <:+: l)) :
    ∃ k, 0 < k ∧ (strip (removeAll warnMark 0 l), k) ∈ getWarnings collapse lines := by
  have ht : warningText collapse l = strip (removeAll warnMark 0 l) := by
    have h1 : contains unusedMark l = false := by
      rw [Bool.eq_false_iff]; intro h; exact hg.1 ((contains_iff _ _).mp h)
    have h2 : contains replacedMark l = false := by
      rw [Bool.eq_false_iff]; intro h; exact hg.2 ((contains_iff _ _).mp h)
    unfold warningText notInteresting general
    simp only [List.foldl_cons, List.foldl_nil, h1]
    simp [h2]
  have hm : strip (removeAll warnMark 0 l) ∈ warningList collapse lines := by
    unfold warningList
    rw [List.mem_map]
    exact ⟨l, by rw [List.mem_filter]; exact ⟨hl, (contains_iff _ _).mpr hw⟩, ht⟩
  refine ⟨(warningList collapse lines).count (strip (removeAll warnMark 0 l)), List.count_pos_iff.mpr hm, ?_⟩
  unfold getWarnings groupSizes
  rw [List.mem_map]
  exact ⟨_, by simpa [List.mem_insertionSort] using hm, rfl⟩

/-- The text under which a warning is counted. (specification) -/
def RecordedAs (collapse : Bool) (l t : Str) : Prop :=
  if collapse = true ∧ replacedMark <:+: l ∧ ¬ (unusedMark <:+: l) then
    t = replacedName
  else if collapse = true ∧ unusedMark <:+: l then t = unusedName
  else t = strip (removeAll warnMark 0 l)

theorem warningText_spec (collapse : Bool) (l : Str) : RecordedAs collapse l (warningText collapse l) := by
  unfold RecordedAs warningText notInteresting general
  simp only [List.foldl_cons, List.foldl_nil]
  cases collapse with
  | false => simp
  | true =>
    by_cases h1 : contains unusedMark l = true
    · have h1' := (contains_iff _ _).mp h1
      rw [if_neg (by simp only [h1', not_true_eq_false, and_false, not_false_eq_true]), if_pos ⟨rfl, h1'⟩]
      simp only [h1, if_true]
      decide +kernel
    · have h1' : ¬ unusedMark <:+: l := fun h => h1 ((contains_iff _ _).mpr h)
      simp only [if_true, h1]
      by_cases h2 : contains replacedMark l = true
      · have h2' := (contains_iff _ _).mp h2
        rw [if_pos ⟨trivial, h2', h1'⟩]
        simp only [Bool.false_eq_true, if_false, h2, if_true]
        decide +kernel
      · have h2' : ¬ replacedMark <:+: l := fun h => h2 ((contains_iff _ _).mpr h)
        rw [if_neg (by simp only [h2', false_and, and_false, not_false_eq_true]), if_neg (by simp only [h1', and_false, not_false_eq_true])]
        simp only [Bool.false_eq_true, if_false, h2]

theorem recordedAs_unique {collapse : Bool} {l t t' : Str} (h : RecordedAs collapse l t) (h' : RecordedAs collapse l t') : t = t' := by
  unfold RecordedAs at h h'
  split at h <;> rename_i h1
  · rw [if_pos h1] at h'; rw [h, h']
  · rw [if_neg h1] at h'
    split at h <;> rename_i h2
    · rw [if_pos h2] at h'; rw [h, h']
    · rw [if_neg h2] at h'; rw [h, h']

open Classical in
/-- C80: `get_warnings` has one entry per text, and its number is the number of lines with a warning recorded under
that text. -/
theorem warnings_exact (collapse : Bool) (lines : List Str) (t : Str) (k : Nat) :
    (t, k) ∈ getWarnings collapse lines ↔
      0 < k ∧ k = (lines.filter (fun l => decide (warnMark <:+: l ∧ RecordedAs collapse l t))).length := by
  have hc : (warningList collapse lines).count t =
      (lines.filter (fun l => decide (warnMark <:+: l ∧ RecordedAs collapse l t))).length := by
    unfold warningList
    induction lines with
    | nil => rfl
    | cons l lines ih =>
      by_cases hw : contains warnMark l = true
      · have hw' := (contains_iff _ _).mp hw
        rw [List.filter_cons_of_pos hw, List.map_cons, List.count_cons, ih]
        by_cases ht : warningText collapse l = t
        · have : RecordedAs collapse l t := ht ▸ warningText_spec collapse l
          rw [List.filter_cons_of_pos (by simp only [hw', this, and_self, decide_true])]
          simp [ht]
        · have : ¬ RecordedAs collapse l t := fun h => ht (recordedAs_unique (warningText_spec collapse l) h)
          rw [List.filter_cons_of_neg (by simp only [this, and_false, decide_false]; simp)]
          simp [ht]
      · have hw' : ¬ warnMark <:+: l := fun h => hw ((contains_iff _ _).mpr h)
        rw [List.filter_cons_of_neg hw, ih, List.filter_cons_of_neg (by simp only [hw', false_and, decide_false]; simp)]
  unfold getWarnings groupSizes
  rw [List.mem_map, ← hc]
  constructor
  · rintro ⟨t', ht', he⟩
    simp only [Prod.mk.injEq] at he
    obtain ⟨rfl, rfl⟩ := he
    exact ⟨List.count_pos_iff.mpr (by simpa [List.mem_insertionSort] using ht'), rfl⟩
  · rintro ⟨h1, h2⟩
    refine ⟨t, ?_, by rw [h2]⟩
    have := List.count_pos_iff.mp (h2 ▸ h1)
    simpa [List.mem_insertionSort] using this

/-- C80: no text is listed twice. -/
theorem warnings_distinct (collapse : Bool) (lines : List Str) : ((getWarnings collapse lines).map Prod.fst).Nodup := by
  unfold getWarnings groupSizes
  rw [List.map_map]
  have : (Prod.fst ∘ fun t => (t, (warningList collapse lines).count t)) = id := by funext t; rfl
  rw [this, List.map_id]
  exact (List.perm_insertionSort _ _).nodup_iff.2 (List.nodup_dedup _)

theorem textLe_total (s t : Str) : textLe s t = true ∨ textLe t s = true := by
  induction s generalizing t with
  | nil => exact .inl rfl
  | cons a s ih =>
    cases t with
    | nil => exact .inr rfl
    | cons b t =>
      by_cases h : a = b
      · subst h; simpa [textLe] using ih t
      · have : a.toNat ≠ b.toNat := fun e => h (Char.toNat_inj.1 e)
        simp only [textLe, if_neg h, if_neg (Ne.symm h), decide_eq_true_eq]
        omega

/-- the order of texts: the first one is a beginning of the other, or has the smaller character at the first difference -/
theorem textLe_iff (s t : Str) : textLe s t = true ↔ s <+: t ∨
    ∃ p a b s' t', s = p ++ a :: s' ∧ t = p ++ b :: t' ∧ a.toNat < b.toNat := by
  induction s generalizing t with
  | nil => simp [textLe]
  | cons a s ih =>
    cases t with
    | nil => simp [textLe]
    | cons b t =>
      by_cases h : a = b
      · subst h
        simp only [textLe, if_true, ih t, List.cons_prefix_cons, true_and]
        refine or_congr_right ⟨?_, ?_⟩
        · rintro ⟨p, x, y, s', t', rfl, rfl, hx⟩
          exact ⟨a :: p, x, y, s', t', rfl, rfl, hx⟩
        · rintro ⟨p, x, y, s', t', h1, h2, hx⟩
          cases p with
          | nil =>
            simp only [List.nil_append, List.cons.injEq] at h1 h2
            rw [← h1.1, ← h2.1] at hx
            omega
          | cons q p =>
            simp only [List.cons_append, List.cons.injEq] at h1 h2
            exact ⟨p, x, y, s', t', h1.2, h2.2, hx⟩
      · simp only [textLe, List.cons_prefix_cons, h, false_and, false_or, if_false, decide_eq_true_eq]
        constructor
        · intro hx; exact ⟨[], a, b, s, t, rfl, rfl, hx⟩
        · rintro ⟨p, x, y, s', t', h1, h2, hx⟩
          cases p with
          | nil =>
            simp only [List.nil_append, List.cons.injEq] at h1 h2
            rw [h1.1, h2.1]; exact hx
          | cons q p =>
            simp only [List.cons_append, List.cons.injEq] at h1 h2
            exact absurd (h1.1.trans h2.1.symm) h

theorem textLe_trans {s t u : Str} (h1 : textLe s t = true) (h2 : textLe t u = true) : textLe s u = true := by
  induction s generalizing t u with
  | nil => rfl
  | cons a s ih =>
    cases t with
    | nil => cases h1
    | cons b t =>
      cases u with
      | nil => cases h2
      | cons c u =>
        by_cases hab : a = b
        · subst hab
          by_cases hac : a = c
          · subst hac
            simp only [textLe, if_true] at h1 h2 ⊢
            exact ih h1 h2
          · simp only [textLe, if_neg hac] at h2 ⊢
            exact h2
        · by_cases hbc : b = c
          · subst hbc
            simp only [textLe, if_neg hab] at h1 ⊢
            exact h1
          · simp only [textLe, if_neg hab, if_neg hbc, decide_eq_true_eq] at h1 h2 ⊢
            have hac : a ≠ c := by rintro rfl; omega
            rw [if_neg hac, decide_eq_true_eq]; omega

instance : Std.Total (fun a b : Str => textLe a b = true) := ⟨fun a b => textLe_total a b⟩
instance : IsTrans Str (fun a b => textLe a b = true) := ⟨fun _ _ _ h1 h2 => textLe_trans h1 h2⟩

/-- **C80.** The warnings are listed in the order of their texts. -/
theorem warnings_order (collapse : Bool) (lines : List Str) :
    ((getWarnings collapse lines).map Prod.fst).Pairwise (fun s t => s <+: t ∨
      ∃ p a b s' t', s = p ++ a :: s' ∧ t = p ++ b :: t' ∧ a.toNat < b.toNat) := by
  unfold getWarnings groupSizes
  rw [List.map_map]
  have : (Prod.fst ∘ fun t => (t, (warningList collapse lines).count t)) = id := by funext t; rfl
  rw [this, List.map_id]
  exact (List.pairwise_insertionSort _ _).imp (fun h => (textLe_iff _ _).1 h)

/-- a warning declared uninteresting, unused surfaces and a repeated one -/
example : getWarnings true
    ["  warning.  10 materials so far\n".toList, "  warning. surface 5 is not used for anything.\n".toList, "nothing\n".toList,
     "  warning. surface 6 is not used for anything.\n".toList] =
    [("10 materials so far".toList, 1), (unusedName, 2)] := by decide +kernel

/-! ## C81: fatal errors -/

theorem lastPiece_app (t s acc : Str) :
    (∀ a b, a ++ b = t → b ≠ [] → fatalMark.isPrefixOf (b ++ s) = false) →
    lastPiece fatalMark 0 (t ++ s) acc = lastPiece fatalMark 0 s (acc ++ t) := by
  induction t generalizing acc with
  | nil => intro _; simp
  | cons c t ih =>
    intro h
    have h1 := h [] (c :: t) rfl (by simp)
    rw [List.cons_append] at h1
    rw [List.cons_append, lastPiece, if_neg (by rw [h1]; simp), ih _ (fun a b hab hb => h (c :: a) b (by simp [hab]) hb)]
    simp

theorem lastPiece_skip (sub t s acc : Str) : lastPiece sub t.length (t ++ s) acc = lastPiece sub 0 s acc := by
  induction t with
  | nil => rfl
  | cons c t ih => rw [List.length_cons, List.cons_append, lastPiece, ih]

/-- C81: a line made of blanks, `fatal error.` and a message (without these words) gives the message, stripped; lines
that do not begin with blanks followed by `fatal error` give nothing; the order is kept. -/
theorem fatal_exact (lines : List Str) :
    (fatalErrors lines).length = (lines.filter isFatal).length ∧
    ∀ (k : Nat) (l blanks msg : Str), (lines.filter isFatal)[k]? = some l → blanks ≠ [] → (∀ c ∈ blanks, isSpace c = true) →
      l = blanks ++ fatalMark ++ msg → ¬ (fatalMark <:+: msg) →
      (fatalErrors lines)[k]? = some (strip msg) := by
  refine ⟨by simp [fatalErrors], ?_⟩
  intro k l blanks msg hk hne hb hl hm
  unfold fatalErrors
  rw [List.getElem?_map, hk, hl]
  simp only [Option.map_some, Option.some.injEq]
  have h1 : lastPiece fatalMark 0 (blanks ++ (fatalMark ++ msg)) [] =
      lastPiece fatalMark 0 (fatalMark ++ msg) ([] ++ blanks) := by
    apply lastPiece_app
    intro a b hab hb2
    cases b with
    | nil => exact absurd rfl hb2
    | cons c b =>
      have : isSpace c = true := hb c (by rw [← hab]; simp)
      have hc : c ≠ 'f' := by intro h; subst h; revert this; decide
      have e : fatalMark = 'f' :: "atal error.".toList := by decide
      rw [e, List.cons_append, List.isPrefixOf]
      simp [Ne.symm hc]
  rw [List.append_assoc, h1]
  have e : fatalMark = 'f' :: "atal error.".toList := by decide
  have h2 : lastPiece fatalMark 0 (fatalMark ++ msg) ([] ++ blanks) = lastPiece fatalMark 0 msg [] := by
    conv_lhs => arg 3; rw [e, List.cons_append]
    rw [lastPiece, if_pos (by rw [List.isPrefixOf_iff_prefix, ← List.cons_append, ← e]; exact List.prefix_append _ _)]
    exact lastPiece_skip fatalMark "atal error.".toList msg []
  rw [h2]
  have h3 := lastPiece_app msg [] []
  rw [List.append_nil] at h3
  rw [h3]
  · simp [lastPiece]
  · intro a b hab hb2
    rw [Bool.eq_false_iff]
    intro h
    rw [List.append_nil, List.isPrefixOf_iff_prefix] at h
    obtain ⟨t, ht⟩ := h
    exact hm ⟨a, t, by rw [← hab, ← ht]; simp⟩

example : fatalErrors ["  fatal error.  1 tally volumes or areas were not input\n".toList, " ok\n".toList, "fatal error. not at the margin\n".toList] =
    ["1 tally volumes or areas were not input".toList] := by decide +kernel

end F4Enix.Outp
