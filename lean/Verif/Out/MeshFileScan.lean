import Verif.Out.MeshFile
import Verif.Out.MeshtalRead
import Mathlib.Data.List.Induction
/-!
# Finding the tallies of a meshtal file, their heads and their bins (C163, C164)
-/
namespace F4Enix.MeshFile
open F4Enix F4Enix.Mesh F4Enix.Find

/-! ### what a file looks like -/

/-- a line with nothing but blanks (specification) -/
def IsBlank (l : Str) : Prop := ∃ k, l = List.replicate k ' ' ++ ['\n']

/-- a line with something to see on it (specification) -/
def Visible (l : Str) : Prop := ∃ c ∈ l, c ≠ ' ' ∧ c ≠ '\n'

/-- the line that begins tally `n`: the number ends within the first thirty columns (specification) -/
def NumberLine (n : Nat) (l : Str) : Prop :=
  ∃ k, l = " Mesh Tally Number".toList ++ List.replicate k ' ' ++ natStr n ++ ['\n'] ∧ k + (natStr n).length ≤ 12

/-- the parts of the text of a tally (specification) -/
structure TallyText where
  first : Str
  comment : List Str
  kind : Str
  more : List Str
  gap : Str
  title : Str
  bins : List Str
  gap2 : Str
  data : List Str

/-- the lines of the bins and all that follows in the tally (specification) -/
def TallyText.fromBins (t : TallyText) : List Str := t.bins ++ t.gap2 :: t.data

/-- the lines of a tally (specification) -/
def TallyText.lines (t : TallyText) : List Str :=
  t.first :: (t.comment ++ t.kind :: (t.more ++ t.gap :: t.title :: t.fromBins))

/-- the text of tally `n` as MCNP writes it: comments, the line naming the particle, further remarks, a blank line, the bins, a blank line, the data (specification) -/
structure IsTally (n : Nat) (t : TallyText) : Prop where
  first : NumberLine n t.first
  comment : ∀ l ∈ t.comment, Visible l ∧ ¬ "mesh tally.".toList <:+: l
  kind : Visible t.kind ∧ "mesh tally.".toList <:+: t.kind
  more : ∀ l ∈ t.more, Visible l
  gap : IsBlank t.gap
  title : Visible t.title
  bins : ∀ l ∈ t.bins, Visible l
  gap2 : IsBlank t.gap2
  data : ∀ l ∈ t.data, ¬ marker <+: l

/-- the lines of tallies one after the other (specification) -/
def allLines (ts : List (Nat × TallyText)) : List Str := (ts.map (fun x => x.2.lines)).flatten

/-- a file: lines before the first tally, and the tallies (specification) -/
structure IsFile (ts : List (Nat × TallyText)) (file : List Str) : Prop where
  tallies : ∀ x ∈ ts, IsTally x.1 x.2
  pre : ∃ pre, file = pre ++ allLines ts ∧ ∀ l ∈ pre, ¬ marker <+: l

/-! ### lines -/

theorem dropWhile_eq_nil_of_all {p : Char → Bool} {s : Str} (h : ∀ c ∈ s, p c = true) : s.dropWhile p = [] := by
  induction s with
  | nil => rfl
  | cons c s ih => rw [List.dropWhile_cons, if_pos (h c (by simp)), ih (fun c hc => h c (List.mem_cons_of_mem _ hc))]

theorem blank_of_isBlank {l : Str} (h : IsBlank l) : blank l = true := by
  obtain ⟨k, rfl⟩ := h
  unfold blank stripSp
  have : (List.replicate k ' ' ++ ['\n']).dropWhile (fun c => c == ' ') = ['\n'] := by
    induction k with
    | zero => rfl
    | succ k ih => rw [List.replicate_succ, List.cons_append, List.dropWhile_cons, if_pos (by decide), ih]
  rw [this]
  decide

theorem mem_dropWhile {p : Char → Bool} {s : Str} {c : Char} (h : c ∈ s) (hc : p c = false) : c ∈ s.dropWhile p := by
  induction s with
  | nil => exact h
  | cons a s ih =>
    rw [List.dropWhile_cons]
    split_ifs with ha
    · rcases List.mem_cons.1 h with rfl | h
      · rw [hc] at ha; exact absurd ha (by simp)
      · exact ih h
    · exact h

theorem blank_of_visible {l : Str} (h : Visible l) : blank l = false := by
  obtain ⟨c, hc, h1, h2⟩ := h
  unfold blank
  rw [decide_eq_false_iff_not]
  intro he
  have hp : (fun c : Char => c == ' ') c = false := by simpa using h1
  have : c ∈ stripSp l := by
    unfold stripSp
    rw [List.mem_reverse]
    exact mem_dropWhile (List.mem_reverse.2 (mem_dropWhile hc hp)) hp
  rw [he, List.mem_singleton] at this
  exact h2 this

theorem marker_length : marker.length = 18 := by decide

theorem tallyNumber_none {l : Str} (h : ¬ marker <+: l) : tallyNumber l = none := by
  unfold tallyNumber
  rw [if_neg]
  intro he
  apply h
  rw [List.take_take, show min 18 30 = 18 by decide] at he
  rw [← he]
  exact List.take_prefix _ _

theorem strip_pad_word {k : Nat} {w s : Str} (hw : IsWord w) (hs : ∀ c ∈ s, isSpace c = true) :
    strip (List.replicate k ' ' ++ w ++ s) = w := by
  unfold strip
  have h1 : lstrip (List.replicate k ' ' ++ w ++ s) = w ++ s := by
    induction k with
    | zero =>
      rw [List.replicate_zero, List.nil_append]
      exact lstrip_of_not_startsSpace (startsSpace_word_append hw)
    | succ k ih => rw [List.replicate_succ, List.cons_append, List.cons_append, lstrip_cons_space isSpace_space, ih]
  rw [h1]
  clear h1
  induction s using List.reverseRecOn with
  | nil => rw [List.append_nil]; exact rstrip_of_endsOk (by have := word_endsOk hw []; simpa using this)
  | append_singleton s c ih =>
    rw [← List.append_assoc, rstrip_append_space (hs c (by simp)), ih (fun c hc => hs c (by simp [hc]))]

theorem tallyNumber_some {n : Nat} {l : Str} (h : NumberLine n l) : tallyNumber l = some (natStr n) := by
  obtain ⟨k, rfl, hk⟩ := h
  unfold tallyNumber
  have e : " Mesh Tally Number".toList = marker := rfl
  rw [e]
  have h1 : ((marker ++ List.replicate k ' ' ++ natStr n ++ ['\n']).take 30).take 18 = marker := by
    rw [List.take_take, show min 18 30 = 18 by decide, List.append_assoc, List.append_assoc, List.take_append_of_le_length (by rw [marker_length])]
    rw [List.take_of_length_le (by rw [marker_length])]
  rw [if_pos h1]
  have h2 : ∃ s, (∀ c ∈ s, isSpace c = true) ∧
      ((marker ++ List.replicate k ' ' ++ natStr n ++ ['\n']).take 30).drop 18 = List.replicate k ' ' ++ natStr n ++ s := by
    refine ⟨['\n'].take (12 - (k + (natStr n).length)), ?_, ?_⟩
    · intro c hc
      have := List.mem_of_mem_take hc
      rw [List.mem_singleton] at this
      rw [this]; decide
    · rw [List.drop_take, List.append_assoc, List.append_assoc]
      rw [List.drop_append_of_le_length (by rw [marker_length]), List.drop_of_length_le (by rw [marker_length]), List.nil_append]
      rw [← List.append_assoc, List.take_append, List.take_of_length_le (by rw [List.length_append, List.length_replicate]; omega)]
      rw [List.length_append, List.length_replicate]
  obtain ⟨s, hs, h2⟩ := h2
  rw [h2, strip_pad_word (natStr_isWord n) hs]

/-! ### scanning -/

theorem scan_outside_skip {pre : List Str} (h : ∀ l ∈ pre, ¬ marker <+: l) (ls : List Str) (d : Dict Str Places) :
    scan .outside (pre ++ ls) d = scan .outside ls d := by
  induction pre with
  | nil => rfl
  | cons l pre ih =>
    rw [List.cons_append]
    simp only [scan]
    rw [tallyNumber_none (h l (by simp))]
    exact ih (fun l hl => h l (List.mem_cons_of_mem _ hl))

theorem scan_head_skip {xs : List Str} (h : ∀ l ∈ xs, Visible l) (n : Str) (top ls : List Str) (d : Dict Str Places) :
    scan (.head n top) (xs ++ ls) d = scan (.head n top) ls d := by
  induction xs with
  | nil => rfl
  | cons l xs ih =>
    rw [List.cons_append]
    simp only [scan]
    rw [blank_of_visible (h l (by simp))]
    simp only [Bool.false_eq_true, if_false]
    exact ih (fun l hl => h l (List.mem_cons_of_mem _ hl))

theorem scan_bins_skip {xs : List Str} (h : ∀ l ∈ xs, Visible l) (n : Str) (top b ls : List Str) (d : Dict Str Places) :
    scan (.bins n top b) (xs ++ ls) d = scan (.bins n top b) ls d := by
  induction xs with
  | nil => rfl
  | cons l xs ih =>
    rw [List.cons_append]
    simp only [scan]
    rw [blank_of_visible (h l (by simp))]
    simp only [Bool.false_eq_true, if_false]
    exact ih (fun l hl => h l (List.mem_cons_of_mem _ hl))

/-- the positions of a tally that is followed by `rest` (proof) -/
def placesOf (t : TallyText) (rest : List Str) : Places :=
  ⟨t.lines ++ rest, t.title :: (t.fromBins ++ rest), t.data ++ rest⟩

theorem scan_tally {n : Nat} {t : TallyText} (h : IsTally n t) (rest : List Str) (d : Dict Str Places) :
    scan .outside (t.lines ++ rest) d = scan .outside rest (Dict.set d (natStr n) (placesOf t rest)) := by
  have e : t.lines ++ rest = t.first :: ((t.comment ++ t.kind :: t.more) ++ (t.gap :: ((t.title :: t.bins) ++ (t.gap2 :: (t.data ++ rest))))) := by
    simp [TallyText.lines, TallyText.fromBins]
  rw [e]
  simp only [scan]
  rw [tallyNumber_some h.first]
  simp only
  rw [scan_head_skip (by
    intro l hl
    rcases List.mem_append.1 hl with hl | hl
    · exact (h.comment l hl).1
    · rcases List.mem_cons.1 hl with rfl | hl
      · exact h.kind.1
      · exact h.more l hl)]
  simp only [scan]
  rw [blank_of_isBlank h.gap]
  simp only [if_true]
  rw [scan_bins_skip (by
    intro l hl
    rcases List.mem_cons.1 hl with rfl | hl
    · exact h.title
    · exact h.bins l hl)]
  simp only [scan]
  rw [blank_of_isBlank h.gap2]
  simp only [if_true]
  rw [scan_outside_skip h.data]
  have e2 : (⟨t.first :: ((t.comment ++ t.kind :: t.more) ++ (t.gap :: ((t.title :: t.bins) ++ (t.gap2 :: (t.data ++ rest))))),
      (t.title :: t.bins) ++ (t.gap2 :: (t.data ++ rest)), t.data ++ rest⟩ : Places) = placesOf t rest := by
    unfold placesOf
    rw [e]
    simp [TallyText.fromBins]
  rw [e2]

/-- the dictionary of the tallies found (proof) -/
def catalog : List (Nat × TallyText) → Dict Str Places → Dict Str Places
  | [], d => d
  | x :: ts, d => catalog ts (Dict.set d (natStr x.1) (placesOf x.2 (allLines ts)))

theorem scan_tallies {ts : List (Nat × TallyText)} (h : ∀ x ∈ ts, IsTally x.1 x.2) (d : Dict Str Places) :
    scan .outside (allLines ts) d = .ok (catalog ts d) := by
  induction ts generalizing d with
  | nil => rfl
  | cons x ts ih =>
    have e : allLines (x :: ts) = x.2.lines ++ allLines ts := rfl
    rw [e, scan_tally (h x (by simp)), ih (fun y hy => h y (List.mem_cons_of_mem _ hy))]
    rfl

theorem scan_file {ts : List (Nat × TallyText)} {file : List Str} (h : IsFile ts file) : scan .outside file [] = .ok (catalog ts []) := by
  obtain ⟨ht, pre, rfl, hp⟩ := h
  rw [scan_outside_skip hp, scan_tallies ht]

theorem natStr_inj {m n : Nat} (h : natStr m = natStr n) : m = n := by
  have := congrArg digitsVal h
  rwa [digitsVal_natStr, digitsVal_natStr] at this

theorem catalog_keys (ts : List (Nat × TallyText)) (d : Dict Str Places) (k : Str) :
    k ∈ Dict.keys (catalog ts d) ↔ k ∈ Dict.keys d ∨ ∃ x ∈ ts, k = natStr x.1 := by
  induction ts generalizing d with
  | nil => simp [catalog]
  | cons x ts ih =>
    simp only [catalog]
    rw [ih, Dict.mem_keys_set]
    simp only [List.mem_cons, exists_eq_or_imp]
    constructor
    · rintro ((h | h) | h)
      · exact Or.inr (Or.inl h)
      · exact Or.inl h
      · exact Or.inr (Or.inr h)
    · rintro (h | h | h)
      · exact Or.inl (Or.inr h)
      · exact Or.inl (Or.inl h)
      · exact Or.inr h

theorem catalog_wf (ts : List (Nat × TallyText)) (d : Dict Str Places) (h : Dict.WF d) : Dict.WF (catalog ts d) := by
  induction ts generalizing d with
  | nil => exact h
  | cons x ts ih => exact ih _ (Dict.WF_set h _ _)

theorem catalog_get_other (ts : List (Nat × TallyText)) (d : Dict Str Places) (n : Nat) (h : ∀ x ∈ ts, x.1 ≠ n) :
    Dict.get? (catalog ts d) (natStr n) = Dict.get? d (natStr n) := by
  induction ts generalizing d with
  | nil => rfl
  | cons x ts ih =>
    simp only [catalog]
    rw [ih _ (fun y hy => h y (List.mem_cons_of_mem _ hy)), Dict.get?_set_ne]
    intro he
    exact h x (by simp) (natStr_inj he)

theorem catalog_get {as bs : List (Nat × TallyText)} {n : Nat} {t : TallyText} (d : Dict Str Places) (h : ∀ x ∈ bs, x.1 ≠ n) :
    Dict.get? (catalog (as ++ (n, t) :: bs) d) (natStr n) = some (placesOf t (allLines bs)) := by
  induction as generalizing d with
  | nil =>
    simp only [List.nil_append, catalog]
    rw [catalog_get_other _ _ _ h, Dict.get?_set_self]
  | cons x as ih => exact ih _

end F4Enix.MeshFile
