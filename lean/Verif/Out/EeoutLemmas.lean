import Verif.Out.EeoutSpec
import Verif.Base.TextLemmas
/-!
# Lemmas on the lines of eeout files
-/
namespace F4Enix.Eeout
open F4Enix

variable {K : Type}

theorem has_iff (tag : String) (l : Str) : has tag l = true ↔ tag.toList <:+: l := Find.contains_iff _ _

theorem has_false {tag : String} {l : Str} (h : ¬ tag.toList <:+: l) : has tag l = false := by
  cases hh : has tag l with
  | false => rfl
  | true => exact absurd ((has_iff _ _).1 hh) h

theorem not_infix {tag l : Str} {c : Char} (hc : c ∈ tag) (h : c ∉ l) : ¬ tag <:+: l := fun hi => h (hi.subset hc)

/-! ### digits -/

theorem digitsAt_run {w s : Str} (hne : w ≠ []) (hw : ∀ c ∈ w, isDigit c = true) (hs : ∀ c t, s = c :: t → isDigit c = false) :
    digitsAt (w ++ s) = some w := by
  unfold digitsAt
  rw [(Find.takeWhile_run hw hs).1]
  cases w with
  | nil => exact absurd rfl hne
  | cons c w => rfl

theorem digitsAt_none {c : Char} {s : Str} (h : isDigit c = false) : digitsAt (c :: s) = none := by
  simp [digitsAt, h]

theorem digitGroups_skip {c : Char} {s : Str} (h : isDigit c = false) : digitGroups (c :: s) = digitGroups s := by
  simp only [digitGroups, Find.findAll, digitsAt_none h]

theorem digitGroups_run {w s : Str} (hne : w ≠ []) (hw : ∀ c ∈ w, isDigit c = true) (hs : ∀ c t, s = c :: t → isDigit c = false) :
    digitGroups (w ++ s) = w :: digitGroups s := Find.findAll_match hne (digitsAt_run hne hw hs)

theorem digitGroups_spaces (k : ℕ) (s : Str) : digitGroups (List.replicate k ' ' ++ s) = digitGroups s := by
  induction k with
  | zero => rfl
  | succ k ih => rw [List.replicate_succ, List.cons_append, digitGroups_skip (by decide), ih]

theorem digitGroups_append : ∀ (m : ℕ) (a : Str), a.length ≤ m → ∀ (c : Char) (t : Str), isDigit c = false →
    digitGroups (a ++ c :: t) = digitGroups a ++ digitGroups t := by
  intro m
  induction m with
  | zero =>
    intro a ha c t hc
    have : a = [] := List.length_eq_zero_iff.1 (by omega)
    subst this
    rw [List.nil_append, digitGroups_skip hc]; rfl
  | succ m ih =>
    intro a ha c t hc
    cases a with
    | nil => rw [List.nil_append, digitGroups_skip hc]; rfl
    | cons x a =>
      rw [List.length_cons] at ha
      cases hx : isDigit x with
      | false =>
        rw [List.cons_append, digitGroups_skip hx, digitGroups_skip hx]
        exact ih a (by omega) c t hc
      | true =>
        have e : x :: a = (x :: a.takeWhile isDigit) ++ a.dropWhile isDigit := by
          rw [List.cons_append, List.takeWhile_append_dropWhile]
        have hw : ∀ d ∈ x :: a.takeWhile isDigit, isDigit d = true := by
          intro d hd
          rcases List.mem_cons.1 hd with rfl | hd
          · exact hx
          · exact (List.all_takeWhile (p := isDigit) (l := a) |> List.all_eq_true.1) d hd
        have hr : ∀ d s, a.dropWhile isDigit = d :: s → isDigit d = false := by
          intro d s h
          have := List.head?_dropWhile_not isDigit a
          rw [h] at this
          simpa using this
        have hl : (a.dropWhile isDigit).length ≤ a.length := (List.dropWhile_sublist _).length_le
        rw [e, List.append_assoc, digitGroups_run (by simp) hw (by
          intro d s h
          cases hb : a.dropWhile isDigit with
          | nil => rw [hb, List.nil_append] at h; cases h; exact hc
          | cons y ys => rw [hb, List.cons_append] at h; cases h; exact hr _ _ hb),
          digitGroups_run (by simp) hw hr, ih _ (by omega) c t hc]
        rfl

/-! ### characters of the lines -/

theorem mem_fields {fs : List (ℕ × Str)} {c : Char} (h : c ∈ fields fs) : c = ' ' ∨ ∃ f ∈ fs, c ∈ f.2 := by
  simp only [fields, List.mem_flatten, List.mem_map] at h
  obtain ⟨l, ⟨f, hf, rfl⟩, hl⟩ := h
  simp only [padLeft, List.mem_append, List.mem_replicate] at hl
  rcases hl with ⟨_, rfl⟩ | hl
  · exact Or.inl rfl
  · exact Or.inr ⟨f, hf, hl⟩

theorem intLine_chars {w : ℕ} {ns : List ℕ} {c : Char} (h : c ∈ intLine w ns) : c = ' ' ∨ c = '\n' ∨ isDigit c = true := by
  rcases List.mem_append.1 h with h | h
  · rcases mem_fields h with h | ⟨f, hf, hc⟩
    · exact Or.inl h
    · obtain ⟨n, _, rfl⟩ := List.mem_map.1 hf
      exact Or.inr (Or.inr (natStr_all_digit n c hc))
  · exact Or.inr (Or.inl (by simpa using h))

theorem isNum_chars {w : Str} (h : IsNum w) {c : Char} (hc : c ∈ w) : c = '-' ∨ c = '+' ∨ c = '.' ∨ c = 'E' ∨ isDigit c = true := by
  obtain ⟨neg, d, g, ds, es, rfl, hd, _, hds, hg, _, hes⟩ := h.form
  simp only [List.mem_append, List.mem_cons] at hc
  rcases hc with hc | rfl | rfl | hc | rfl | rfl | hc
  · cases neg <;> simp_all
  · simp [hd]
  · simp
  · simp [hds c hc]
  · simp
  · rcases hg with rfl | rfl <;> simp
  · simp [hes c hc]

theorem isNum_word {w : Str} (h : IsNum w) : IsWord w := by
  refine ⟨?_, ?_⟩
  · obtain ⟨neg, d, g, ds, es, rfl, _⟩ := h.form
    simp
  · intro c hc
    rcases isNum_chars h hc with rfl | rfl | rfl | rfl | hc
    · decide
    · decide
    · decide
    · decide
    · exact isSpace_of_isDigit hc

theorem isNum_length {w : Str} (h : IsNum w) : w.length < 13 := by
  obtain ⟨neg, d, g, ds, es, rfl, _, h1, _, _, h2, _⟩ := h.form
  cases neg <;> simp [h1, h2]

theorem numLine_chars {ws : List Str} (h : ∀ w ∈ ws, IsNum w) {c : Char} (hc : c ∈ numLine ws) :
    c = ' ' ∨ c = '\n' ∨ c = '-' ∨ c = '+' ∨ c = '.' ∨ c = 'E' ∨ isDigit c = true := by
  rcases List.mem_append.1 hc with hc | hc
  · rcases mem_fields hc with h' | ⟨f, hf, hc⟩
    · exact Or.inl h'
    · obtain ⟨w, hw, rfl⟩ := List.mem_map.1 hf
      exact Or.inr (Or.inr (isNum_chars (h w hw) hc))
  · exact Or.inr (Or.inl (by simpa using hc))

/-- no tag has a line of numbers: a capital letter other than E (proof) -/
def Cap (c : Char) : Prop := isDigit c = false ∧ c ≠ ' ' ∧ c ≠ '\n' ∧ c ≠ '-' ∧ c ≠ '+' ∧ c ≠ '.' ∧ c ≠ 'E'

instance (c : Char) : Decidable (Cap c) := by unfold Cap; infer_instance

theorem numLine_tag {ws : List Str} (h : ∀ w ∈ ws, IsNum w) {tag : Str} {c : Char} (hc : c ∈ tag) (hk : Cap c) :
    ¬ tag <:+: numLine ws := by
  apply not_infix hc
  intro hm
  obtain ⟨k1, k2, k3, k4, k5, k6, k7⟩ := hk
  rcases numLine_chars h hm with h | h | h | h | h | h | h
  · exact k2 h
  · exact k3 h
  · exact k4 h
  · exact k5 h
  · exact k6 h
  · exact k7 h
  · rw [k1] at h; cases h

theorem intLine_tag {w : ℕ} {ns : List ℕ} {tag : Str} {c : Char} (hc : c ∈ tag) (hk : Cap c) : ¬ tag <:+: intLine w ns := by
  apply not_infix hc
  intro hm
  rcases intLine_chars hm with h | h | h
  · exact hk.2.1 h
  · exact hk.2.2.1 h
  · rw [hk.1] at h; cases h

theorem tokens_numLine {ws : List Str} (h : ∀ w ∈ ws, IsNum w) : tokens (numLine ws) = ws := by
  unfold numLine
  rw [tokens_fields]
  · simp [Function.comp_def]
  · cases ws with
    | nil => trivial
    | cons w ws =>
      refine ⟨isNum_word (h w (by simp)), ?_⟩
      intro g hg
      obtain ⟨x, hx, rfl⟩ := List.mem_map.1 hg
      exact ⟨isNum_word (h x (by simp [hx])), isNum_length (h x (by simp [hx]))⟩

theorem tokens_intLine {w : ℕ} {ns : List ℕ} (h : ∀ n ∈ ns, (natStr n).length < w) : tokens (intLine w ns) = ns.map natStr := by
  unfold intLine
  rw [tokens_fields]
  · simp
  · cases ns with
    | nil => trivial
    | cons n ns =>
      refine ⟨natStr_isWord n, ?_⟩
      intro g hg
      obtain ⟨x, hx, rfl⟩ := List.mem_map.1 hg
      exact ⟨natStr_isWord x, h x (by simp [hx])⟩

theorem digitGroups_fields {w : ℕ} (ns : List ℕ) (h : ∀ n ∈ ns, (natStr n).length < w) {s : Str}
    (hs : ∀ c t, s = c :: t → isDigit c = false) :
    (∀ c t, fields (ns.map (fun n => (w, natStr n))) ++ s = c :: t → isDigit c = false) ∧
    digitGroups (fields (ns.map (fun n => (w, natStr n))) ++ s) = ns.map natStr ++ digitGroups s := by
  induction ns with
  | nil => exact ⟨hs, rfl⟩
  | cons n ns ih =>
    obtain ⟨i1, i2⟩ := ih (fun m hm => h m (by simp [hm]))
    have hn := h n (by simp)
    have e : fields ((n :: ns).map (fun n => (w, natStr n))) ++ s =
        List.replicate (w - (natStr n).length) ' ' ++ (natStr n ++ (fields (ns.map (fun n => (w, natStr n))) ++ s)) := by
      simp [fields, padLeft, List.append_assoc]
    rw [e]
    constructor
    · intro c t hc
      obtain ⟨k, hk⟩ : ∃ k, w - (natStr n).length = k + 1 := ⟨w - (natStr n).length - 1, by omega⟩
      rw [hk, List.replicate_succ, List.cons_append] at hc
      cases hc
      decide
    · rw [digitGroups_spaces, digitGroups_run (natStr_ne_nil n) (natStr_all_digit n) i1, i2]
      rfl

theorem digitGroups_intLine {w : ℕ} {ns : List ℕ} (h : ∀ n ∈ ns, (natStr n).length < w) :
    digitGroups (intLine w ns) = ns.map natStr := by
  unfold intLine
  rw [(digitGroups_fields ns h (s := ['\n']) (by intro c t hc; cases hc; decide)).2]
  have : digitGroups ['\n'] = [] := by decide
  rw [this, List.append_nil]

/-! ### records -/

theorem record_tag {l : Str} (h : IsRecord l) {tag : Str} {c : Char} (hc : c ∈ tag) (hk : Cap c) : ¬ tag <:+: l := by
  obtain ⟨ns, _, _, rfl⟩ := h
  exact intLine_tag hc hk

theorem record_not_value {l : Str} (h : IsRecord l) : isValueLine l = false := by
  obtain ⟨ns, h1, h2, rfl⟩ := h
  cases ns with
  | nil => cases h1
  | cons n ns =>
    have := h2 n (by simp)
    obtain ⟨k, hk⟩ : ∃ k, 15 - (natStr n).length = k + 3 := ⟨15 - (natStr n).length - 3, by omega⟩
    have e : intLine 15 (n :: ns) = ' ' :: ' ' :: ' ' :: (List.replicate k ' ' ++ natStr n ++
        (fields (ns.map (fun n => (15, natStr n))) ++ ['\n'])) := by
      simp [intLine, fields, padLeft, hk, List.replicate_succ]
    rw [e]
    rfl

theorem numLine_value {ws : List Str} (hne : ws ≠ []) (h : ∀ w ∈ ws, IsNum w) : isValueLine (numLine ws) = true := by
  cases ws with
  | nil => exact absurd rfl hne
  | cons w ws =>
    obtain ⟨neg, d, g, ds, es, rfl, hd, h1, _, _, h2, _⟩ := (h w (by simp)).form
    cases neg
    · have e : numLine (([] ++ d :: '.' :: (ds ++ 'E' :: g :: es)) :: ws) = ' ' :: ' ' :: d :: ('.' :: (ds ++ 'E' :: g :: es) ++
          (fields (ws.map (fun w => (13, w))) ++ ['\n'])) := by
        simp [numLine, fields, padLeft, h1, h2, List.replicate_succ]
      simp only [Bool.false_eq_true, if_false]
      rw [e]
      simp [isValueLine, hd, isSpace_space]
    · have e : numLine ((['-'] ++ d :: '.' :: (ds ++ 'E' :: g :: es)) :: ws) = ' ' :: '-' :: d :: ('.' :: (ds ++ 'E' :: g :: es) ++
          (fields (ws.map (fun w => (13, w))) ++ ['\n'])) := by
        simp [numLine, fields, padLeft, h1, h2, List.replicate_succ]
      simp only [if_true]
      rw [e]
      simp [isValueLine, hd, isSpace_space]

/-! ### numbers of a line -/

theorem sciAt_num {w : Str} (h : IsNum w) : sciAt w = some w := by
  obtain ⟨neg, d, g, ds, es, rfl, hd, h1, h1', hg, h2, h2'⟩ := h.form
  have hds : ds ≠ [] := by rintro rfl; cases h1
  have hes : es ≠ [] := by rintro rfl; cases h2
  have hsd : (d == '-' || d == '+') = false := by
    by_cases e1 : d = '-'
    · subst e1; cases hd
    · by_cases e2 : d = '+'
      · subst e2; cases hd
      · simp [e1, e2]
  have t1 := Find.takeWhile_run (p := isDigit) (a := ds) (s := 'E' :: g :: es) h1' (by intro c t hc; cases hc; decide)
  have t2 := Find.takeWhile_run (p := isDigit) (a := es) (s := []) h2' (by simp)
  rw [List.append_nil] at t2
  unfold sciAt
  cases neg
  · simp only [Bool.false_eq_true, if_false, List.nil_append, List.dropWhile_cons, hsd, List.takeWhile_cons, t1.1, t1.2, t2.1]
    rw [if_pos ⟨hd, by decide, hds⟩]
    rw [if_pos ⟨hg, hes⟩]
  · have hm : (('-' : Char) == '-' || ('-' : Char) == '+') = true := by decide
    simp only [if_true, List.cons_append, List.nil_append, List.dropWhile_cons, hm, hsd, List.takeWhile_cons, t1.1, t1.2, t2.1,
      Bool.false_eq_true, if_false]
    rw [if_pos ⟨hd, by decide, hds⟩]
    rw [if_pos ⟨hg, hes⟩]

theorem search_of_at {m : Str → Option Str} {w : Str} (hne : w ≠ []) (h : m w = some w) : Find.search m w = some w := by
  cases w with
  | nil => exact absurd rfl hne
  | cons c w => rw [Find.search, h]

theorem sciWords_numLine {ws : List Str} (h : ∀ w ∈ ws, IsNum w) : sciWords (numLine ws) = ws := by
  unfold sciWords
  rw [tokens_numLine h]
  induction ws with
  | nil => rfl
  | cons w ws ih =>
    have hw := h w (by simp)
    rw [List.filterMap_cons, search_of_at (isNum_word hw).1 (sciAt_num hw)]
    simp only
    rw [ih (fun x hx => h x (by simp [hx]))]

theorem sciAt_E {s : Str} (h : 'E' ∉ s) : sciAt s = none := by
  unfold sciAt
  split
  · rename_i d p r hr
    split
    · split
      · rename_i g t ht
        exfalso
        apply h
        have m1 : 'E' ∈ r.dropWhile isDigit := by rw [ht]; simp
        have m2 : 'E' ∈ r := (List.dropWhile_sublist _).subset m1
        have m3 : 'E' ∈ s.dropWhile (fun c => c == '-' || c == '+') := by rw [hr]; simp [m2]
        exact (List.dropWhile_sublist _).subset m3
      · rfl
    · rfl
  · rfl

theorem search_E {s : Str} (h : 'E' ∉ s) : Find.search sciAt s = none := by
  induction s with
  | nil => rfl
  | cons c s ih =>
    rw [Find.search, sciAt_E h]
    exact ih (fun hm => h (List.mem_cons_of_mem _ hm))

theorem sciWords_intLine {w : ℕ} {ns : List ℕ} (h : ∀ n ∈ ns, (natStr n).length < w) : sciWords (intLine w ns) = [] := by
  unfold sciWords
  rw [tokens_intLine h, List.filterMap_eq_nil_iff]
  intro x hx
  obtain ⟨n, _, rfl⟩ := List.mem_map.1 hx
  apply search_E
  intro hm
  have := natStr_all_digit n _ hm
  revert this; decide

theorem floats_ok {pf : Str → Option K} {ws : List Str} {vs : List K} (h : ws.map pf = vs.map some) : floats pf ws = .ok vs := by
  induction ws generalizing vs with
  | nil =>
    cases vs with
    | nil => rfl
    | cons v vs => cases h
  | cons w ws ih =>
    cases vs with
    | nil => cases h
    | cons v vs =>
      simp only [List.map_cons, List.cons.injEq] at h
      rw [floats, h.1]
      simp only [ih h.2]

/-- lines of numbers one by one -/
theorem numLines_cases {pf : Str → Option K} {ls : List Str} {vs : List K} (h : NumLines pf ls vs) :
    (ls = [] ∧ vs = []) ∨ ∃ ws ls' v v', ls = numLine ws :: ls' ∧ vs = v ++ v' ∧ ws ≠ [] ∧ (∀ w ∈ ws, IsNum w) ∧
      ws.map pf = v.map some ∧ NumLines pf ls' v' := by
  obtain ⟨wss, rfl, h1, h2⟩ := h
  cases wss with
  | nil =>
    left
    refine ⟨rfl, ?_⟩
    cases vs with
    | nil => rfl
    | cons v vs => cases h2
  | cons ws wss =>
    right
    rw [List.flatten_cons, List.map_append] at h2
    obtain ⟨v, v', rfl, e1, e2⟩ := List.map_eq_append_iff.1 h2.symm
    exact ⟨ws, _, v, v', rfl, rfl, (h1 ws (by simp)).1, (h1 ws (by simp)).2, e1.symm,
      ⟨wss, rfl, fun x hx => h1 x (by simp [hx]), e2.symm⟩⟩

theorem intLines_cases {w : ℕ} {ls : List Str} {ns : List ℕ} (h : IntLines w ls ns) :
    (ls = [] ∧ ns = []) ∨ ∃ ms ls' ns', ls = intLine w ms :: ls' ∧ ns = ms ++ ns' ∧ ms ≠ [] ∧
      (∀ n ∈ ms, (natStr n).length < w) ∧ IntLines w ls' ns' := by
  obtain ⟨nss, rfl, h1, rfl⟩ := h
  cases nss with
  | nil => exact Or.inl ⟨rfl, rfl⟩
  | cons ms nss =>
    right
    exact ⟨ms, _, _, rfl, rfl, (h1 ms (by simp)).1, (h1 ms (by simp)).2, ⟨nss, rfl, fun x hx => h1 x (by simp [hx]), rfl⟩⟩

end F4Enix.Eeout
