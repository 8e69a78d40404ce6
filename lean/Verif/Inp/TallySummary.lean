import Verif.Inp.TallyProps
import Verif.Out.MctalValues
import Mathlib.Data.List.TakeWhile
/-!
# The summary of the tallies, the stop card and the summary of the cells (C105-C107)
-/
set_option linter.unusedSimpArgs false
namespace F4Enix.Tally
open F4Enix F4Enix.Find

/-! ### texts -/

theorem strip_infix (l : Str) : strip l <:+: l := by
  unfold strip rstrip lstrip
  have h1 : l.dropWhile isSpace <:+ l := List.dropWhile_suffix _
  have h2 : ((l.dropWhile isSpace).reverse.dropWhile isSpace) <:+ (l.dropWhile isSpace).reverse :=
    List.dropWhile_suffix _
  have h3 : ((l.dropWhile isSpace).reverse.dropWhile isSpace).reverse <+: l.dropWhile isSpace := by
    have := List.reverse_prefix.mpr h2
    rwa [List.reverse_reverse] at this
  exact h3.isInfix.trans h1.isInfix

theorem startsSpace_dropWhile (l : Str) : startsSpace (l.dropWhile isSpace) = false := by
  induction l with
  | nil => rfl
  | cons c cs ih =>
    cases h : isSpace c with
    | true => rw [List.dropWhile_cons, h]; exact ih
    | false => rw [List.dropWhile_cons, h]; exact h

theorem startsSpace_prefix {a b : Str} (h : a <+: b) (hb : startsSpace b = false) : startsSpace a = false := by
  cases a with
  | nil => rfl
  | cons c cs =>
    obtain ⟨t, rfl⟩ := h
    exact hb

/-- stripping twice is stripping once -/
theorem strip_strip (s : Str) : strip (strip s) = strip s := by
  have h1 : startsSpace (strip s) = false := by
    refine startsSpace_prefix (b := s.dropWhile isSpace) ?_ (startsSpace_dropWhile s)
    unfold strip rstrip lstrip
    have := List.reverse_prefix.mpr
      (List.dropWhile_suffix isSpace : (List.dropWhile isSpace (s.dropWhile isSpace).reverse) <:+ _)
    rwa [List.reverse_reverse] at this
  have h2 : EndsOk (strip s) := by
    unfold EndsOk strip rstrip
    rw [List.reverse_reverse]
    exact startsSpace_dropWhile _
  show rstrip (lstrip (strip s)) = strip s
  rw [lstrip_of_not_startsSpace h1, rstrip_of_endsOk h2]

/-- blanks around a text do not matter -/
theorem strip_around (t : Str) : strip (' ' :: t ++ ['\n']) = strip t := by
  unfold strip
  rw [List.cons_append, lstrip_cons_space (by decide)]
  by_cases h : ∀ c ∈ t, isSpace c = true
  · have e1 : lstrip (t ++ ['\n']) = [] := by
      unfold lstrip
      rw [List.dropWhile_eq_nil_iff]
      intro c hc
      rcases List.mem_append.1 hc with h' | h'
      · exact h c h'
      · simp only [List.mem_singleton] at h'; subst h'; decide
    have e2 : lstrip t = [] := by
      unfold lstrip; rw [List.dropWhile_eq_nil_iff]; exact h
    rw [e1, e2]
  · have e : lstrip (t ++ ['\n']) = lstrip t ++ ['\n'] := by
      unfold lstrip
      rw [List.dropWhile_append, if_neg]
      rw [List.isEmpty_iff, List.dropWhile_eq_nil_iff]
      exact h
    rw [e, rstrip_append_space (by decide)]

/-- a text without the word is unchanged by its removal -/
theorem removeAll_absent {sub s : Str} (h : ¬ sub <:+: s) : removeAll sub 0 s = s := by
  induction s with
  | nil => rfl
  | cons c cs ih =>
    have h1 : ¬ sub.isPrefixOf (c :: cs) = true := by
      intro hp
      exact h (List.isPrefixOf_iff_prefix.1 hp).isInfix
    have h2 : ¬ sub <:+: cs := fun hi => h (hi.trans ⟨[c], [], by simp⟩)
    simp only [removeAll]
    rw [if_neg h1, ih h2]

theorem removeAll_skip (sub a s : Str) : removeAll sub a.length (a ++ s) = removeAll sub 0 s := by
  induction a with
  | nil => rfl
  | cons c cs ih => simp only [List.length_cons, List.cons_append, removeAll]; exact ih

/-- a word at the front is removed -/
theorem removeAll_front {sub s : Str} (h : sub ≠ []) : removeAll sub 0 (sub ++ s) = removeAll sub 0 s := by
  cases sub with
  | nil => exact absurd rfl h
  | cons c cs =>
    rw [List.cons_append]
    simp only [removeAll]
    rw [if_pos (by rw [List.isPrefixOf_iff_prefix]; exact ⟨s, rfl⟩)]
    exact removeAll_skip _ _ _

/-- a word within a text with blanks around is within the text -/
theorem word_infix {w t : Str} (hw : IsWord w) (h : w <:+: ' ' :: t ++ ['\n']) : w <:+: t := by
  obtain ⟨a, b, e⟩ := h
  have hne : w ≠ [] := hw.1
  cases a with
  | nil =>
    exfalso
    cases w with
    | nil => exact hne rfl
    | cons c cs =>
      simp only [List.nil_append, List.cons_append, List.cons.injEq] at e
      have := hw.2 c (by simp)
      rw [e.1] at this
      revert this; decide
  | cons x a =>
    simp only [List.cons_append, List.cons.injEq] at e
    rcases List.eq_nil_or_concat b with rfl | ⟨b', y, rfl⟩
    · exfalso
      rw [List.append_nil] at e
      rcases List.eq_nil_or_concat w with rfl | ⟨w', z, rfl⟩
      · exact hne rfl
      · rw [List.concat_eq_append, ← List.append_assoc] at e
        have := (List.append_inj' e.2 rfl).2
        simp only [List.cons.injEq, and_true] at this
        have h' := hw.2 z (by simp)
        rw [this] at h'
        revert h'; decide
    · refine ⟨a, b', ?_⟩
      rw [List.concat_eq_append, ← List.append_assoc] at e
      have := (List.append_inj' e.2 rfl).1
      rw [this]

/-- the text of a card written as `tag text` on one line, when the text does not contain the tag -/
theorem retrieve_written {tag t : Str} (hw : IsWord tag) (h1 : ¬ tag <:+: t) (h2 : ¬ lower tag <:+: t)
    (ls : List Str) : retrieve tag ((tag ++ ' ' :: t ++ ['\n']) :: ls) = .ok (strip t) := by
  simp only [retrieve]
  rw [List.append_assoc, removeAll_front hw.1, removeAll_absent (fun h => h1 (word_infix hw h)), strip_around,
    removeAll_absent (fun h => h2 (h.trans (strip_infix t))), strip_strip]

/-! ### C105: the cards of a tally -/

/-- **C105 (exact number).** A card belongs to tally `id` exactly when its name is `F`, letters, and the
number `id` in decimal, possibly followed by a newline: `F14` is no card of tally 4. -/
theorem isCardOf_iff (id : Nat) (key : Str) :
    isCardOf id key = true ↔ ∃ ls : Str, (∀ c ∈ ls, isLetter c = true) ∧
      (key = 'F' :: ls ++ natStr id ∨ key = 'F' :: ls ++ natStr id ++ ['\n']) := by
  have hdig : ∀ (ls r : Str), (∀ c ∈ ls, isLetter c = true) →
      (ls ++ (natStr id ++ r)).dropWhile isLetter = natStr id ++ r := by
    intro ls r h
    rw [List.dropWhile_append_of_pos (by simpa using h)]
    cases hn : natStr id with
    | nil => exact absurd hn (natStr_ne_nil id)
    | cons c cs =>
      have hd := natStr_all_digit id c (by rw [hn]; simp)
      have : isLetter c = false := by
        simp only [isDigit, Bool.and_eq_true, decide_eq_true_eq] at hd
        simp only [isLetter, Bool.or_eq_false_iff, Bool.and_eq_false_iff, decide_eq_false_iff_not]
        omega
      rw [List.cons_append, List.dropWhile_cons, this]; rfl
  constructor
  · intro h
    cases key with
    | nil => simp [isCardOf] at h
    | cons c s =>
      by_cases hc : c = 'F'
      · subst hc
        simp only [isCardOf, Bool.or_eq_true, beq_iff_eq] at h
        refine ⟨s.takeWhile isLetter, fun c hc => List.mem_takeWhile_imp hc, ?_⟩
        rcases h with h | h
        · left; rw [← h]; simp [List.takeWhile_append_dropWhile]
        · right; rw [List.append_assoc, ← h]; simp [List.takeWhile_append_dropWhile]
      · exfalso
        unfold isCardOf at h
        split at h
        · rename_i s' e; exact hc (List.cons.inj e).1
        · cases h
  · rintro ⟨ls, hl, rfl | rfl⟩
    · have := hdig ls [] hl
      simp only [List.append_nil] at this
      simp [isCardOf, this]
    · have := hdig ls ['\n'] hl
      simp [isCardOf, this]

/-- the card's tally is the only one with it (names without a final newline) -/
theorem isCardOf_unique {a b : Nat} {key : Str} (ha : isCardOf a key = true) (hb : isCardOf b key = true) : a = b := by
  obtain ⟨la, ha1, ha2⟩ := (isCardOf_iff a key).1 ha
  obtain ⟨lb, hb1, hb2⟩ := (isCardOf_iff b key).1 hb
  have key' : ∀ (l : Str) (n : Nat), (∀ c ∈ l, isLetter c = true) → ∀ k : Str,
      (k = 'F' :: l ++ natStr n ∨ k = 'F' :: l ++ natStr n ++ ['\n']) → k.filter isDigit = natStr n := by
    intro l n hl k hk
    have h1 : l.filter isDigit = [] := by
      rw [List.filter_eq_nil_iff]
      intro c hc hd
      have := hl c hc
      simp only [isDigit, Bool.and_eq_true, decide_eq_true_eq] at hd
      simp only [isLetter, Bool.or_eq_true, Bool.and_eq_true, decide_eq_true_eq] at this
      omega
    have h2 : (natStr n).filter isDigit = natStr n := List.filter_eq_self.2 (natStr_all_digit n)
    rcases hk with rfl | rfl
    · rw [List.filter_append, List.filter_cons, if_neg (by decide), h1, h2]; rfl
    · rw [List.filter_append, List.filter_append, List.filter_cons, if_neg (by decide), h1, h2]
      simp; decide
  have e := (key' la a ha1 key ha2).symm.trans (key' lb b hb1 key hb2)
  have := congrArg digitsVal e
  rwa [digitsVal_natStr, digitsVal_natStr] at this

theorem isCardOf_name {s : String} (hs : ∃ ls, s.toList = 'F' :: ls ∧ ∀ c ∈ ls, isLetter c = true) (id : Nat) :
    isCardOf id (name s id) = true := by
  obtain ⟨ls, h1, h2⟩ := hs
  rw [isCardOf_iff]
  exact ⟨ls, h2, Or.inl (by rw [name, h1])⟩

/-- the loop over the cards, when nothing fails and the only `FC`/`FM` cards are the tally's own -/
theorem cardLoop_ok (tag : Str) (d : Dict Str (List Str)) (id : Nat) (dsc p : Str) (m : List Str)
    (htag : (tag ++ natStr id).take 2 ≠ "FC".toList) (hne : name "FM" id ≠ tag ++ natStr id) (L : List Str)
    (hC : ∀ k ∈ L, k.take 2 = "FC".toList → k = name "FC" id)
    (hM : ∀ k ∈ L, k.take 2 = "FM".toList → k ≠ tag ++ natStr id → k = name "FM" id)
    (kC : name "FC" id ∈ L → retrieve (name "FC" id) ((Dict.get? d (name "FC" id)).getD []) = .ok dsc)
    (kF : tag ++ natStr id ∈ L → ∃ l ls, (Dict.get? d (tag ++ natStr id)).getD [] = l :: ls ∧ searchNP l = some p)
    (kM : name "FM" id ∈ L → retrieveFM (name "FM" id) ((Dict.get? d (name "FM" id)).getD []) = .ok m) (a : Acc) :
    cardLoop tag d id a L = .ok ⟨if name "FC" id ∈ L then some dsc else a.desc,
      if tag ++ natStr id ∈ L then some (Inp.upper p) else a.particle,
      if name "FM" id ∈ L then some m else a.mult⟩ := by
  have hFC2 : (name "FC" id).take 2 = "FC".toList := rfl
  have hFM2 : (name "FM" id).take 2 = "FM".toList := rfl
  induction L generalizing a with
  | nil => simp [cardLoop]
  | cons k ks ih =>
    have step : ∃ a', cardStep tag d id a k = .ok a' ∧
        a'.desc = (if k = name "FC" id then some dsc else a.desc) ∧
        a'.particle = (if k = tag ++ natStr id then some (Inp.upper p) else a.particle) ∧
        a'.mult = (if k = name "FM" id then some m else a.mult) := by
      unfold cardStep
      by_cases h1 : k.take 2 = "FC".toList
      · have hk := hC k (by simp) h1
        have hn1 : k ≠ tag ++ natStr id := by rintro rfl; exact htag h1
        have hn2 : k ≠ name "FM" id := by rintro rfl; rw [hFM2] at h1; revert h1; decide
        simp only [h1, if_true]
        rw [hk, kC (by rw [← hk]; simp)]
        refine ⟨_, rfl, by simp, ?_, ?_⟩
        · rw [← hk, if_neg hn1]
        · rw [← hk, if_neg hn2]
      · have hn0 : k ≠ name "FC" id := by rintro rfl; exact h1 hFC2
        simp only [h1, if_false]
        by_cases h2 : k = tag ++ natStr id
        · obtain ⟨l, ls, e1, e2⟩ := kF (by rw [← h2]; simp)
          have hn2 : k ≠ name "FM" id := by rw [h2]; exact hne.symm
          rw [if_pos h2, h2, e1]
          simp only [e2]
          refine ⟨_, rfl, ?_, by simp, ?_⟩
          · rw [← h2, if_neg hn0]
          · rw [← h2, if_neg hn2]
        · rw [if_neg h2]
          by_cases h3 : k.take 2 = "FM".toList
          · have hk := hM k (by simp) h3 h2
            rw [if_pos h3, hk, kM (by rw [← hk]; simp)]
            refine ⟨_, rfl, ?_, ?_, by simp⟩
            · rw [← hk, if_neg hn0]
            · rw [← hk, if_neg h2]
          · have hn2 : k ≠ name "FM" id := by rintro rfl; exact h3 hFM2
            rw [if_neg h3]
            exact ⟨a, rfl, by rw [if_neg hn0], by rw [if_neg h2], by rw [if_neg hn2]⟩
    obtain ⟨a', e0, e1, e2, e3⟩ := step
    simp only [cardLoop, e0]
    rw [ih (fun k hk => hC k (List.mem_cons_of_mem _ hk)) (fun k hk => hM k (List.mem_cons_of_mem _ hk))
      (fun h => kC (List.mem_cons_of_mem _ h)) (fun h => kF (List.mem_cons_of_mem _ h))
      (fun h => kM (List.mem_cons_of_mem _ h)) a', e1, e2, e3]
    congr 2
    · by_cases x : name "FC" id ∈ ks <;> by_cases y : k = name "FC" id <;> simp [x, y, Ne.symm, eq_comm]
    · by_cases x : tag ++ natStr id ∈ ks <;> by_cases y : k = tag ++ natStr id <;> simp [x, y, eq_comm]
    · by_cases x : name "FM" id ∈ ks <;> by_cases y : k = name "FM" id <;> simp [x, y, eq_comm]

/-- the row of a tally, when its cards can be read and no other card of the tally is named `FC…`/`FM…` -/
theorem rowOf_spec (tag : Str) (d : Dict Str (List Str)) (id : Nat) (dsc p m0 : Str) (ms : List Str)
    (htag : tag = "F".toList ∨ tag = "FMESH".toList)
    (hC : ∀ k ∈ d.keys, isCardOf id k = true → k.take 2 = "FC".toList → k = name "FC" id)
    (hM : ∀ k ∈ d.keys, isCardOf id k = true → k.take 2 = "FM".toList → k ≠ tag ++ natStr id → k = name "FM" id)
    (kC : ∀ c, Dict.get? d (name "FC" id) = some c → retrieve (name "FC" id) c = .ok dsc)
    (kF : ∀ c, Dict.get? d (tag ++ natStr id) = some c → ∃ l ls, c = l :: ls ∧ searchNP l = some p)
    (kM : ∀ c, Dict.get? d (name "FM" id) = some c → retrieveFM (name "FM" id) c = .ok (m0 :: ms)) :
    rowOf tag d id = .ok ⟨id,
      (Dict.get? d (tag ++ natStr id)).map (fun _ => Inp.upper p),
      (Dict.get? d (name "FC" id)).map (fun _ => dsc),
      (Dict.get? d (name "FM" id)).map (fun _ => m0),
      if ms = [] then none else (Dict.get? d (name "FM" id)).map (fun _ => ms)⟩ := by
  have hmem : ∀ k, isCardOf id k = true → (k ∈ tallyCards d id ↔ ∃ c, Dict.get? d k = some c) := by
    intro k hk
    simp only [tallyCards, List.mem_filter, hk, and_true]
    rw [← Dict.has_iff, Dict.has, Option.isSome_iff_exists]
  have cC := isCardOf_name (s := "FC") ⟨['C'], rfl, by decide⟩ id
  have cM := isCardOf_name (s := "FM") ⟨['M'], rfl, by decide⟩ id
  have cF : isCardOf id (tag ++ natStr id) = true := by
    rcases htag with rfl | rfl
    · exact isCardOf_name (s := "F") ⟨[], rfl, by decide⟩ id
    · exact isCardOf_name (s := "FMESH") ⟨"MESH".toList, rfl, by decide⟩ id
  have t2 : (tag ++ natStr id).take 2 ≠ "FC".toList := by
    rcases htag with rfl | rfl
    · intro h
      cases hn : natStr id with
      | nil => exact natStr_ne_nil id hn
      | cons c cs =>
        rw [hn] at h
        have hc : c = 'C' := by
          have : ['F', c] = ['F', 'C'] := h
          simpa using this
        have := natStr_all_digit id c (by rw [hn]; simp)
        rw [hc] at this
        revert this; decide
    · intro h
      have : "FM".toList = "FC".toList := h
      revert this; decide
  have hne : name "FM" id ≠ tag ++ natStr id := by
    rcases htag with rfl | rfl
    · intro h
      have := (name_inj (s := "FM") (t := "F") (by decide) (by decide) h).1
      revert this; decide
    · intro h
      have := (name_inj (s := "FM") (t := "FMESH") (by decide) (by decide) h).1
      revert this; decide
  have hl := cardLoop_ok tag d id dsc p (m0 :: ms) t2 hne (tallyCards d id)
    (fun k hk => hC k (List.mem_filter.1 hk).1 (List.mem_filter.1 hk).2)
    (fun k hk => hM k (List.mem_filter.1 hk).1 (List.mem_filter.1 hk).2)
    (fun h => by obtain ⟨c, hc⟩ := (hmem _ cC).1 h; rw [hc]; exact kC c hc)
    (fun h => by obtain ⟨c, hc⟩ := (hmem _ cF).1 h; rw [hc]; exact kF c hc)
    (fun h => by obtain ⟨c, hc⟩ := (hmem _ cM).1 h; rw [hc]; exact kM c hc) {}
  have hif : ∀ {β : Type} (k : Str) (x : β), isCardOf id k = true →
      (if k ∈ tallyCards d id then some x else none) = (Dict.get? d k).map (fun _ => x) := by
    intro β k x hk
    cases hg : Dict.get? d k with
    | none => rw [if_neg (by rw [hmem k hk, hg]; simp)]; rfl
    | some c => rw [if_pos (by rw [hmem k hk, hg]; simp)]; rfl
  unfold rowOf
  rw [hl]
  simp only [hif _ _ cC, hif _ _ cF, hif _ _ cM, mkRow]
  cases Dict.get? d (name "FM" id) with
  | none => simp
  | some c => simp

/-- a row fails: so does the summary -/
theorem rows_error {tag : Str} {d : Dict Str (List Str)} {ts : List Nat} {t : Nat} (ht : t ∈ ts)
    (h : ∃ e, rowOf tag d t = .error e) : ∃ e, rows tag d ts = .error e := by
  induction ts with
  | nil => cases ht
  | cons x xs ih =>
    simp only [rows]
    cases hx : rowOf tag d x with
    | error e => exact ⟨e, rfl⟩
    | ok r =>
      rcases List.mem_cons.1 ht with rfl | ht
      · obtain ⟨e, he⟩ := h; rw [hx] at he; cases he
      · obtain ⟨e, he⟩ := ih ht
        exact ⟨e, by simp [he]⟩

theorem rows_ok_iff {tag : Str} {d : Dict Str (List Str)} {ts : List Nat} {rs : List Row} :
    rows tag d ts = .ok rs ↔ List.Forall₂ (fun t r => rowOf tag d t = .ok r) ts rs := by
  induction ts generalizing rs with
  | nil => simp [rows, eq_comm]
  | cons t ts ih =>
    simp only [rows]
    cases ht : rowOf tag d t with
    | error e =>
      constructor
      · intro h; cases h
      · intro h; cases h with | cons h1 _ => rw [ht] at h1; cases h1
    | ok r =>
      cases hts : rows tag d ts with
      | error e =>
        constructor
        · intro h; cases h
        · intro h
          cases h with
          | cons h1 h2 => rw [ih.2 h2] at hts; cases hts
      | ok rs' =>
        constructor
        · intro h
          cases h
          exact .cons ht (ih.1 hts)
        · intro h
          cases h with
          | cons h1 h2 =>
            rw [ht] at h1; cases h1
            have := ih.2 h2
            rw [hts] at this; cases this
            rfl

theorem rowOf_id {tag : Str} {d : Dict Str (List Str)} {t : Nat} {r : Row} (h : rowOf tag d t = .ok r) : r.id = t := by
  unfold rowOf at h
  cases hc : cardLoop tag d t {} (tallyCards d t) with
  | error e => rw [hc] at h; cases h
  | ok a =>
    rw [hc] at h
    simp only [mkRow] at h
    split at h
    · cases h; rfl
    · cases h
    · cases h; rfl

/-- **C105 (one row per tally).** The summary is a table with one row for every registered tally, sorted by
number; it fails with `KeyError` when there is none, and for no tally can it fail without the whole failing. Partial: Proved for readable cards; the full claim is false for other particles, tags within descriptions and FMESH cards of the same number. -/
theorem summary_rows_partial (fmesh : Bool) (i : Inp) (rs : List Row) (h : summary fmesh i = .ok rs) :
    rs.Pairwise (fun a b => a.id ≤ b.id) ∧ (rs.map Row.id).Perm i.tallies ∧ rs ≠ [] ∧
      (∀ t ∈ i.tallies, ∃ r ∈ rs, rowOf (if fmesh then "FMESH".toList else "F".toList) i.data t = .ok r) ∧
      ∀ r ∈ rs, rowOf (if fmesh then "FMESH".toList else "F".toList) i.data r.id = .ok r := by
  unfold summary at h
  cases hr : rows (if fmesh then "FMESH".toList else "F".toList) i.data i.tallies with
  | error e => rw [hr] at h; cases h
  | ok rs0 =>
    rw [hr] at h
    have hF := rows_ok_iff.1 hr
    cases rs0 with
    | nil => cases h
    | cons r0 rs0 =>
      simp only [Except.ok.injEq] at h
      have hperm : rs.Perm (r0 :: rs0) := by rw [← h]; exact List.perm_insertionSort _ _
      have hids : (r0 :: rs0).map Row.id = i.tallies := by
        have : ∀ {ts : List Nat} {rs : List Row},
            List.Forall₂ (fun t r => rowOf (if fmesh then "FMESH".toList else "F".toList) i.data t = .ok r) ts rs →
            rs.map Row.id = ts := by
          intro ts rs hf
          induction hf with
          | nil => rfl
          | cons h1 _ ih => rw [List.map_cons, ih, rowOf_id h1]
        exact this hF
      have hmem : ∀ t ∈ i.tallies, ∃ r ∈ r0 :: rs0,
          rowOf (if fmesh then "FMESH".toList else "F".toList) i.data t = .ok r := by
        have : ∀ {ts : List Nat} {rs : List Row},
            List.Forall₂ (fun t r => rowOf (if fmesh then "FMESH".toList else "F".toList) i.data t = .ok r) ts rs →
            (∀ t ∈ ts, ∃ r ∈ rs, rowOf (if fmesh then "FMESH".toList else "F".toList) i.data t = .ok r) := by
          intro ts rs hf
          induction hf with
          | nil => simp
          | cons h1 _ ih =>
            intro t ht
            rcases List.mem_cons.1 ht with rfl | ht
            · exact ⟨_, by simp, h1⟩
            · obtain ⟨r, hr, e⟩ := ih t ht
              exact ⟨r, List.mem_cons_of_mem _ hr, e⟩
        exact this hF
      refine ⟨?_, ?_, ?_, ?_, ?_⟩
      · rw [← h]
        have : Std.Total (fun a b : Row => a.id ≤ b.id) := ⟨fun a b => Nat.le_total _ _⟩
        have : IsTrans Row (fun a b : Row => a.id ≤ b.id) := ⟨fun a b c => Nat.le_trans⟩
        exact List.pairwise_insertionSort _ _
      · rw [← hids]; exact hperm.map _
      · intro hn; rw [hn] at hperm; exact absurd hperm.symm.eq_nil (by simp)
      · intro t ht
        obtain ⟨r, hr, e⟩ := hmem t ht
        exact ⟨r, hperm.mem_iff.2 hr, e⟩
      · intro r hr
        have h1 : r.id ∈ i.tallies := by
          rw [← hids]; exact List.mem_map.2 ⟨r, hperm.mem_iff.1 hr, rfl⟩
        have : ∀ {ts : List Nat} {rs : List Row},
            List.Forall₂ (fun t r => rowOf (if fmesh then "FMESH".toList else "F".toList) i.data t = .ok r) ts rs →
            (∀ r ∈ rs, rowOf (if fmesh then "FMESH".toList else "F".toList) i.data r.id = .ok r) := by
          intro ts rs hf
          induction hf with
          | nil => simp
          | cons h1 _ ih =>
            intro r hr
            rcases List.mem_cons.1 hr with rfl | hr
            · rw [rowOf_id h1]; exact h1
            · exact ih r hr
        exact this hF r (hperm.mem_iff.1 hr)

/-- **C105 (no tally).** Without tallies the summary fails with `KeyError`. -/
theorem summary_empty (fmesh : Bool) (d : Dict Str (List Str)) : summary fmesh ⟨d, []⟩ = .error .keyError := rfl

/-! ### adding a tally and reading the summary -/

theorem cardLoop_congr {tag : Str} {d d' : Dict Str (List Str)} {id : Nat} {L : List Str}
    (h : ∀ k ∈ L, Dict.get? d k = Dict.get? d' k) (a : Acc) : cardLoop tag d id a L = cardLoop tag d' id a L := by
  induction L generalizing a with
  | nil => rfl
  | cons k ks ih =>
    simp only [cardLoop, cardStep, h k (by simp)]
    have := fun a => ih (fun k hk => h k (List.mem_cons_of_mem _ hk)) a
    simp only [this]

theorem cards_set {d : Dict Str (List Str)} {k : Str} (v : List Str) {t : Nat} (h : isCardOf t k = false) :
    tallyCards (Dict.set d k v) t = tallyCards d t := by
  unfold tallyCards
  rw [Dict.keys_set]
  split_ifs
  · rfl
  · simp [List.filter_append, h]

theorem cards_setOpt {d : Dict Str (List Str)} {k : Str} (v : Option (List Str)) {t : Nat} (h : isCardOf t k = false) :
    tallyCards (setOpt d k v) t = tallyCards d t := by
  cases v with
  | none => rfl
  | some v => exact cards_set v h

theorem not_card {s : String} {id t : Nat} (hs : ∃ ls, s.toList = 'F' :: ls ∧ ∀ c ∈ ls, isLetter c = true)
    (h : t ≠ id) : isCardOf t (name s id) = false := by
  by_contra hc
  rw [Bool.not_eq_false] at hc
  exact h (isCardOf_unique hc (isCardOf_name hs id))

theorem not_card' {s : String} {id t : Nat} {c : Char} {ls : Str} (hs : s.toList = c :: ls) (hc : c ≠ 'F') :
    isCardOf t (name s id) = false := by
  unfold name
  rw [hs, List.cons_append]
  unfold isCardOf
  split
  · rename_i e; exact absurd (List.cons.inj e).1 hc
  · rfl

/-- **C105 (other tallies).** Adding a tally changes no other tally's row. -/
theorem addF_others (wrap : List Str → List Str) (i : Inp) (r : Request) (tag : Str) (t : Nat) (ht : t ≠ r.id) :
    rowOf tag (addF wrap i r).1.data t = rowOf tag i.data t := by
  have n1 : isCardOf t (name "FC" r.id) = false := not_card ⟨['C'], rfl, by decide⟩ ht
  have n2 : isCardOf t (name "FM" r.id) = false := not_card ⟨['M'], rfl, by decide⟩ ht
  have n3 : isCardOf t (name "F" r.id) = false := not_card ⟨[], rfl, by decide⟩ ht
  have n4 : isCardOf t (name "E" r.id) = false := not_card' (c := 'E') (ls := []) rfl (by decide)
  have n5 : isCardOf t (name "SD" r.id) = false := not_card' (c := 'S') (ls := ['D']) rfl (by decide)
  cases hp : particlesStr r.particles with
  | error e => unfold addF; rw [hp]
  | ok ps =>
    obtain ⟨i', e0, _, _, _, _, _, _, hk⟩ := addF_cards wrap i r ps hp
    have hc : tallyCards i'.data t = tallyCards i.data t := by
      have : i' = (addF wrap i r).1 := by rw [e0]
      rw [this]
      unfold addF
      rw [hp]
      simp only
      rw [cards_setOpt _ n2]
      cases r.sd
      · simp only [Bool.false_eq_true, if_false]
        rw [cards_setOpt _ n4, cards_set _ n3, cards_setOpt _ n1]
      · simp only [if_true]
        rw [cards_set _ n5, cards_setOpt _ n4, cards_set _ n3, cards_setOpt _ n1]
    rw [e0]
    unfold rowOf
    simp only [hc]
    rw [cardLoop_congr (d' := i.data)]
    intro k hmem
    have hk' := (List.mem_filter.1 hmem).2
    refine hk k ?_ ?_ ?_ ?_ ?_ <;>
    · rintro rfl
      first
        | (rw [n1] at hk'; cases hk') | (rw [n2] at hk'; cases hk') | (rw [n3] at hk'; cases hk')
        | (rw [n4] at hk'; cases hk') | (rw [n5] at hk'; cases hk')

theorem searchNP_written {w ps : Str} (hw : ∀ c ∈ w, c ≠ ':') (hne : ps ≠ []) (hps : ∀ c ∈ ps, isNP c = true) :
    searchNP (w ++ ':' :: ps ++ ['\n']) = some ps := by
  induction w with
  | nil =>
    have : (ps ++ ['\n']).takeWhile isNP = ps := by
      rw [List.takeWhile_append_of_pos hps]
      simp; decide
    show searchNP (':' :: (ps ++ ['\n'])) = some ps
    simp [searchNP, this, hne]
  | cons c cs ih =>
    have hc := hw c (by simp)
    show searchNP (c :: (cs ++ ':' :: ps ++ ['\n'])) = some ps
    rw [searchNP, if_neg (fun h => hc h.1)]
    exact ih (fun c h => hw c (List.mem_cons_of_mem _ h))

/-- **C105 (round trip).** After adding tally `id`, of which the input had no card, its row in the summary
states the particles in upper case, the description without blanks around it, the first word of the
multiplier as the normalisation and the rest as the other multipliers. -/
theorem addF_row {wrap : List Str → List Str} (hw : WrapOk wrap) (i : Inp) (r : Request) (ps : Str)
    (hfresh : ∀ k ∈ i.data.keys, isCardOf r.id k = false)
    (hp : particlesStr r.particles = .ok ps) (hne : ps ≠ []) (hnp : ∀ c ∈ ps, isNP c = true)
    (hlen : (name "F" r.id ++ ':' :: ps ++ ['\n']).length ≤ 80)
    (hd : ∀ t, r.description = some t → ¬ name "FC" r.id <:+: t ∧ ¬ lower (name "FC" r.id) <:+: t)
    (hm : ∀ t, r.multiplier = some t → tokens t ≠ [] ∧ ¬ name "FM" r.id <:+: t ∧ ¬ lower (name "FM" r.id) <:+: t) :
    rowOf "F".toList (addF wrap i r).1.data r.id = .ok ⟨r.id, some (Inp.upper ps), r.description.map strip,
      r.multiplier.bind (fun t => (tokens t).head?),
      r.multiplier.bind (fun t => if (tokens t).tail = [] then none else some (tokens t).tail)⟩ := by
  obtain ⟨i', e0, _, eF, eC, _, _, eM, hk⟩ := addF_cards wrap i r ps hp
  rw [e0]
  have cC := isCardOf_name (s := "FC") ⟨['C'], rfl, by decide⟩ r.id
  have cM := isCardOf_name (s := "FM") ⟨['M'], rfl, by decide⟩ r.id
  have cF := isCardOf_name (s := "F") ⟨[], rfl, by decide⟩ r.id
  have hnone : ∀ k, isCardOf r.id k = true → Dict.get? i.data k = none := by
    intro k hk
    rw [Dict.get?_eq_none_iff]
    intro h
    rw [hfresh k h] at hk; cases hk
  rw [hnone _ cC, Option.or_none] at eC
  rw [hnone _ cM, Option.or_none] at eM
  have n4 : isCardOf r.id (name "E" r.id) = false := not_card' (c := 'E') (ls := []) rfl (by decide)
  have n5 : isCardOf r.id (name "SD" r.id) = false := not_card' (c := 'S') (ls := ['D']) rfl (by decide)
  have hkeys : ∀ k ∈ i'.data.keys, isCardOf r.id k = true → k = name "F" r.id ∨ k = name "FC" r.id ∨ k = name "FM" r.id := by
    intro k hmem hcard
    by_contra hcon
    push Not at hcon
    have : Dict.get? i'.data k = Dict.get? i.data k := by
      refine hk k hcon.1 hcon.2.1 ?_ ?_ hcon.2.2
      · rintro rfl; rw [n4] at hcard; cases hcard
      · rintro rfl; rw [n5] at hcard; cases hcard
    rw [hnone k hcard, Dict.get?_eq_none_iff] at this
    exact this hmem
  have take2F : ∀ s : Str, (name "F" r.id).take 2 = s → s ≠ "FC".toList ∧ s ≠ "FM".toList := by
    rintro s rfl
    cases hn : natStr r.id with
    | nil => exact absurd hn (natStr_ne_nil _)
    | cons c cs =>
      have hdg := natStr_all_digit r.id c (by rw [hn]; simp)
      have e : (name "F" r.id).take 2 = ['F', c] := by
        unfold name; rw [hn]; rfl
      rw [e]
      constructor <;>
      · intro h
        simp only [String.toList] at h
        have : c = 'C' ∨ c = 'M' := by
          first
            | (left; have : ['F', c] = ['F', 'C'] := h; simpa using this)
            | (right; have : ['F', c] = ['F', 'M'] := h; simpa using this)
        rcases this with rfl | rfl <;> (revert hdg; decide)
  have wC := name_word "FC" (by decide) r.id
  have wM := name_word "FM" (by decide) r.id
  have key := rowOf_spec "F".toList i'.data r.id ((r.description.map strip).getD [])
    ps ((r.multiplier.bind (fun t => (tokens t).head?)).getD []) ((r.multiplier.map (fun t => (tokens t).tail)).getD [])
    (Or.inl rfl)
    (by
      intro k h1 h2 h3
      rcases hkeys k h1 h2 with rfl | rfl | rfl
      · exact absurd h3 (take2F _ rfl).1
      · rfl
      · exfalso; have : "FM".toList = "FC".toList := h3; revert this; decide)
    (by
      intro k h1 h2 h3 _
      rcases hkeys k h1 h2 with rfl | rfl | rfl
      · exact absurd h3 (take2F _ rfl).2
      · exfalso; have : "FC".toList = "FM".toList := h3; revert this; decide
      · rfl)
    (by
      intro c hc
      rw [eC] at hc
      cases hdsc : r.description with
      | none => rw [hdsc] at hc; cases hc
      | some t =>
        rw [hdsc] at hc
        simp only [Option.map_some, Option.some.injEq] at hc
        rw [← hc]
        exact retrieve_written wC (hd t hdsc).1 (hd t hdsc).2 [])
    (by
      intro c hc
      have eF' : Dict.get? i'.data ("F".toList ++ natStr r.id) = _ := eF
      rw [eF'] at hc
      simp only [Option.some.injEq] at hc
      have hh := hw.head _ [entryLine (entries r.cells r.total)] hlen
      rw [hc] at hh
      cases c with
      | nil => cases hh
      | cons l ls =>
        simp only [List.head?_cons, Option.some.injEq] at hh
        refine ⟨l, ls, rfl, ?_⟩
        rw [hh]
        refine searchNP_written ?_ hne hnp
        intro c hc
        unfold name at hc
        rcases List.mem_append.1 hc with h | h
        · simp only [String.toList] at h
          rintro rfl
          revert h; decide
        · rintro rfl
          have := natStr_all_digit _ _ h
          revert this; decide)
    (by
      intro c hc
      rw [eM] at hc
      cases hml : r.multiplier with
      | none => rw [hml] at hc; cases hc
      | some t =>
        rw [hml] at hc
        simp only [Option.map_some, Option.some.injEq] at hc
        obtain ⟨m1, m2, m3⟩ := hm t hml
        rw [← hc]
        unfold retrieveFM
        rw [retrieve_written wM m2 m3 []]
        simp only
        rw [Mctal.tokens_strip]
        cases hT : tokens t with
        | nil => exact absurd hT m1
        | cons x xs => simp [hT])
  have eF' : Dict.get? i'.data ("F".toList ++ natStr r.id) = _ := eF
  rw [eF', eC, eM] at key
  rw [key]
  cases r.description <;> cases hml : r.multiplier with
  | none => simp
  | some t =>
    cases hT : tokens t with
    | nil => exact absurd hT (hm t hml).1
    | cons x xs => simp [hT]

/-- **C105 (round trip of the table).** The summary after adding a fresh tally is the old table with that row
added, sorted by number. -/
theorem addF_summary {wrap : List Str → List Str} (i : Inp) (r : Request) (ps : Str) (row : Row)
    (hp : particlesStr r.particles = .ok ps) (hid : r.id ∉ i.tallies)
    (hrow : rowOf "F".toList (addF wrap i r).1.data r.id = .ok row)
    (rs : List Row) (hrs : rows "F".toList i.data i.tallies = .ok rs) :
    ∃ rs', summary false (addF wrap i r).1 = .ok rs' ∧ rs'.Perm (rs ++ [row]) ∧
      rs'.Pairwise (fun a b => a.id ≤ b.id) := by
  obtain ⟨i', e0, e1, _⟩ := addF_cards wrap i r ps hp
  have hR : rows "F".toList (addF wrap i r).1.data (i.tallies ++ [r.id]) = .ok (rs ++ [row]) := by
    rw [rows_ok_iff]
    refine List.rel_append ?_ (.cons hrow .nil)
    have h := rows_ok_iff.1 hrs
    have key : ∀ {ts : List Nat} {rs : List Row}, (∀ t ∈ ts, t ≠ r.id) →
        List.Forall₂ (fun t r => rowOf "F".toList i.data t = .ok r) ts rs →
        List.Forall₂ (fun t x => rowOf "F".toList (addF wrap i r).1.data t = .ok x) ts rs := by
      intro ts rs hne hf
      induction hf with
      | nil => exact .nil
      | cons h1 _ ih =>
        refine .cons ?_ (ih (fun t ht => hne t (List.mem_cons_of_mem _ ht)))
        rw [addF_others wrap i r "F".toList _ (hne _ (by simp))]
        exact h1
    exact key (fun t ht h' => hid (h' ▸ ht)) h
  have e1' : (addF wrap i r).1.tallies = i.tallies ++ [r.id] := by rw [e0]; exact e1
  have hs : summary false (addF wrap i r).1 = .ok ((rs ++ [row]).insertionSort (fun a b => a.id ≤ b.id)) := by
    unfold summary
    simp only [Bool.false_eq_true, if_false]
    rw [e1', hR]
    cases rs <;> rfl
  exact ⟨_, hs, List.perm_insertionSort _ _, (summary_rows_partial false _ _ hs).1⟩

/-- **C105 (false for other particles).** A registered tally whose card states no neutron or photon after the
colon makes the whole summary fail. -/
theorem summary_particle_error (i : Inp) (t : Nat) (ht : t ∈ i.tallies) (l : Str) (ls : List Str)
    (hc : Dict.get? i.data (name "F" t) = some (l :: ls)) (hn : searchNP l = none) :
    ∃ e, summary false i = .error e := by
  have hrow : ∃ e, rowOf "F".toList i.data t = .error e := by
    have hmem : name "F" t ∈ tallyCards i.data t := by
      refine List.mem_filter.2 ⟨?_, isCardOf_name (s := "F") ⟨[], rfl, by decide⟩ t⟩
      rw [← Dict.has_iff, Dict.has, hc]; rfl
    have key : ∀ (L : List Str) (a : Acc), name "F" t ∈ L → ∃ e, cardLoop "F".toList i.data t a L = .error e := by
      intro L
      induction L with
      | nil => intro a h; cases h
      | cons k ks ih =>
        intro a h
        simp only [cardLoop]
        cases hs : cardStep "F".toList i.data t a k with
        | error e => exact ⟨e, rfl⟩
        | ok a' =>
          rcases List.mem_cons.1 h with rfl | h
          · exfalso
            unfold cardStep at hs
            have h2 : (name "F" t).take 2 ≠ "FC".toList := by
              cases hn : natStr t with
              | nil => exact absurd hn (natStr_ne_nil _)
              | cons c cs =>
                have hdg := natStr_all_digit t c (by rw [hn]; simp)
                intro h
                unfold name at h; rw [hn] at h
                have : ['F', c] = ['F', 'C'] := h
                simp only [List.cons.injEq, true_and, and_true] at this
                rw [this] at hdg
                revert hdg; decide
            simp only [h2, if_false, hc, Option.getD_some, hn] at hs
            rw [if_pos (show name "F" t = "F".toList ++ natStr t from rfl)] at hs
            cases hs
          · exact ih a' h
    obtain ⟨e, he⟩ := key _ {} hmem
    exact ⟨e, by unfold rowOf; rw [he]⟩
  obtain ⟨e, he⟩ := rows_error ht hrow
  refine ⟨e, ?_⟩
  unfold summary
  simp only [Bool.false_eq_true, if_false]
  rw [he]

/-- a line says no neutron or photon when no colon in it is followed by one of `n`, `N`, `p`, `P` or a comma -/
theorem searchNP_none {l : Str} (h : ∀ a c s, l = a ++ ':' :: c :: s → isNP c = false) : searchNP l = none := by
  induction l with
  | nil => rfl
  | cons c cs ih =>
    rw [searchNP, if_neg, ih (fun a c' s e => h (c :: a) c' s (by rw [e]; rfl))]
    rintro ⟨rfl, hne⟩
    cases cs with
    | nil => exact hne rfl
    | cons c' cs =>
      rw [List.takeWhile_cons, h [] c' cs rfl] at hne
      exact hne rfl

/-! ### C106: the stop card -/

/-- **C106.** `add_stopCard` sets the card `NPS` to the requested number of histories, rounded towards zero, and
changes no other card. -/
theorem addStop_spec (d : Dict Str (List Str)) (nps : ℚ) :
    (∃ c n, Dict.get? (addStop d nps) "NPS".toList = some c ∧ cardWords c = ["NPS".toList, intStr n] ∧
      (0 ≤ nps → (n : ℚ) ≤ nps ∧ nps < n + 1) ∧ (nps ≤ 0 → nps ≤ n ∧ (n : ℚ) - 1 < nps)) ∧
    ∀ k, k ≠ "NPS".toList → Dict.get? (addStop d nps) k = Dict.get? d k := by
  refine ⟨⟨["NPS ".toList ++ intStr (truncR nps) ++ " \n".toList], truncR nps, ?_, ?_, ?_, ?_⟩, ?_⟩
  · unfold addStop; rw [Dict.get?_set_self]
  · simp only [cardWords, List.flatMap_cons, List.flatMap_nil, List.append_nil]
    have e : "NPS ".toList ++ intStr (truncR nps) ++ " \n".toList =
        "NPS".toList ++ ' ' :: (intStr (truncR nps) ++ ' ' :: ['\n']) := by
      simp [List.append_assoc]
    rw [e, tokens_word_space (by decide), tokens_word_space (intStr_isWord _)]
    rw [show tokens ['\n'] = [] by decide]
  · intro h
    have hn : 0 ≤ nps.num := Rat.num_nonneg.2 h
    have he : truncR nps = ⌊nps⌋ := by
      unfold truncR
      rw [Int.tdiv_eq_ediv_of_nonneg hn, Rat.floor_def']
    rw [he]
    exact ⟨Int.floor_le _, Int.lt_floor_add_one _⟩
  · intro h
    have hn : 0 ≤ (-nps).num := Rat.num_nonneg.2 (by linarith)
    have he : truncR nps = -⌊-nps⌋ := by
      unfold truncR
      rw [Rat.floor_def', ← Int.tdiv_eq_ediv_of_nonneg hn, Rat.neg_num, Rat.neg_den, Int.neg_tdiv, neg_neg]
    rw [he]
    have h1 := Int.floor_le (-nps)
    have h2 := Int.lt_floor_add_one (-nps)
    push_cast
    constructor <;> linarith
  · intro k hk
    unfold addStop
    rw [Dict.get?_set_ne _ _ hk.symm]

/-! ### C107: the summary of the cells -/

theorem cellRows_ok {cells : List (Str × CellInfo)} {rs : List (ℤ × CellInfo)} (h : cellRows cells = .ok rs) :
    List.Forall₂ (fun kc r => parseInt kc.1 = some r.1 ∧ r.2 = kc.2) cells rs := by
  induction cells generalizing rs with
  | nil => simp only [cellRows, Except.ok.injEq] at h; subst h; exact .nil
  | cons kc cs ih =>
    obtain ⟨k, c⟩ := kc
    simp only [cellRows] at h
    cases hk : parseInt k with
    | none => rw [hk] at h; cases h
    | some n =>
      rw [hk] at h
      cases hr : cellRows cs with
      | error e => simp only [hr] at h; cases h
      | ok rs' =>
        simp only [hr, Except.ok.injEq] at h
        subst h
        exact .cons ⟨hk, rfl⟩ (ih hr)

/-- **C107.** For cells named by their numbers the summary has exactly one row per cell, with that cell's
material, density, universe and filler, sorted by number. -/
theorem cellsSummary_spec (cells : List (ℤ × CellInfo)) (hne : cells ≠ []) :
    ∃ rs, cellsSummary (cells.map fun c => (intStr c.1, c.2)) = .ok rs ∧ rs.Perm cells ∧
      rs.Pairwise (fun a b => a.1 ≤ b.1) := by
  have h : cellRows (cells.map fun c => (intStr c.1, c.2)) = .ok cells := by
    clear hne
    induction cells with
    | nil => rfl
    | cons c cs ih =>
      simp only [List.map_cons, cellRows, parseInt_intStr, ih]
  refine ⟨cells.insertionSort (fun a b => a.1 ≤ b.1), ?_, List.perm_insertionSort _ _, ?_⟩
  · unfold cellsSummary
    rw [h]
    cases cells with
    | nil => exact absurd rfl hne
    | cons c cs => rfl
  · have : Std.Total (fun a b : ℤ × CellInfo => a.1 ≤ b.1) := ⟨fun a b => Int.le_total _ _⟩
    have : IsTrans (ℤ × CellInfo) (fun a b => a.1 ≤ b.1) := ⟨fun a b c => Int.le_trans⟩
    exact List.pairwise_insertionSort _ _

/-- **C107 (otherwise).** A cell whose name is no number makes the summary fail with `ValueError`; without
cells it fails with `KeyError`. -/
theorem cellsSummary_fails (cells : List (Str × CellInfo)) :
    cellsSummary [] = .error .keyError ∧
      ((∃ c ∈ cells, parseInt c.1 = none) → cellsSummary cells = .error .valueError) := by
  refine ⟨rfl, ?_⟩
  intro h
  have key : cellRows cells = .error .valueError := by
    induction cells with
    | nil => obtain ⟨c, hc, _⟩ := h; cases hc
    | cons kc cs ih =>
      obtain ⟨k, c⟩ := kc
      simp only [cellRows]
      cases hk : parseInt k with
      | none => rfl
      | some n =>
        obtain ⟨c', hc, hn⟩ := h
        rcases List.mem_cons.1 hc with rfl | hc
        · rw [hk] at hn; cases hn
        · simp only [ih ⟨c', hc, hn⟩]
  unfold cellsSummary
  rw [key]

/-! ### examples -/

/-- no line is long enough to be wrapped -/
theorem wrapOk_id : WrapOk id := ⟨fun _ => rfl, fun _ _ _ => rfl⟩

/-- `exReq` (example) -/
def exReq : Request :=
  { id := 4, particles := ["n".toList, "p".toList], cells := ["10".toList, "20".toList, "30".toList], total := true,
    energies := some ["1.0000e-01".toList, "2.0000e+01".toList], description := some " total flux ".toList,
    multiplier := some "1.5 2 -6".toList }

/-- `exInp` (example) -/
def exInp : Inp :=
  ⟨[("F14".toList, ["F14:P".toList, "   5".toList]), ("SDEF".toList, ["SDEF".toList])], [14]⟩

/-- the hypotheses of the round trip hold of a concrete request, next to a tally 14 -/
example : particlesStr exReq.particles = .ok "n,p".toList ∧ (∀ k ∈ exInp.data.keys, isCardOf exReq.id k = false) ∧
    (∀ c ∈ "n,p".toList, isNP c = true) ∧ exReq.id ∉ exInp.tallies ∧
    (name "F" exReq.id ++ ':' :: "n,p".toList ++ ['\n']).length ≤ 80 ∧
    contains (name "FC" 4) " total flux ".toList = false ∧ contains (lower (name "FC" 4)) " total flux ".toList = false ∧
    contains (name "FM" 4) "1.5 2 -6".toList = false ∧ contains (lower (name "FM" 4)) "1.5 2 -6".toList = false := by
  decide +kernel

/-- and the summary is the table with both tallies -/
example : (summary false (addF id exInp exReq).1).toOption =
    some [⟨4, some "N,P".toList, some "total flux".toList, some "1.5".toList, some ["2".toList, "-6".toList]⟩,
      ⟨14, some "P".toList, none, none, none⟩] := by decide +kernel

/-- **C105 (false: the tag in the description).** The tally's own tag is deleted from the description. -/
theorem description_tag_lost :
    (summary false (addF id exInp { exReq with description := some "see FC4 and fc4".toList }).1).toOption.map
      (fun rs => rs.map Row.description) = some [some "see  and".toList, none] := by decide +kernel

/-- **C105 (false: the multiplier of a mesh tally).** With `fmesh = False`, the card `FMESH4` is read as the
multiplier of tally 4. -/
theorem fmesh_as_multiplier :
    (summary false ⟨[("F4".toList, ["F4:N 1\n".toList]), ("FMESH4".toList, ["FMESH4:N GEOM=XYZ\n".toList])], [4]⟩).toOption =
      some [⟨4, some "N".toList, none, some ":N".toList, some ["GEOM=XYZ".toList]⟩] := by decide +kernel

/-- **C105 (false: an `FM` card with nothing behind its name).** It is an `IndexError` for the whole summary. -/
theorem empty_multiplier :
    (match summary false ⟨[("F4".toList, ["F4:N 1\n".toList]), ("FM4".toList, ["FM4\n".toList])], [4]⟩ with
      | .error e => decide (e = .indexError)
      | .ok _ => false) = true := by decide +kernel

/-- a charged particle: the summary fails -/
example : searchNP "F4:h".toList = none := by decide +kernel

end F4Enix.Tally
