import Verif.Out.EeoutHead
import Mathlib.Data.List.Infix
/-!
# Reading of the edits of an eeout file (C125)
-/
namespace F4Enix.Eeout
open F4Enix

variable {K : Type}

/-! ### names of the edits -/

/-- the tag begins nowhere in the text (proof) -/
def noStart (tag a : Str) : Bool := a.tails.all (fun t => t.isEmpty || decide (tag.take t.length ≠ t.take tag.length))

theorem afterAt_none {tag : String} {p : Char → Bool} {s : Str} (h : ¬ tag.toList <+: s) : afterAt tag p s = none := by
  unfold afterAt
  rw [isPrefixOf_false h, if_neg (by simp)]

theorem search_noStart {tag : String} {p : Char → Bool} {a s : Str} (h : noStart tag.toList a = true) :
    Find.search (afterAt tag p) (a ++ s) = Find.search (afterAt tag p) s := by
  apply Find.search_skip
  intro x y hxy hy
  apply afterAt_none
  rintro ⟨z, hz⟩
  have h1 := List.all_eq_true.1 h y ((List.mem_tails y a).2 ⟨x, hxy⟩)
  simp only [Bool.or_eq_true, List.isEmpty_iff, decide_eq_true_eq] at h1
  rcases h1 with h1 | h1
  · exact hy h1
  · apply h1
    have e1 := congrArg (List.take (min y.length tag.toList.length)) hz
    rw [List.take_append_of_le_length (Nat.min_le_right _ _), List.take_append_of_le_length (Nat.min_le_left _ _)] at e1
    rcases Nat.le_total y.length tag.toList.length with hl | hl
    · rw [Nat.min_eq_left hl, List.take_length] at e1
      rw [e1, List.take_of_length_le hl]
    · rw [Nat.min_eq_right hl, List.take_length] at e1
      rw [← e1, List.take_of_length_le hl]

theorem search_digits {tag : String} {p : Char → Bool} {c : Char} {tl : Str} (ht : tag.toList = c :: tl) (hc : isDigit c = false) (n : ℕ) (s : Str) :
    Find.search (afterAt tag p) (natStr n ++ s) = Find.search (afterAt tag p) s := by
  apply Find.search_skip
  intro x y hxy hy
  apply afterAt_none
  rintro ⟨z, hz⟩
  cases y with
  | nil => exact hy rfl
  | cons d y =>
    rw [ht, List.cons_append, List.cons_append, List.cons.injEq] at hz
    have := natStr_digits n d (hxy ▸ by simp)
    rw [← hz.1, hc] at this
    cases this

theorem search_hit {tag : String} {p : Char → Bool} {w s : Str} (htag : tag.toList ≠ []) (hne : w ≠ []) (hw : ∀ c ∈ w, p c = true ∧ isSpace c = false)
    (hs : ∀ c t, s = c :: t → p c = false) : Find.search (afterAt tag p) (tag.toList ++ ' ' :: (w ++ s)) = some w := by
  have hm : afterAt tag p (tag.toList ++ ' ' :: (w ++ s)) = some w := by
    unfold afterAt
    have e1 : tag.toList.isPrefixOf (tag.toList ++ ' ' :: (w ++ s)) = true := List.isPrefixOf_iff_prefix.2 (List.prefix_append _ _)
    have e2 : (tag.toList ++ ' ' :: (w ++ s)).drop tag.toList.length = ' ' :: (w ++ s) := List.drop_left' rfl
    have e3 : lstrip (' ' :: (w ++ s)) = w ++ s := by
      rw [lstrip_cons_space (by decide), lstrip_of_not_startsSpace]
      cases w with
      | nil => exact absurd rfl hne
      | cons c w => exact (hw c (by simp)).2
    have e4 : (w ++ s).takeWhile p = w := (Find.takeWhile_run (fun c hc => (hw c hc).1) hs).1
    rw [e1, e2, e3, e4, if_pos ⟨rfl, rfl, hne⟩]
  cases ht : tag.toList with
  | nil => exact absurd ht htag
  | cons c t =>
    rw [ht, List.cons_append] at hm
    rw [List.cons_append, Find.search, hm]

theorem wordChar_space {c : Char} (h : isWordChar c = true) : isSpace c = false := by
  cases hc : isSpace c with
  | false => rfl
  | true =>
    exfalso
    have h1 : (65 ≤ c.toNat ∧ c.toNat ≤ 122) ∨ (48 ≤ c.toNat ∧ c.toNat ≤ 57) := by
      simp only [isWordChar, isDigit, Bool.or_eq_true, Bool.and_eq_true, decide_eq_true_eq, beq_iff_eq] at h
      rcases h with ((h | h) | h) | h
      · left; omega
      · left; omega
      · right; exact h
      · left; rw [h]; decide
    simp only [isSpace, Bool.or_eq_true, Bool.and_eq_true, decide_eq_true_eq, beq_iff_eq] at hc
    omega

/-- the name of the edit is in its first line -/
theorem editName_ok (p e : ℕ) {t : Str} (hne : t ≠ []) (ht : ∀ c ∈ t, isWordChar c = true) :
    editName (editHead p e t) = .ok ("Tally".toList ++ natStr e ++ "_par".toList ++ natStr p ++ '_' :: t) := by
  have hd : ∀ n : ℕ, ∀ c ∈ natStr n, isDigit c = true ∧ isSpace c = false := fun n c hc =>
    ⟨natStr_digits n c hc, (natStr_isWord n).2 c hc⟩
  have e1 : Find.search (afterAt "DATA OUTPUT PARTICLE :" isDigit) (editHead p e t) = some (natStr p) := by
    have := search_noStart (tag := "DATA OUTPUT PARTICLE :") (p := isDigit) (a := " ".toList)
      (s := "DATA OUTPUT PARTICLE :".toList ++ ' ' :: (natStr p ++ (" ; EDIT LIST : ".toList ++ (natStr e ++ (" ; TYPE : ".toList ++ (t ++ ['\n']))))))
      (by decide)
    have e0 : editHead p e t = " ".toList ++ ("DATA OUTPUT PARTICLE :".toList ++ ' ' :: (natStr p ++ (" ; EDIT LIST : ".toList ++ (natStr e ++
        (" ; TYPE : ".toList ++ (t ++ ['\n'])))))) := by
      unfold editHead
      rw [show " DATA OUTPUT PARTICLE : ".toList = " ".toList ++ ("DATA OUTPUT PARTICLE :".toList ++ [' ']) by decide]
      simp only [List.append_assoc, List.cons_append, List.nil_append]
    rw [e0, this]
    refine search_hit (by decide) (natStr_ne_nil p) (hd p) ?_
    intro c s hc
    have : c = ' ' := by
      have := congrArg List.head? hc
      simpa using this.symm
    rw [this]; decide
  have e2 : Find.search (afterAt "EDIT LIST :" isDigit) (editHead p e t) = some (natStr e) := by
    unfold editHead
    rw [search_noStart (by decide), search_digits (c := 'E') (tl := "DIT LIST :".toList) (by decide) (by decide)]
    have := search_noStart (tag := "EDIT LIST :") (p := isDigit) (a := " ; ".toList)
      (s := "EDIT LIST :".toList ++ ' ' :: (natStr e ++ (" ; TYPE : ".toList ++ (t ++ ['\n'])))) (by decide)
    rw [show " ; EDIT LIST : ".toList = " ; ".toList ++ ("EDIT LIST :".toList ++ [' ']) by decide]
    simp only [List.append_assoc, List.cons_append, List.nil_append]
    rw [this]
    refine search_hit (by decide) (natStr_ne_nil e) (hd e) ?_
    intro c s hc
    have : c = ' ' := by
      have := congrArg List.head? hc
      simpa using this.symm
    rw [this]; decide
  have e3 : Find.search (afterAt "TYPE :" isWordChar) (editHead p e t) = some t := by
    unfold editHead
    rw [search_noStart (by decide), search_digits (c := 'T') (tl := "YPE :".toList) (by decide) (by decide), search_noStart (by decide),
      search_digits (c := 'T') (tl := "YPE :".toList) (by decide) (by decide)]
    have := search_noStart (tag := "TYPE :") (p := isWordChar) (a := " ; ".toList) (s := "TYPE :".toList ++ ' ' :: (t ++ ['\n'])) (by decide)
    rw [show " ; TYPE : ".toList = " ; ".toList ++ ("TYPE :".toList ++ [' ']) by decide]
    simp only [List.append_assoc, List.cons_append, List.nil_append]
    rw [this]
    refine search_hit (by decide) hne (fun c hc => ⟨ht c hc, wordChar_space (ht c hc)⟩) ?_
    intro c s hc
    rw [List.cons.injEq] at hc
    rw [← hc.1]; decide
  unfold editName
  rw [e1, e2, e3]
  simp [digitsVal_natStr]

/-! ### lines of the edits -/

theorem edit_filler {pf : Str → Option K} {d : Dict Str (Field K)} {c : Option Str} {l : Str} (h : Filler l) (rest : List Str) :
    editsLoop pf ⟨d, c, none⟩ (l :: rest) = editsLoop pf ⟨d, c, none⟩ rest := by
  obtain ⟨h1, h2, h3, h4⟩ := h
  rw [editsLoop, editStep, has_false h1, has_false h2, has_false h3, has_false h4]
  simp

theorem edit_fillers {pf : Str → Option K} {d : Dict Str (Field K)} {c : Option Str} {A : List Str} (h : ∀ l ∈ A, Filler l) (rest : List Str) :
    editsLoop pf ⟨d, c, none⟩ (A ++ rest) = editsLoop pf ⟨d, c, none⟩ rest := by
  induction A with
  | nil => rfl
  | cons l A ih => rw [List.cons_append, edit_filler (h l (by simp)), ih (fun x hx => h x (by simp [hx]))]

theorem edit_nums {pf : Str → Option K} {d : Dict Str (Field K)} {c : Option Str} {w : Which} {N : List Str} {vs : List K} (h : NumLines pf N vs)
    (acc : List K) (rest : List Str) :
    editsLoop pf ⟨d, c, some (w, acc)⟩ (N ++ rest) = editsLoop pf ⟨d, c, some (w, acc ++ vs)⟩ rest := by
  obtain ⟨wss, rfl, h1, h2⟩ := h
  induction wss generalizing vs acc with
  | nil =>
    have : vs = [] := by
      cases vs with
      | nil => rfl
      | cons v vs => cases h2
    subst this
    simp
  | cons us wss ih =>
    rw [List.flatten_cons, List.map_append] at h2
    obtain ⟨v, v', rfl, e1, e2⟩ := List.map_eq_append_iff.1 h2.symm
    obtain ⟨hne, hw⟩ := h1 us (by simp)
    have tg : ∀ tag : String, 'T' ∈ tag.toList → has tag (numLine us) = false := fun tag ht => has_false (numLine_tag hw ht (by decide))
    rw [List.map_cons, List.cons_append, editsLoop, editStep, tg "DATA OUTPUT PARTICLE" (by decide), tg "DATA SETS RESULT TIME BIN" (by decide),
      tg "DATA SETS REL ERROR TIME BIN" (by decide), tg "CENTROIDS X" (by decide)]
    simp only [Bool.false_eq_true, if_false, numLine_value hne hw, if_true, tokens_numLine hw, floats_ok e1.symm, Bool.or_false]
    rw [ih _ (fun x hx => h1 x (by simp [hx])) e2.symm, List.append_assoc]

theorem edit_record {pf : Str → Option K} {d : Dict Str (Field K)} {n : Str} {f : Field K} {w : Which} {acc : List K} {l : Str} (h : IsRecord l)
    (rest : List Str) :
    editsLoop pf ⟨Dict.set d n f, some n, some (w, acc)⟩ (l :: rest) = editsLoop pf ⟨Dict.set d n (f.put w (acc.drop 1)), some n, none⟩ rest := by
  have tg : ∀ tag : String, 'T' ∈ tag.toList → has tag l = false := fun tag ht => has_false (record_tag h ht (by decide))
  rw [editsLoop, editStep, tg "DATA OUTPUT PARTICLE" (by decide), tg "DATA SETS RESULT TIME BIN" (by decide),
      tg "DATA SETS REL ERROR TIME BIN" (by decide), tg "CENTROIDS X" (by decide)]
  simp only [Bool.false_eq_true, if_false, record_not_value h, Bool.or_false, Dict.get?_set_self, Option.getD_some, set_set]

theorem edit_trigger {pf : Str → Option K} {d : Dict Str (Field K)} {c : Option Str} {w : Which} {l : Str} (h : Trigger l w) (rest : List Str) :
    editsLoop pf ⟨d, c, none⟩ (l :: rest) = editsLoop pf ⟨d, c, some (w, [])⟩ rest := by
  cases w with
  | values =>
    obtain ⟨h1, h2, h3⟩ := h
    have h4 : "RESULT".toList <:+: l := List.IsInfix.trans (by decide) h1
    rw [editsLoop, editStep, has_false h2, has_false h3, (has_iff _ _).2 h1, (has_iff _ _).2 h4]
    simp
  | errors =>
    obtain ⟨h1, h2, h3, h4⟩ := h
    rw [editsLoop, editStep, has_false h2, has_false h3, has_false h4, (has_iff _ _).2 h1]
    simp

theorem edit_body {pf : Str → Option K} {ls : List Str} {bs : List (Which × List K)} (h : Body pf ls bs) (d : Dict Str (Field K)) (n : Str)
    (f : Field K) (rest : List Str) :
    editsLoop pf ⟨Dict.set d n f, some n, none⟩ (ls ++ rest) =
      editsLoop pf ⟨Dict.set d n (bs.foldl (fun f b => f.put b.1 b.2) f), some n, none⟩ rest := by
  induction h generalizing f with
  | nil => rfl
  | filler h hr ih => rw [List.cons_append, edit_filler h, ih]
  | block ht hv he hr ih =>
    rw [List.cons_append, edit_trigger ht, List.append_assoc, edit_nums hv, List.cons_append, edit_record he, ih]
    rfl

theorem lastOf_append (w : Which) (bs : List (Which × List K)) (b : Which × List K) :
    lastOf w (bs ++ [b]) = if b.1 = w then some b.2 else lastOf w bs := by
  unfold lastOf
  rw [List.filter_append]
  by_cases h : b.1 = w
  · simp [h]
  · simp [h]

/-- only the last block of each kind is kept -/
theorem put_last (bs : List (Which × List K)) (f : Field K) :
    bs.foldl (fun f b => f.put b.1 b.2) f = ⟨(lastOf .values bs).or f.values, (lastOf .errors bs).or f.errors⟩ := by
  induction bs using List.reverseRecOn with
  | nil => rfl
  | append_singleton bs b ih =>
    rw [List.foldl_append, ih, lastOf_append, lastOf_append]
    obtain ⟨w, v⟩ := b
    cases w <;> simp [Field.put]

/-- the result of the edits (proof) -/
def found (es : List (Edit K)) : Dict Str (Field K) := es.map (fun e => (e.name, ⟨lastOf .values e.blocks, lastOf .errors e.blocks⟩))

theorem edit_lines {pf : Str → Option K} {ls : List Str} {es : List (Edit K)} (h : EditLines pf ls es) (d : Dict Str (Field K)) (c : Option Str)
    (hn : (d.map Prod.fst ++ es.map Edit.name).Nodup) (rest : List Str) :
    ∃ c', editsLoop pf ⟨d, c, none⟩ (ls ++ rest) = editsLoop pf ⟨d ++ found es, c', none⟩ rest := by
  induction h generalizing d c with
  | nil => exact ⟨c, by simp [found]⟩
  | @cons ls ls' e es ht hn' hb hr ih =>
    have h1 : has "DATA OUTPUT PARTICLE" (editHead e.particle e.number e.type) = true :=
      (has_iff _ _).2 (List.IsInfix.trans (l₂ := " DATA OUTPUT PARTICLE : ".toList) (by decide) (List.prefix_append _ _).isInfix)
    have hname : editName (editHead e.particle e.number e.type) = .ok e.name := by
      unfold Edit.name
      exact editName_ok e.particle e.number ht.1 ht.2
    have hfresh : e.name ∉ d.map Prod.fst := fun hm => (List.nodup_append.1 hn).2.2 _ hm _ (by simp) rfl
    have hd : (d ++ [(e.name, (⟨lastOf .values e.blocks, lastOf .errors e.blocks⟩ : Field K))]).map Prod.fst ++ es.map Edit.name =
        d.map Prod.fst ++ (e :: es).map Edit.name := by simp
    obtain ⟨c', hc'⟩ := ih (d ++ [(e.name, (⟨lastOf .values e.blocks, lastOf .errors e.blocks⟩ : Field K))]) (some e.name) (hd ▸ hn)
    refine ⟨c', ?_⟩
    rw [List.cons_append, editsLoop, editStep, h1, hname, has_false hn'.1, has_false hn'.2.1, has_false hn'.2.2]
    have hor : (false || false) = false := rfl
    simp only [if_true, hor, Bool.false_eq_true, if_false]
    have hb' := edit_body hb d e.name {} (ls' ++ rest)
    rw [put_last] at hb'
    simp only [Option.or_none] at hb'
    rw [set_fresh (⟨lastOf .values e.blocks, lastOf .errors e.blocks⟩ : Field K) hfresh, hc'] at hb'
    rw [List.append_assoc]
    rw [hb']
    simp [found]

theorem edits_read {pf : Str → Option K} {nh ch : Str} {D ls rest : List Str} {es : List (Edit K)} (hnh : Filler nh) (hD : ∀ l ∈ D, Filler l)
    (h : EditLines pf ls es) (hn : (es.map Edit.name).Nodup)
    (hch : "CENTROIDS X".toList <:+: ch ∧ ¬ "DATA OUTPUT PARTICLE".toList <:+: ch) :
    editsLoop pf {} (nh :: (D ++ (ls ++ ch :: rest))) = .ok (found es, ch :: rest) := by
  obtain ⟨c', hc'⟩ := edit_lines h [] none (by simpa using hn) (ch :: rest)
  rw [edit_filler hnh, edit_fillers hD, hc', editsLoop, editStep, has_false hch.2, (has_iff _ _).2 hch.1]
  cases has "DATA SETS RESULT TIME BIN" ch <;> cases has "DATA SETS REL ERROR TIME BIN" ch <;> simp

end F4Enix.Eeout
