import Verif.Base.Tokens
/-!
# Words and lines of an initial part of a text

What `str.split` and the lines of a file give for a text that was cut off (C198, C199).
-/
namespace F4Enix

/-! ## Words and lines of an initial part -/

theorem tokens_char_end {c : Char} (hc : isSpace c = false) {s : Str} (hs : s = [] ∨ startsSpace s = true) :
    tokens (c :: s) = [c] :: tokens s := by
  have hw : IsWord [c] := ⟨by simp, by simpa using hc⟩
  simpa using tokens_word hw hs

theorem tokens_char {c : Char} (hc : isSpace c = false) {s : Str} (h0 : s ≠ []) (hs : startsSpace s = false) :
    ∃ t ts, tokens s = t :: ts ∧ tokens (c :: s) = (c :: t) :: ts := by
  unfold tokens
  cases s with
  | nil => exact absurd rfl h0
  | cons d s =>
    have hd : isSpace d = false := by simpa [startsSpace] using hs
    obtain ⟨u, us, hu⟩ := List.exists_cons_of_ne_nil (splitWs_ne_nil s)
    have e1 : splitWs (d :: s) = (d :: u) :: us := by simp [splitWs, hd, hu]
    have e2 : splitWs (c :: d :: s) = (c :: d :: u) :: us := by rw [splitWs, e1]; simp [hc]
    refine ⟨d :: u, us.filter (fun t => decide (t ≠ [])), ?_, ?_⟩
    · rw [e1]; simp
    · rw [e2]; simp

theorem tokens_append_space (a : Str) {c : Char} (hc : isSpace c = true) (b : Str) :
    tokens (a ++ c :: b) = tokens a ++ tokens b := by
  induction a with
  | nil => simp [tokens_nil, tokens_space b hc]
  | cons d a ih =>
    by_cases hd : isSpace d = true
    · rw [List.cons_append, tokens_space _ hd, tokens_space _ hd, ih]
    · have hd : isSpace d = false := by simpa using hd
      cases a with
      | nil =>
        rw [List.cons_append, List.nil_append, tokens_char_end hd (Or.inr (by simpa [startsSpace] using hc)),
          tokens_char_end hd (Or.inl rfl), tokens_space b hc, tokens_nil]
        rfl
      | cons e a =>
        by_cases he : startsSpace (e :: a) = true
        · rw [List.cons_append, tokens_char_end hd (s := (e :: a) ++ c :: b) (Or.inr (by simpa [startsSpace] using he)),
            tokens_char_end hd (Or.inr he), ih]
          rfl
        · have he : startsSpace (e :: a) = false := by simpa using he
          obtain ⟨t, ts, h1, h2⟩ := tokens_char hd (s := e :: a) (by simp) he
          obtain ⟨t', ts', h1', h2'⟩ := tokens_char hd (s := (e :: a) ++ c :: b) (by simp) (by simpa [startsSpace] using he)
          rw [List.cons_append, h2', h2]
          rw [ih, h1, List.cons_append] at h1'
          obtain ⟨rfl, rfl⟩ := List.cons.inj h1'
          rfl

/-- the words of an initial part of a text: the first words of the text, the last one perhaps cut -/
theorem tokens_prefix {cut s : Str} (h : cut <+: s) :
    tokens cut <+: tokens s ∨
      ∃ ts w w', w' ≠ [] ∧ w' <+: w ∧ tokens cut = ts ++ [w'] ∧ ts ++ [w] <+: tokens s := by
  induction s generalizing cut with
  | nil =>
    have : cut = [] := List.prefix_nil.mp h
    subst this; exact Or.inl (List.prefix_refl _)
  | cons c s ih =>
    cases cut with
    | nil => exact Or.inl (by rw [tokens_nil]; exact List.nil_prefix)
    | cons d cut =>
      obtain ⟨e0, h'⟩ := List.cons_prefix_cons.mp h
      subst e0
      clear h
      rename' h' => h
      by_cases hd : isSpace d = true
      · rw [tokens_space _ hd, tokens_space _ hd]; exact ih h
      · have hd : isSpace d = false := by simpa using hd
        by_cases hs : s = [] ∨ startsSpace s = true
        · have hc : cut = [] ∨ startsSpace cut = true := by
            cases cut with
            | nil => exact Or.inl rfl
            | cons e cut =>
              right
              cases s with
              | nil => simp at h
              | cons e' s =>
                obtain ⟨rfl, _⟩ := List.cons_prefix_cons.mp h
                simpa [startsSpace] using hs
          rw [tokens_char_end hd hs, tokens_char_end hd hc]
          rcases ih h with h | ⟨ts, w, w', h0, h1, h2, h3⟩
          · exact Or.inl (List.cons_prefix_cons.mpr ⟨rfl, h⟩)
          · exact Or.inr ⟨[d] :: ts, w, w', h0, h1, by rw [h2]; rfl, List.cons_prefix_cons.mpr ⟨rfl, h3⟩⟩
        · push Not at hs
          have hs2 : startsSpace s = false := by simpa using hs.2
          obtain ⟨t, ts, e1, e2⟩ := tokens_char hd hs.1 hs2
          cases cut with
          | nil =>
            right
            refine ⟨[], d :: t, [d], by simp, by simp, ?_, ?_⟩
            · rw [tokens_char_end hd (Or.inl rfl), tokens_nil]; rfl
            · rw [e2]; simp
          | cons e cut =>
            have hc2 : startsSpace (e :: cut) = false := by
              cases s with
              | nil => exact absurd rfl hs.1
              | cons e' s =>
                obtain ⟨rfl, _⟩ := List.cons_prefix_cons.mp h
                simpa [startsSpace] using hs2
            obtain ⟨t', ts', f1, f2⟩ := tokens_char hd (s := e :: cut) (by simp) hc2
            rw [e2, f2]
            rcases ih h with h | ⟨us, w, w', h0, h1, h2, h3⟩
            · rw [e1, f1] at h
              obtain ⟨rfl, h'⟩ := List.cons_prefix_cons.mp h
              exact Or.inl (List.cons_prefix_cons.mpr ⟨rfl, h'⟩)
            · right
              rw [e1] at h3
              rw [f1] at h2
              cases us with
              | nil =>
                simp only [List.nil_append, List.cons.injEq] at h2
                simp only [List.nil_append, List.cons_prefix_cons] at h3
                obtain ⟨rfl, rfl⟩ := h2
                obtain ⟨rfl, _⟩ := h3
                exact ⟨[], d :: w, d :: t', by simp, List.cons_prefix_cons.mpr ⟨rfl, h1⟩, by simp, by simp⟩
              | cons u us =>
                simp only [List.cons_append, List.cons.injEq] at h2
                simp only [List.cons_append, List.cons_prefix_cons] at h3
                obtain ⟨rfl, rfl⟩ := h2
                obtain ⟨rfl, h3⟩ := h3
                exact ⟨(d :: t') :: us, w, w', h0, h1, rfl, List.cons_prefix_cons.mpr ⟨rfl, h3⟩⟩

theorem tokens_prefix_length {cut s : Str} (h : cut <+: s) : (tokens cut).length ≤ (tokens s).length := by
  rcases tokens_prefix h with h | ⟨ts, w, w', _, _, h2, h3⟩
  · exact h.length_le
  · have := h3.length_le
    rw [h2]; simpa using this

theorem tokens_prefix_get {cut s : Str} (h : cut <+: s) {i : ℕ} (hi : i + 1 < (tokens cut).length) :
    (tokens cut)[i]? = (tokens s)[i]? := by
  rcases tokens_prefix h with ⟨t, h⟩ | ⟨ts, w, w', _, _, h2, ⟨u, h3⟩⟩
  · rw [← h, List.getElem?_append_left (by omega)]
  · rw [h2, List.length_append, List.length_singleton] at hi
    rw [h2, ← h3, List.append_assoc, List.getElem?_append_left (by omega), List.getElem?_append_left (by omega)]

theorem tokens_prefix_le {cut s : Str} (h : cut <+: s) {i : ℕ} {w' : Str} (hi : (tokens cut)[i]? = some w') :
    ∃ w, (tokens s)[i]? = some w ∧ w' <+: w := by
  rcases tokens_prefix h with ⟨t, h⟩ | ⟨ts, w, v, _, h1, h2, ⟨u, h3⟩⟩
  · have hlt : i < (tokens cut).length := by
      by_contra hge
      rw [List.getElem?_eq_none (by omega)] at hi; cases hi
    exact ⟨w', by rw [← h, List.getElem?_append_left hlt, hi], List.prefix_refl _⟩
  · rw [h2] at hi
    by_cases hlt : i < ts.length
    · rw [List.getElem?_append_left hlt] at hi
      exact ⟨w', by rw [← h3, List.append_assoc, List.getElem?_append_left hlt, hi], List.prefix_refl _⟩
    · rw [List.getElem?_append_right (by omega)] at hi
      have h0 : i - ts.length = 0 := by
        by_contra h0
        rw [List.getElem?_eq_none (by simp; omega)] at hi; cases hi
      rw [h0] at hi
      simp only [List.getElem?_cons_zero, Option.some.injEq] at hi
      subst hi
      exact ⟨w, by rw [← h3, List.append_assoc, List.getElem?_append_right (by omega), h0]; simp, h1⟩

/-- the last line of a file without a terminating newline -/
theorem fileLines_noNl {s : Str} (h : ∀ c ∈ s, c ≠ '\n') : fileLines s = if s = [] then [] else [s] := by
  induction s with
  | nil => rfl
  | cons c s ih =>
    rw [fileLines, if_neg (h c (by simp)), ih (fun c hc => h c (List.mem_cons_of_mem _ hc))]
    by_cases hs : s = []
    · subst hs; rfl
    · rw [if_neg hs]; simp

theorem tokens_line_append {l : Str} (h : IsLine l) (s : Str) : tokens (l ++ s) = tokens l ++ tokens s := by
  obtain ⟨b, rfl, _⟩ := h
  have hn : isSpace '\n' = true := by decide
  rw [List.append_assoc, List.singleton_append, tokens_append_space b hn, tokens_append_space b hn, tokens_nil,
    List.append_nil]

theorem tokens_lines (ls : List Str) (h : ∀ l ∈ ls, IsLine l) (s : Str) :
    tokens (ls.flatten ++ s) = (ls.map tokens).flatten ++ tokens s := by
  induction ls with
  | nil => rfl
  | cons l ls ih =>
    rw [List.flatten_cons, List.append_assoc, tokens_line_append (h l (by simp)),
      ih (fun l hl => h l (List.mem_cons_of_mem _ hl)), List.map_cons, List.flatten_cons, List.append_assoc]

/-- an initial part of a file of lines: some lines, and a part of the next -/
theorem cut_lines (ls : List Str) (h : ∀ l ∈ ls, IsLine l) {cut : Str} (hc : cut <+: ls.flatten) :
    cut = ls.flatten ∨ ∃ ls1 l ls2 part, ls = ls1 ++ l :: ls2 ∧ part <+: l ∧ (∀ c ∈ part, c ≠ '\n') ∧
      cut = ls1.flatten ++ part := by
  induction ls generalizing cut with
  | nil => exact Or.inl (List.prefix_nil.mp hc)
  | cons l ls ih =>
    rw [List.flatten_cons] at hc
    have hl := h l (by simp)
    by_cases hlen : l.length ≤ cut.length
    · have hlc : l <+: cut := List.prefix_of_prefix_length_le (List.prefix_append _ _) hc hlen
      obtain ⟨u, rfl⟩ := hlc
      have hu : u <+: ls.flatten := (List.prefix_append_right_inj l).mp hc
      rcases ih (fun l hl => h l (List.mem_cons_of_mem _ hl)) hu with rfl | ⟨a, m, b, p, rfl, h1, h2, rfl⟩
      · exact Or.inl rfl
      · exact Or.inr ⟨l :: a, m, b, p, rfl, h1, h2, by simp⟩
    · have hcl : cut <+: l := List.prefix_of_prefix_length_le hc (List.prefix_append _ _) (by omega)
      right
      refine ⟨[], l, ls, cut, rfl, hcl, ?_, rfl⟩
      obtain ⟨b, rfl, hb⟩ := hl
      have : cut <+: b := by
        refine List.prefix_of_prefix_length_le hcl (List.prefix_append _ _) ?_
        simp only [List.length_append, List.length_singleton] at hlen; omega
      intro c hc
      exact hb c (this.subset hc)

/-- the pieces of an initial part of a text: the first pieces of the text, the last one perhaps cut -/
theorem splitWs_prefix {cut s : Str} (h : cut <+: s) :
    ∃ ts w w', splitWs cut = ts ++ [w'] ∧ w' <+: w ∧ ts ++ [w] <+: splitWs s := by
  have two : ∀ s, startsSpace s = true → ∃ w ts, splitWs s = [] :: w :: ts := by
    intro s
    induction s with
    | nil => intro h; simp [startsSpace] at h
    | cons c s ih =>
      intro h
      simp only [startsSpace] at h
      simp only [splitWs, h, if_true]
      split
      · rename_i h2; exact ih h2
      · obtain ⟨u, us, hu⟩ := List.exists_cons_of_ne_nil (splitWs_ne_nil s)
        exact ⟨u, us, by rw [hu]⟩
  induction s generalizing cut with
  | nil =>
    obtain rfl := List.prefix_nil.mp h
    exact ⟨[], [], [], rfl, List.prefix_refl _, List.prefix_refl _⟩
  | cons c s ih =>
    cases cut with
    | nil =>
      obtain ⟨u, us, hu⟩ := List.exists_cons_of_ne_nil (splitWs_ne_nil (c :: s))
      exact ⟨[], u, [], rfl, List.nil_prefix, by rw [hu]; simp⟩
    | cons d cut =>
      obtain ⟨e0, h'⟩ := List.cons_prefix_cons.mp h
      subst e0
      obtain ⟨ts, w, w', h1, h2, h3⟩ := ih h'
      by_cases hd : isSpace d = true
      · simp only [splitWs, hd, if_true]
        by_cases hs : startsSpace s = true
        · rw [if_pos hs]
          cases cut with
          | nil =>
            obtain ⟨u, us, hu⟩ := two s hs
            refine ⟨[[]], u, [], by simp [startsSpace, splitWs], List.nil_prefix, ?_⟩
            rw [hu]; simp
          | cons e cut =>
            have : startsSpace (e :: cut) = true := by
              cases s with
              | nil => simp at h'
              | cons e' s => obtain ⟨rfl, _⟩ := List.cons_prefix_cons.mp h'; simpa [startsSpace] using hs
            rw [if_pos this]
            exact ⟨ts, w, w', h1, h2, h3⟩
        · rw [if_neg hs]
          have hc : ¬ startsSpace cut = true := by
            cases cut with
            | nil => simp [startsSpace]
            | cons e cut =>
              cases s with
              | nil => simp at h'
              | cons e' s => obtain ⟨rfl, _⟩ := List.cons_prefix_cons.mp h'; simpa [startsSpace] using hs
          rw [if_neg hc]
          exact ⟨[] :: ts, w, w', by rw [h1]; rfl, h2, List.cons_prefix_cons.mpr ⟨rfl, h3⟩⟩
      · have hd : isSpace d = false := by simpa using hd
        obtain ⟨u, us, hu⟩ := List.exists_cons_of_ne_nil (splitWs_ne_nil s)
        obtain ⟨v, vs, hv⟩ := List.exists_cons_of_ne_nil (splitWs_ne_nil cut)
        have e1 : splitWs (d :: s) = (d :: u) :: us := by simp [splitWs, hd, hu]
        have e2 : splitWs (d :: cut) = (d :: v) :: vs := by simp [splitWs, hd, hv]
        rw [e1, e2]
        rw [hv] at h1
        rw [hu] at h3
        cases ts with
        | nil =>
          simp only [List.nil_append, List.cons.injEq] at h1
          simp only [List.nil_append, List.cons_prefix_cons] at h3
          obtain ⟨rfl, rfl⟩ := h1
          obtain ⟨rfl, _⟩ := h3
          exact ⟨[], d :: w, d :: v, rfl, List.cons_prefix_cons.mpr ⟨rfl, h2⟩, by simp⟩
        | cons t ts =>
          simp only [List.cons_append, List.cons.injEq] at h1
          simp only [List.cons_append, List.cons_prefix_cons] at h3
          obtain ⟨rfl, rfl⟩ := h1
          obtain ⟨rfl, h3⟩ := h3
          exact ⟨(d :: v) :: ts, w, w', rfl, h2, List.cons_prefix_cons.mpr ⟨rfl, h3⟩⟩

/-- every piece of a text that does not end with a blank is a word, but perhaps the first -/
theorem splitWs_words {s : Str} (h0 : s ≠ []) (he : EndsOk s) :
    ∀ w ∈ (if startsSpace s then (splitWs s).tail else splitWs s), w ≠ [] := by
  induction s with
  | nil => exact absurd rfl h0
  | cons c s ih =>
    by_cases hs0 : s = []
    · subst hs0
      have hc : isSpace c = false := by simpa [EndsOk, startsSpace] using he
      simp [startsSpace, hc, splitWs]
    · have he' : EndsOk s := by
        have hr : s.reverse ≠ [] := by simpa using hs0
        obtain ⟨x, t, hx⟩ := List.exists_cons_of_ne_nil hr
        unfold EndsOk at he ⊢
        rw [List.reverse_cons, hx] at he
        rw [hx]
        simpa [startsSpace] using he
      have ih := ih hs0 he'
      by_cases hc : isSpace c = true
      · have : startsSpace (c :: s) = true := by simpa [startsSpace] using hc
        rw [if_pos this]
        simp only [splitWs, hc, if_true]
        by_cases hs : startsSpace s = true
        · rw [if_pos hs] at ih ⊢; exact ih
        · rw [if_neg hs] at ih ⊢; exact ih
      · have hc : isSpace c = false := by simpa using hc
        have : ¬ startsSpace (c :: s) = true := by simp [startsSpace, hc]
        rw [if_neg this]
        obtain ⟨u, us, hu⟩ := List.exists_cons_of_ne_nil (splitWs_ne_nil s)
        have e1 : splitWs (c :: s) = (c :: u) :: us := by simp [splitWs, hc, hu]
        rw [e1]
        intro w hw
        rcases List.mem_cons.mp hw with rfl | hw
        · simp
        · apply ih w
          rw [hu]
          split
          · exact hw
          · exact List.mem_cons_of_mem _ hw

theorem tokens_blank {b : Str} (h : ∀ c ∈ b, isSpace c = true) : tokens b = [] := by
  induction b with
  | nil => exact tokens_nil
  | cons d b ih => rw [tokens_space _ (h d (by simp)), ih (fun c hc => h c (List.mem_cons_of_mem _ hc))]

theorem tokens_blank_left {b : Str} (h : ∀ c ∈ b, isSpace c = true) (s : Str) : tokens (b ++ s) = tokens s := by
  induction b with
  | nil => rfl
  | cons c b ih => rw [List.cons_append, tokens_space _ (h c (by simp)), ih (fun c hc => h c (List.mem_cons_of_mem _ hc))]

theorem tokens_blank_right {b : Str} (h : ∀ c ∈ b, isSpace c = true) (s : Str) : tokens (s ++ b) = tokens s := by
  cases b with
  | nil => rw [List.append_nil]
  | cons c b =>
    rw [tokens_append_space s (h c (by simp)), tokens_blank (fun c hc => h c (List.mem_cons_of_mem _ hc)), List.append_nil]

theorem dropWhile_space (s : Str) : ∃ b, (∀ c ∈ b, isSpace c = true) ∧ s = b ++ s.dropWhile isSpace ∧
    startsSpace (s.dropWhile isSpace) = false := by
  induction s with
  | nil => exact ⟨[], by simp, rfl, rfl⟩
  | cons c s ih =>
    by_cases hc : isSpace c = true
    · obtain ⟨b, h1, h2, h3⟩ := ih
      rw [List.dropWhile_cons_of_pos hc]
      refine ⟨c :: b, ?_, by rw [List.cons_append, ← h2], h3⟩
      intro x hx
      rcases List.mem_cons.mp hx with rfl | hx
      · exact hc
      · exact h1 x hx
    · rw [List.dropWhile_cons_of_neg hc]
      exact ⟨[], by simp, rfl, by simpa [startsSpace] using hc⟩

theorem tokens_lstrip (s : Str) : tokens (lstrip s) = tokens s ∧ startsSpace (lstrip s) = false := by
  obtain ⟨b, h1, h2, h3⟩ := dropWhile_space s
  refine ⟨?_, h3⟩
  conv_rhs => rw [h2]
  rw [tokens_blank_left h1]; rfl

theorem rstrip_split (s : Str) : ∃ b, (∀ c ∈ b, isSpace c = true) ∧ s = rstrip s ++ b ∧ EndsOk (rstrip s) := by
  obtain ⟨b, h1, h2, h3⟩ := dropWhile_space s.reverse
  refine ⟨b.reverse, by simpa using h1, ?_, by simpa [EndsOk, rstrip] using h3⟩
  have := congrArg List.reverse h2
  rw [List.reverse_reverse, List.reverse_append] at this
  exact this

/-- `s.strip()` has the words of `s`, and splitting it gives nothing else -/
theorem splitWs_strip (s : Str) : splitWs (strip s) = if tokens s = [] then [[]] else tokens s := by
  obtain ⟨t1, t2⟩ := tokens_lstrip s
  obtain ⟨b, r1, r2, r3⟩ := rstrip_split (lstrip s)
  have ht : tokens (strip s) = tokens s := by
    rw [← t1]
    conv_rhs => rw [r2]
    rw [tokens_blank_right r1]; rfl
  by_cases h0 : strip s = []
  · rw [← ht, h0, tokens_nil]; rfl
  · have hs : startsSpace (strip s) = false := by
      obtain ⟨x, t, hx⟩ := List.exists_cons_of_ne_nil h0
      rw [hx]
      have h0' : rstrip (lstrip s) = x :: t := hx
      rw [r2, h0'] at t2
      simpa [startsSpace] using t2
    have hw := splitWs_words h0 r3
    rw [hs] at hw
    simp only [Bool.false_eq_true, if_false] at hw
    have : tokens (strip s) = splitWs (strip s) := by
      unfold tokens
      rw [List.filter_eq_self]
      intro w hw'
      simpa using hw w hw'
    rw [← ht, this, if_neg (splitWs_ne_nil _)]

end F4Enix
