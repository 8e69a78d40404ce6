import Verif.Inp.ReadingProps
import Verif.Inp.Tight
import Verif.Base.Tokens
import Mathlib.Data.List.TakeWhile
/-!
# Reading of cards: comments, keys, thermal cards (C49, C52), removal of the universe (C10)
-/
namespace F4Enix.Inp
open F4Enix

/-- **C52.** A comment line begins with `C` or `c` and white space. -/
theorem isComment_iff (l : Str) : isComment l = true ↔
    ∃ c d r, l = c :: d :: r ∧ (c = 'C' ∨ c = 'c') ∧ isSpace d = true := by
  constructor
  · intro h
    match l, h with
    | [], h => cases h
    | [c], h => cases h
    | c :: d :: r, h =>
      simp only [isComment, Bool.and_eq_true, Bool.or_eq_true, decide_eq_true_eq] at h
      exact ⟨c, d, r, rfl, h.1, h.2⟩
  · rintro ⟨c, d, r, rfl, hc, hd⟩
    simp only [isComment, Bool.and_eq_true, Bool.or_eq_true, decide_eq_true_eq]
    exact ⟨hc, hd⟩

theorem takeWhile_tokens (l : Str) :
    ((lstrip l).takeWhile (fun c => !isSpace c) = [] ∧ tokens l = []) ∨
      ∃ w ws, (lstrip l).takeWhile (fun c => !isSpace c) = w ∧ w ≠ [] ∧ tokens l = w :: ws := by
  induction l with
  | nil => left; exact ⟨rfl, rfl⟩
  | cons c cs ih =>
    cases h : isSpace c with
    | true =>
      have e : lstrip (c :: cs) = lstrip cs := by unfold lstrip; rw [List.dropWhile_cons, h]; rfl
      rw [e, tokens_space _ h]; exact ih
    | false =>
      right
      have e : lstrip (c :: cs) = c :: cs := by unfold lstrip; rw [List.dropWhile_cons, h]; rfl
      rw [e]
      have hw : IsWord ((c :: cs).takeWhile (fun c => !isSpace c)) := by
        refine ⟨by simp [h], ?_⟩
        intro x hx
        have := List.mem_takeWhile_imp hx
        simpa using this
      refine ⟨_, tokens ((c :: cs).dropWhile (fun c => !isSpace c)), rfl, hw.1, ?_⟩
      conv_lhs => rw [← List.takeWhile_append_dropWhile (p := fun c => !isSpace c) (l := c :: cs)]
      apply tokens_word hw
      cases hd : (c :: cs).dropWhile (fun c => !isSpace c) with
      | nil => left; rfl
      | cons x xs =>
        right
        have : ((c :: cs).dropWhile (fun c => !isSpace c)).head? = some x := by rw [hd]; rfl
        have h2 := List.head?_dropWhile_not (fun c => !isSpace c) (c :: cs)
        rw [this] at h2
        simpa [startsSpace] using h2

/-- the first word of a line in capitals -/
theorem firstWord_spec (l : Str) :
    (∀ w ws, tokens l = w :: ws → firstWord l = .ok (upper w)) ∧ (tokens l = [] → firstWord l = .error .indexError) := by
  unfold firstWord
  rcases takeWhile_tokens l with ⟨h1, h2⟩ | ⟨w, ws, h1, h2, h3⟩
  · rw [h1, h2]; exact ⟨by simp, fun _ => rfl⟩
  · rw [h3]
    refine ⟨?_, by simp⟩
    intro w' ws' e
    obtain ⟨rfl, _⟩ := List.cons.inj e
    rw [h1]
    cases w with
    | nil => exact absurd rfl h2
    | cons c cs => rfl

/-- **C52.** A card is found under the first word of its first line that is no comment, in capitals; a card in
which no name was recognised under the first word of its first line. A named card of comments only is refused. -/
theorem key_spec (c : Raw) (cs : List Str) (l : Str) (rest : List Str) (w : Str) (ws : List Str)
    (hl : c.lines = cs ++ l :: rest) (ht : tokens l = w :: ws) :
    (c.named = true → (∀ x ∈ cs, isComment x = true) → isComment l = false → c.key = .ok (upper w)) ∧
    (c.named = false → cs = [] → c.key = .ok (upper w)) := by
  constructor
  · intro hn hc hl'
    unfold Raw.key
    rw [if_pos hn, hl]
    clear hl
    induction cs with
    | nil => rw [List.nil_append, rawKey, hl']; exact (firstWord_spec l).1 w ws ht
    | cons x xs ih =>
      rw [List.cons_append, rawKey, hc x (by simp)]
      exact ih (fun y hy => hc y (List.mem_cons_of_mem _ hy))
  · intro hn hc
    subst hc
    unfold Raw.key
    rw [if_neg (by simp [hn]), hl, List.nil_append]
    exact (firstWord_spec l).1 w ws ht

/-- the named card of comments only -/
theorem key_comments (c : Raw) (hn : c.named = true) (hc : ∀ x ∈ c.lines, isComment x = true) :
    c.key = .error .valueError := by
  unfold Raw.key
  rw [if_pos hn]
  generalize c.lines = ls at hc
  induction ls with
  | nil => rfl
  | cons x xs ih =>
    rw [rawKey, hc x (by simp)]
    exact ih (fun y hy => hc y (List.mem_cons_of_mem _ hy))

/-- **C49.** A line of a thermal or mixed-library card: `MT` or `MX` and a digit. -/
theorem isMxLine_iff (l : Str) : isMxLine l = true ↔
    ∃ m t d r, l = m :: t :: d :: r ∧ (m = 'm' ∨ m = 'M') ∧ (t = 't' ∨ t = 'T' ∨ t = 'x' ∨ t = 'X') ∧ isDigit d = true := by
  constructor
  · intro h
    match l, h with
    | [], h => cases h
    | [c], h => cases h
    | [c, d], h => cases h
    | m :: t :: d :: r, h =>
      simp only [isMxLine, Bool.and_eq_true, Bool.or_eq_true, decide_eq_true_eq] at h
      exact ⟨m, t, d, r, rfl, h.1.1, by tauto, h.2⟩
  · rintro ⟨m, t, d, r, rfl, hm, ht, hd⟩
    simp only [isMxLine, Bool.and_eq_true, Bool.or_eq_true, decide_eq_true_eq]
    exact ⟨⟨hm, by tauto⟩, hd⟩

/-- **C49.** A thermal card is recognised by its first or its last line. -/
theorem isMx_iff (c : Raw) : isMx c = true ↔
    (∃ l, c.lines.head? = some l ∧ isMxLine l = true) ∨ (∃ l, c.lines.getLast? = some l ∧ isMxLine l = true) := by
  unfold isMx
  cases h1 : c.lines.head? <;> cases h2 : c.lines.getLast? <;> simp

theorem attachLast_snoc (c : Raw) (ms : List (Raw × List Raw)) (m : Raw) (xs : List Raw) :
    attachLast c (ms ++ [(m, xs)]) = ms ++ [(m, xs ++ [c])] := by
  induction ms with
  | nil => rfl
  | cons a ms ih =>
    cases ms with
    | nil => rfl
    | cons b ms =>
      rw [List.cons_append, List.cons_append, attachLast]
      · rw [List.cons_append] at ih; rw [ih]; rfl
      · simp

/-- **C49** (materials). The materials read are the material cards in order, each with exactly the thermal and
mixed cards that follow it before the next material - whatever other cards stand between. -/
theorem c49_materials (cards : Dict Str Raw) (gs : List (Raw × List Raw))
    (h : (cards.filter (fun kc => kc.2.kind = .mat)).map Prod.snd = gs.flatMap (fun g => g.1 :: g.2))
    (hm : ∀ g ∈ gs, isMx g.1 = false) (hx : ∀ g ∈ gs, ∀ x ∈ g.2, isMx x = true) :
    (parseData cards).mats = gs := by
  -- only the material cards matter
  have skip : ∀ (cards : Dict Str Raw) (d : Data),
      (cards.foldl (fun d kc => addData d kc.1 kc.2) d).mats =
        ((cards.filter (fun kc => kc.2.kind = .mat)).foldl (fun d kc => addData d kc.1 kc.2) d).mats ∧ True := by
    intro cards
    induction cards with
    | nil => intro d; exact ⟨rfl, trivial⟩
    | cons kc r ih =>
      intro d
      obtain ⟨k, c⟩ := kc
      cases hk : c.kind with
      | mat => simp only [List.foldl_cons, List.filter_cons, hk, decide_true, if_true]; exact ih _
      | tr =>
        have key : ∀ (cards : Dict Str Raw) (d d' : Data), d.mats = d'.mats →
            (cards.foldl (fun d kc => addData d kc.1 kc.2) d).mats = (cards.foldl (fun d kc => addData d kc.1 kc.2) d').mats := by
          intro cards
          induction cards with
          | nil => intro d d' h; exact h
          | cons kc r ih =>
            intro d d' h
            simp only [List.foldl_cons]
            apply ih
            unfold addData
            cases kc.2.kind with
            | mat =>
              simp only
              by_cases h1 : isMx kc.2 = true
              · rw [if_pos h1, if_pos h1, h]
                by_cases h2 : d'.mats = []
                · rw [if_pos h2, if_pos h2]
                · rw [if_neg h2, if_neg h2]
              · rw [if_neg h1, if_neg h1, h]
            | tr => exact h
            | other => exact h
        simp only [List.foldl_cons, List.filter_cons, hk, reduceCtorEq, decide_false, Bool.false_eq_true, if_false]
        refine ⟨?_, trivial⟩
        rw [← (ih d).1]
        apply key
        unfold addData
        rw [hk]
      | other =>
        have key : ∀ (cards : Dict Str Raw) (d d' : Data), d.mats = d'.mats →
            (cards.foldl (fun d kc => addData d kc.1 kc.2) d).mats = (cards.foldl (fun d kc => addData d kc.1 kc.2) d').mats := by
          intro cards
          induction cards with
          | nil => intro d d' h; exact h
          | cons kc r ih =>
            intro d d' h
            simp only [List.foldl_cons]
            apply ih
            unfold addData
            cases kc.2.kind with
            | mat =>
              simp only
              by_cases h1 : isMx kc.2 = true
              · rw [if_pos h1, if_pos h1, h]
                by_cases h2 : d'.mats = []
                · rw [if_pos h2, if_pos h2]
                · rw [if_neg h2, if_neg h2]
              · rw [if_neg h1, if_neg h1, h]
            | tr => exact h
            | other => exact h
        simp only [List.foldl_cons, List.filter_cons, hk, reduceCtorEq, decide_false, Bool.false_eq_true, if_false]
        refine ⟨?_, trivial⟩
        rw [← (ih d).1]
        apply key
        unfold addData
        rw [hk]
  unfold parseData
  rw [(skip cards _).1]
  have hall : ∀ kc ∈ cards.filter (fun kc => kc.2.kind = .mat), kc.2.kind = .mat := by
    intro kc hkc; simpa using (List.mem_filter.1 hkc).2
  generalize cards.filter (fun kc => kc.2.kind = .mat) = ms at h hall
  have aux : ∀ (gs : List (Raw × List Raw)) (ms : Dict Str Raw) (d : Data), (∀ kc ∈ ms, kc.2.kind = .mat) →
      ms.map Prod.snd = gs.flatMap (fun g => g.1 :: g.2) → (∀ g ∈ gs, isMx g.1 = false) →
      (∀ g ∈ gs, ∀ x ∈ g.2, isMx x = true) →
      (ms.foldl (fun d kc => addData d kc.1 kc.2) d).mats = d.mats ++ gs := by
    intro gs
    induction gs with
    | nil =>
      intro ms d _ h _ _
      rw [List.flatMap_nil, List.map_eq_nil_iff] at h
      subst h; simp
    | cons g gs ih =>
      intro ms d hk h hm hx
      obtain ⟨m, xs⟩ := g
      rw [List.flatMap_cons] at h
      cases ms with
      | nil => simp at h
      | cons kc ms =>
        obtain ⟨k, c⟩ := kc
        rw [List.map_cons, List.cons_append] at h
        obtain ⟨hc, h⟩ := List.cons.inj h
        simp only at hc
        subst hc
        have hck := hk (k, c) (by simp)
        have hcm := hm (c, xs) (by simp)
        simp only at hck hcm
        rw [List.foldl_cons]
        have e : addData d k c = { d with mats := d.mats ++ [(c, [])] } := by simp [addData, hck, hcm]
        simp only [e]
        -- the cards attached
        have att : ∀ (xs ys : List Raw) (ms : Dict Str Raw) (d0 : List (Raw × List Raw)) (d : Data),
            (∀ kc ∈ ms, kc.2.kind = .mat) → (∀ x ∈ xs, isMx x = true) →
            ms.map Prod.snd = xs ++ gs.flatMap (fun g => g.1 :: g.2) → d.mats = d0 ++ [(c, ys)] →
            ∃ (ms' : Dict Str Raw) (d' : Data), ms.foldl (fun d kc => addData d kc.1 kc.2) d = ms'.foldl (fun d kc => addData d kc.1 kc.2) d' ∧
              (∀ kc ∈ ms', kc.2.kind = .mat) ∧ ms'.map Prod.snd = gs.flatMap (fun g => g.1 :: g.2) ∧
              d'.mats = d0 ++ [(c, ys ++ xs)] := by
          intro xs
          induction xs with
          | nil => intro ys ms d0 d h1 _ h3 h4; exact ⟨ms, d, rfl, h1, by simpa using h3, by simpa using h4⟩
          | cons x xs ihx =>
            intro ys ms d0 d h1 h2 h3 h4
            cases ms with
            | nil => simp at h3
            | cons kc ms =>
              obtain ⟨k', x'⟩ := kc
              rw [List.map_cons, List.cons_append] at h3
              obtain ⟨hx', h3'⟩ := List.cons.inj h3
              simp only at hx'
              subst hx'
              have hk1 := h1 (k', x') (by simp)
              simp only at hk1
              have hx1 := h2 x' (by simp)
              have hne : d.mats ≠ [] := by rw [h4]; simp
              obtain ⟨ms', d', e1, e2, e3, e4⟩ := ihx (ys ++ [x']) ms d0 { d with mats := attachLast x' d.mats }
                (fun kc hkc => h1 kc (List.mem_cons_of_mem _ hkc)) (fun x hx => h2 x (List.mem_cons_of_mem _ hx)) h3'
                (by simp only; rw [h4, attachLast_snoc])
              refine ⟨ms', d', ?_, e2, e3, ?_⟩
              · rw [List.foldl_cons, ← e1]
                congr 1
                simp [addData, hk1, hx1, hne]
              · rw [e4]; simp
        obtain ⟨ms', d', e1, e2, e3, e4⟩ := att xs [] ms d.mats { d with mats := d.mats ++ [(c, [])] }
          (fun kc hkc => hk kc (List.mem_cons_of_mem _ hkc)) (hx (c, xs) (by simp)) h rfl
        rw [e1, ih ms' d' e2 e3 (fun g hg => hm g (List.mem_cons_of_mem _ hg)) (fun g hg => hx g (List.mem_cons_of_mem _ hg)), e4]
        simp
  have := aux gs ms ⟨[], [], []⟩ hall h hm hx
  simpa using this

/-- **C10** (removing a universe). The first universe number of the card goes, everything else stays. -/
theorem removeU_spec (c : Card) :
    (∀ a v b, c.values = a ++ (v, Kind.u) :: b → (∀ x ∈ a, x.2 ≠ Kind.u) → (removeU c).values = a ++ b) ∧
    ((∀ x ∈ c.values, x.2 ≠ Kind.u) → removeU c = c) := by
  have key : ∀ (a : List (ℤ × Kind)) v b, (∀ x ∈ a, x.2 ≠ Kind.u) → eraseFirst (a ++ (v, Kind.u) :: b) .u = a ++ b := by
    intro a v b h
    induction a with
    | nil => simp [eraseFirst]
    | cons x xs ih =>
      have hx := h x (by simp)
      obtain ⟨y, k⟩ := x
      rw [List.cons_append, eraseFirst, if_neg hx, ih (fun z hz => h z (List.mem_cons_of_mem _ hz))]
      rfl
  have key2 : ∀ (a : List (ℤ × Kind)), (∀ x ∈ a, x.2 ≠ Kind.u) → eraseFirst a .u = a := by
    intro a h
    induction a with
    | nil => rfl
    | cons x xs ih =>
      have hx := h x (by simp)
      obtain ⟨y, k⟩ := x
      rw [eraseFirst, if_neg hx, ih (fun z hz => h z (List.mem_cons_of_mem _ hz))]
  constructor
  · intro a v b h ha
    unfold removeU
    simp only [h]
    exact key a v b ha
  · intro h
    unfold removeU
    rw [key2 _ h]

/-- two materials, the first with a thermal card, other cards between -/
example : (parseData [("M1".toList, ⟨["m1 1001 1\n".toList], true, .mat⟩), ("NPS".toList, ⟨["nps 5\n".toList], true, .other⟩),
    ("MT1".toList, ⟨["mt1 lwtr\n".toList], true, .mat⟩), ("M2".toList, ⟨["m2 6000 1\n".toList], true, .mat⟩)]).mats =
    [(⟨["m1 1001 1\n".toList], true, .mat⟩, [⟨["mt1 lwtr\n".toList], true, .mat⟩]), (⟨["m2 6000 1\n".toList], true, .mat⟩, [])] :=
  c49_materials _ _ (by decide) (by decide) (by decide)

/-- a key behind two comment lines -/
example : (⟨["c one\n".toList, "C two\n".toList, "  f4:n 1 2\n".toList], true, .other⟩ : Raw).key = .ok "F4:N".toList :=
  (key_spec _ ["c one\n".toList, "C two\n".toList] "  f4:n 1 2\n".toList [] "f4:n".toList ["1".toList, "2".toList] rfl
    (by decide)).1 rfl (by decide) (by decide)

end F4Enix.Inp
