import Verif.Inp.CellTextSpec
/-!
# Lemmas on the editing of cell cards
-/
namespace F4Enix.CellText
open F4Enix F4Enix.Inp F4Enix.CellGeo

/-! ### text -/

theorem hasAlpha_lit_punct {s : Str} (h : s.any isAlpha = false) : hasAlpha (lit s) = false := by
  unfold hasAlpha lit
  rw [List.any_map]
  exact h

theorem insertRows_words (ins : List Word) (b : Bool) (rows : List Row) (hne : rows ≠ []) :
    (insertRows ins b rows).flatMap (·.words) =
      (rows.flatMap (·.words)).takeWhile (fun w => !hasAlpha w) ++ ins ++
        (rows.flatMap (·.words)).dropWhile (fun w => !hasAlpha w) := by
  induction rows generalizing b with
  | nil => exact absurd rfl hne
  | cons r rs ih =>
    unfold insertRows
    by_cases h : r.words.any hasAlpha = true ∨ rs.isEmpty = true
    · rw [if_pos h]
      simp only [List.flatMap_cons]
      by_cases hrs : rs = []
      · subst hrs; simp
      · have ha : r.words.any hasAlpha = true := by
          rcases h with h | h
          · exact h
          · exact absurd (List.isEmpty_iff.1 h) hrs
        have hs : ∃ x ∈ r.words, ¬ ((fun w => !hasAlpha w) x = true) := by
          obtain ⟨x, hx, hxa⟩ := List.any_eq_true.1 ha
          exact ⟨x, hx, by simp [hxa]⟩
        have hd : r.words.dropWhile (fun w => !hasAlpha w) ≠ [] := by
          intro e
          obtain ⟨x, hx, hxn⟩ := hs
          have e2 := List.takeWhile_append_dropWhile (p := fun w => !hasAlpha w) (l := r.words)
          rw [e, List.append_nil] at e2
          rw [← e2] at hx
          exact hxn (List.all_eq_true.1 List.all_takeWhile x hx)
        have hl : (r.words.takeWhile (fun w => !hasAlpha w)).length ≠ r.words.length := by
          intro e
          have e2 := congrArg List.length
            (List.takeWhile_append_dropWhile (p := fun w => !hasAlpha w) (l := r.words))
          rw [List.length_append, e] at e2
          exact hd (List.length_eq_zero_iff.1 (by omega))
        rw [List.takeWhile_append, if_neg hl, List.dropWhile_append]
        have hb : (r.words.dropWhile (fun w => !hasAlpha w)).isEmpty = false := by
          cases hq : r.words.dropWhile (fun w => !hasAlpha w) with
          | nil => exact absurd hq hd
          | cons _ _ => rfl
        rw [hb]
        simp
    · rw [if_neg h]
      push Not at h
      have hrs : rs ≠ [] := fun e => h.2 (by rw [e]; rfl)
      have hall : ∀ x ∈ r.words, (fun w => !hasAlpha w) x = true := by
        intro x hx
        cases hxa : hasAlpha x with
        | false => simp [hxa]
        | true => exact absurd (List.any_eq_true.2 ⟨x, hx, hxa⟩) h.1
      simp only [List.flatMap_cons]
      rw [ih false hrs, List.takeWhile_append_of_pos hall, List.dropWhile_append_of_pos hall]
      simp [List.append_assoc]

theorem takeWhile_split {A P : List Word} (ha : ∀ w ∈ A, hasAlpha w = false)
    (hp : P = [] ∨ ∃ p ps, P = p :: ps ∧ hasAlpha p = true) :
    (A ++ P).takeWhile (fun w => !hasAlpha w) = A ∧ (A ++ P).dropWhile (fun w => !hasAlpha w) = P := by
  have hall : ∀ x ∈ A, (fun w => !hasAlpha w) x = true := by
    intro x hx; simp [ha x hx]
  rw [List.takeWhile_append_of_pos hall, List.dropWhile_append_of_pos hall]
  rcases hp with rfl | ⟨p, ps, rfl, hp⟩
  · simp
  · simp [hp]

/-- the first row keeps a header without letters -/
theorem insertRows_head (ins : List Word) (b : Bool) (r : Row) (rs : List Row) (H : List Word)
    (hH : ∀ w ∈ H, hasAlpha w = false) (hp : H <+: r.words) :
    ∃ r' rs', insertRows ins b (r :: rs) = r' :: rs' ∧ H <+: r'.words := by
  unfold insertRows
  by_cases h : r.words.any hasAlpha = true ∨ rs.isEmpty = true
  · rw [if_pos h]
    refine ⟨_, _, rfl, ?_⟩
    obtain ⟨t, ht⟩ := hp
    simp only
    rw [← ht, List.takeWhile_append_of_pos (by intro x hx; simp [hH x hx])]
    simp [List.append_assoc]
  · rw [if_neg h]
    exact ⟨_, _, rfl, hp⟩

/-! ### values -/

theorem first_append {a b : List (ℤ × Kind)} {k : Kind} (h : ∃ v ∈ a, v.2 = k) :
    first (a ++ b) k = first a k := by
  induction a with
  | nil => obtain ⟨v, hv, _⟩ := h; cases hv
  | cons x a ih =>
    obtain ⟨v, kv⟩ := x
    simp only [List.cons_append, first]
    by_cases hk : kv = k
    · rw [if_pos hk, if_pos hk]
    · rw [if_neg hk, if_neg hk]
      apply ih
      obtain ⟨y, hy, hyk⟩ := h
      rcases List.mem_cons.1 hy with rfl | hy
      · exact absurd hyk hk
      · exact ⟨y, hy, hyk⟩

/-- the material of a card with a shape is in its header -/
theorem first_mat {num : ℤ} {vh rest : List (ℤ × Kind)} (h : ∃ v ∈ vh, v.2 = Kind.mat) :
    first ((num, .cel) :: vh ++ rest) .mat = first vh .mat := by
  rw [List.cons_append]
  simp only [first]
  rw [if_neg (by decide), first_append h]

theorem insertVal_shape {pre vg vp : List (ℤ × Kind)} (v : ℤ × Kind) (hne : vg ≠ [])
    (hg : ∀ x ∈ vg, x.2 = Kind.sur ∨ x.2 = Kind.cel)
    (hp : ∀ x ∈ vp, x.2 ≠ Kind.sur ∧ x.2 ≠ Kind.cel) :
    insertVal v (pre ++ vg ++ vp) = .ok (pre ++ vg ++ v :: vp) := by
  have hpn : ∀ x ∈ vp.reverse, (fun x => !isGeo x) x = true := by
    intro x hx
    have := hp x (List.mem_reverse.1 hx)
    simp [isGeo, this.1, this.2]
  obtain ⟨g, gs, hgs⟩ : ∃ g gs, vg.reverse = g :: gs := by
    cases h : vg.reverse with
    | nil => exact absurd (List.reverse_eq_nil_iff.1 h) hne
    | cons g gs => exact ⟨g, gs, rfl⟩
  have hgg : isGeo g = true := by
    have : g ∈ vg := List.mem_reverse.1 (by rw [hgs]; exact List.mem_cons_self)
    have := hg g this
    simp [isGeo, this]
  have e : (pre ++ vg ++ vp).reverse = vp.reverse ++ (g :: (gs ++ pre.reverse)) := by
    rw [List.reverse_append, List.reverse_append, hgs]; rfl
  have hv : vg = gs.reverse ++ [g] := by
    have := congrArg List.reverse hgs
    simpa using this
  have hemp : (pre ++ vg ++ vp).isEmpty = false := by
    rw [hv]; cases pre <;> simp
  unfold insertVal
  simp only
  rw [hemp, e, List.takeWhile_append_of_pos hpn, List.dropWhile_append_of_pos hpn]
  simp [hgg, hv]

/-! ### printing -/

theorem renderWord_append (w : Word) : ∀ (va vb : List ℤ) (s : Str),
    renderWord w va = some (s, []) → renderWord w (va ++ vb) = some (s, vb) := by
  suffices H : ∀ (w : Word) (va vb : List ℤ) (s : Str) (r : List ℤ), renderWord w va = some (s, r) →
      renderWord w (va ++ vb) = some (s, r ++ vb) by
    intro va vb s h; simpa using H w va vb s [] h
  intro w
  induction w with
  | nil => intro va vb s r h; simp only [renderWord, Option.some.injEq, Prod.mk.injEq] at h; obtain ⟨rfl, rfl⟩ := h; rfl
  | cons p w ih =>
    intro va vb s r h
    cases p with
    | ch c =>
      simp only [renderWord] at h ⊢
      cases h' : renderWord w va with
      | none => rw [h'] at h; simp at h
      | some x =>
        rw [h'] at h
        simp only [Option.map_some, Option.some.injEq, Prod.mk.injEq] at h
        rw [ih va vb x.1 x.2 h']
        simp [h.1, h.2]
    | hole n =>
      cases va with
      | nil => simp [renderWord] at h
      | cons v va =>
        simp only [renderWord, List.cons_append] at h ⊢
        cases h' : renderWord w va with
        | none => rw [h'] at h; simp at h
        | some x =>
          rw [h'] at h
          simp only [Option.map_some, Option.some.injEq, Prod.mk.injEq] at h
          rw [ih va vb x.1 x.2 h']
          simp [h.1, h.2]

theorem renderWord_rest (w : Word) : ∀ (va vb : List ℤ) (s : Str) (r : List ℤ),
    renderWord w va = some (s, r) → renderWord w (va ++ vb) = some (s, r ++ vb) := by
  induction w with
  | nil => intro va vb s r h; simp only [renderWord, Option.some.injEq, Prod.mk.injEq] at h; obtain ⟨rfl, rfl⟩ := h; rfl
  | cons p w ih =>
    intro va vb s r h
    cases p with
    | ch c =>
      simp only [renderWord] at h ⊢
      cases h' : renderWord w va with
      | none => rw [h'] at h; simp at h
      | some x =>
        rw [h'] at h
        simp only [Option.map_some, Option.some.injEq, Prod.mk.injEq] at h
        rw [ih va vb x.1 x.2 h']
        simp [h.1, h.2]
    | hole n =>
      cases va with
      | nil => simp [renderWord] at h
      | cons v va =>
        simp only [renderWord, List.cons_append] at h ⊢
        cases h' : renderWord w va with
        | none => rw [h'] at h; simp at h
        | some x =>
          rw [h'] at h
          simp only [Option.map_some, Option.some.injEq, Prod.mk.injEq] at h
          rw [ih va vb x.1 x.2 h']
          simp [h.1, h.2]

theorem render_rest (A : List Word) : ∀ (va vb : List ℤ) (xs : List Str) (r : List ℤ),
    render A va = some (xs, r) → render A (va ++ vb) = some (xs, r ++ vb) := by
  induction A with
  | nil => intro va vb s r h; simp only [render, Option.some.injEq, Prod.mk.injEq] at h; obtain ⟨rfl, rfl⟩ := h; rfl
  | cons w A ih =>
    intro va vb xs r h
    simp only [render] at h ⊢
    cases h1 : renderWord w va with
    | none => rw [h1] at h; simp at h
    | some x =>
      obtain ⟨s, v1⟩ := x
      rw [h1] at h
      rw [renderWord_rest w va vb s v1 h1]
      simp only at h ⊢
      cases h2 : render A v1 with
      | none => rw [h2] at h; simp at h
      | some y =>
        rw [h2] at h
        simp only [Option.map_some, Option.some.injEq, Prod.mk.injEq] at h
        rw [ih v1 vb y.1 y.2 h2]
        simp [h.1, h.2]

/-- two lists of words, each with its own values -/
theorem render_append {A B : List Word} {va vb : List ℤ} {xa xb : List Str} {r : List ℤ}
    (ha : render A va = some (xa, [])) (hb : render B vb = some (xb, r)) :
    render (A ++ B) (va ++ vb) = some (xa ++ xb, r) := by
  induction A generalizing va xa with
  | nil =>
    simp only [render, Option.some.injEq, Prod.mk.injEq] at ha
    obtain ⟨rfl, rfl⟩ := ha
    simpa using hb
  | cons w A ih =>
    simp only [render, List.cons_append] at ha ⊢
    cases h1 : renderWord w va with
    | none => rw [h1] at ha; simp at ha
    | some x =>
      obtain ⟨s, v1⟩ := x
      rw [h1] at ha
      rw [renderWord_rest w va vb s v1 h1]
      simp only at ha ⊢
      cases h2 : render A v1 with
      | none => rw [h2] at ha; simp at ha
      | some y =>
        rw [h2] at ha
        simp only [Option.map_some, Option.some.injEq, Prod.mk.injEq] at ha
        have : render A v1 = some (y.1, []) := by rw [h2, ← ha.2]
        rw [ih this]
        simp [← ha.1]

theorem renderWord_lit (s : Str) (vs : List ℤ) : renderWord (lit s) vs = some (s, vs) := by
  induction s with
  | nil => rfl
  | cons c s ih => simp only [lit, List.map_cons, renderWord] at *; rw [ih]; rfl

theorem renderWord_lit_append (s : Str) (w : Word) (vs : List ℤ) :
    renderWord (lit s ++ w) vs = (renderWord w vs).map (fun x => (s ++ x.1, x.2)) := by
  induction s with
  | nil => simp [lit]
  | cons c s ih =>
    simp only [lit, List.map_cons, List.cons_append, renderWord] at *
    rw [ih]
    cases renderWord w vs <;> simp

theorem render_lits (ss : List Str) : render (ss.map lit) [] = some (ss, []) := by
  induction ss with
  | nil => rfl
  | cons s ss ih => simp only [List.map_cons, render, renderWord_lit, ih]; rfl

theorem holes_append (A B : List Word) : holes (A ++ B) = holes A + holes B := by
  simp [holes]

theorem holes_lits (ss : List Str) : holes (ss.map lit) = 0 := by
  induction ss with
  | nil => rfl
  | cons s ss ih =>
    simp only [holes, List.map_cons, List.sum_cons] at *
    rw [ih]
    have : (lit s).countP isHole = 0 := by
      rw [List.countP_eq_zero]
      intro p hp
      obtain ⟨c, _, rfl⟩ := List.mem_map.1 hp
      simp [isHole]
    rw [this]

/-! ### lexing of lists of words -/

theorem lex_unwords_cons {w : Str} {ws : List Str} {a b : List Tok} (hw : lex w = some a)
    (h : lex (unwords ws) = some b) : lex (unwords (w :: ws)) = some (a ++ b) := by
  cases ws with
  | nil =>
    have : b = [] := by
      have h2 : lex (unwords []) = some [] := rfl
      rw [h2] at h; exact (Option.some.inj h).symm
    subst this
    simpa [unwords] using hw
  | cons x xs => exact lex_space hw h

theorem lex_unwords_append {xs ys : List Str} {a b : List Tok} (hx : lex (unwords xs) = some a)
    (hy : lex (unwords ys) = some b) : lex (unwords (xs ++ ys)) = some (a ++ b) := by
  induction xs generalizing a with
  | nil =>
    have h2 : lex (unwords []) = some [] := rfl
    rw [h2] at hx
    have := Option.some.inj hx
    subst this
    simpa using hy
  | cons x xs ih =>
    cases xs with
    | nil => exact lex_unwords_cons hx hy
    | cons z zs =>
      obtain ⟨ta, tb, h1, h2, rfl⟩ := lex_space_inv (a := x) (b := unwords (z :: zs)) hx
      have := ih h2
      rw [List.append_assoc]
      exact lex_unwords_cons (ws := z :: zs ++ ys) h1 this

/-! ### the edited card -/

theorem openParen_prefix {H0 ws : List Word} {j : Nat} (h : H0 <+: ws) (hj : j + 1 = H0.length) :
    ∃ t, ws = H0 ++ t ∧ openParen j ws = .ok (H0 ++ lit ['('] :: t) := by
  obtain ⟨t, rfl⟩ := h
  refine ⟨t, rfl, ?_⟩
  unfold openParen
  rw [if_pos (by rw [List.length_append]; omega), hj, List.take_left', List.drop_left'] <;> rfl

end F4Enix.CellText
