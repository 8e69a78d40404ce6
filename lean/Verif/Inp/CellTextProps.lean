import Verif.Inp.CellTextLemmas
/-!
# Properties of the editing of cell cards (C89 – C93)

In words: adding a surface to a cell intersects (or unites) the region of the cell with a side of
the surface, hashing a cell subtracts the region of the other cell, whatever unions, intersections,
complements and parentheses the geometry already has; number, header and parameters are printed as
before. The regions are those of the specification `CellGeo.Denotes`.
-/
namespace F4Enix.CellText
open F4Enix F4Enix.Inp F4Enix.CellGeo

theorem hasAlpha_lp : hasAlpha (lit ['(']) = false := by decide
theorem hasAlpha_rp : hasAlpha (lit [')']) = false := by decide

/-- `_add_symbol_to_cell_input` with parentheses on a card with a shape -/
theorem addSymbol_paren {c : Card} {w0 : Nat} {H G P : List Word} {num : ℤ}
    {vh vg vp : List (ℤ × Kind)} (h : Shape c w0 H G P num vh vg vp) (sym : List Word)
    (nn : Option ℤ) :
    ∃ c', addSymbol sym true nn c = .ok c' ∧
      c'.words = [.hole w0] :: H ++ (lit ['('] :: G ++ lit [')'] :: sym) ++ P ∧
      (∃ r rs, c'.rows = r :: rs ∧ ([.hole w0] :: H) <+: r.words) ∧
      c'.name = nn.getD num ∧ c'.vals = (nn.getD num, .cel) :: vh ++ vg ++ vp := by
  obtain ⟨r, rs, hr, hpre⟩ := h.head
  have hm : c.mat = first vh .mat := by
    unfold Card.mat; rw [h.vals, List.append_assoc, first_mat h.mat]
  have hj : (if c.mat = some 0 then 1 else 2) + 1 = ([Piece.hole w0] :: H).length := by
    rw [List.length_cons, h.size]
  obtain ⟨t, ht, hop⟩ := openParen_prefix hpre hj
  have hw : t ++ rs.flatMap (·.words) = G ++ P := by
    have := h.words
    unfold Card.words at this
    rw [hr, List.flatMap_cons, ht, List.append_assoc, List.append_assoc] at this
    exact List.append_cancel_left this
  have hH : ∀ w ∈ [Piece.hole w0] :: H, hasAlpha w = false := by
    intro w hw'
    rcases List.mem_cons.1 hw' with rfl | hw'
    · rfl
    · exact h.plain w (List.mem_append_left _ hw')
  have hA : ∀ w ∈ [Piece.hole w0] :: H ++ lit ['('] :: G, hasAlpha w = false := by
    intro w hw'
    rcases List.mem_append.1 hw' with hw' | hw'
    · exact hH w hw'
    · rcases List.mem_cons.1 hw' with rfl | hw'
      · exact hasAlpha_lp
      · exact h.plain w (List.mem_append_right _ hw')
  have hwords : (insertRows (lit [')'] :: sym) true
      (⟨0, [Piece.hole w0] :: H ++ lit ['('] :: t⟩ :: rs)).flatMap (·.words) =
      [.hole w0] :: H ++ (lit ['('] :: G ++ lit [')'] :: sym) ++ P := by
    rw [insertRows_words _ _ _ (by simp)]
    have e : (⟨0, [Piece.hole w0] :: H ++ lit ['('] :: t⟩ :: rs : List Row).flatMap (·.words) =
        ([.hole w0] :: H ++ lit ['('] :: G) ++ P := by
      rw [List.flatMap_cons]
      simp only [List.append_assoc, List.cons_append]
      rw [hw]
    rw [e, (takeWhile_split hA h.params).1, (takeWhile_split hA h.params).2]
    simp [List.append_assoc]
  obtain ⟨r', rs', hr', hpre'⟩ := insertRows_head (lit [')'] :: sym) true
    ⟨0, [Piece.hole w0] :: H ++ lit ['('] :: t⟩ rs ([.hole w0] :: H) hH ⟨_, rfl⟩
  have hadd : addSymbol sym true nn c = .ok (renumber nn { c with
      rows := insertRows (lit [')'] :: sym) true (⟨0, [Piece.hole w0] :: H ++ lit ['('] :: t⟩ :: rs) }) := by
    unfold addSymbol
    rw [hr]
    simp only [if_true]
    rw [hop]
  refine ⟨_, hadd, ?_, ?_, ?_, ?_⟩
  · cases nn <;> exact hwords
  · cases nn <;> exact ⟨r', rs', hr', hpre'⟩
  · cases nn with
    | none => exact h.name
    | some n => rfl
  · cases nn with
    | none => exact h.vals
    | some n =>
      simp only [renumber, Option.getD_some]
      rw [h.vals]
      simp [setFirst]

/-- `_add_symbol_to_cell_input` without parentheses on a card with a shape -/
theorem addSymbol_plain {c : Card} {w0 : Nat} {H G P : List Word} {num : ℤ}
    {vh vg vp : List (ℤ × Kind)} (h : Shape c w0 H G P num vh vg vp) (sym : List Word) :
    ∃ c', addSymbol sym false none c = .ok c' ∧
      c'.words = [.hole w0] :: H ++ G ++ (sym ++ P) ∧
      (∃ r rs, c'.rows = r :: rs ∧ ([.hole w0] :: H) <+: r.words) ∧
      c'.name = num ∧ c'.vals = (num, .cel) :: vh ++ vg ++ vp := by
  obtain ⟨r, rs, hr, hpre⟩ := h.head
  have hH : ∀ w ∈ [Piece.hole w0] :: H, hasAlpha w = false := by
    intro w hw'
    rcases List.mem_cons.1 hw' with rfl | hw'
    · rfl
    · exact h.plain w (List.mem_append_left _ hw')
  have hA : ∀ w ∈ [Piece.hole w0] :: H ++ G, hasAlpha w = false := by
    intro w hw'
    rcases List.mem_append.1 hw' with hw' | hw'
    · exact hH w hw'
    · exact h.plain w (List.mem_append_right _ hw')
  have hwords : (insertRows sym true (⟨0, r.words⟩ :: rs)).flatMap (·.words) =
      [.hole w0] :: H ++ G ++ (sym ++ P) := by
    rw [insertRows_words _ _ _ (by simp)]
    have e : (⟨0, r.words⟩ :: rs : List Row).flatMap (·.words) = ([.hole w0] :: H ++ G) ++ P := by
      have := h.words
      unfold Card.words at this
      rw [hr] at this
      rw [List.flatMap_cons] at this ⊢
      exact this
    rw [e, (takeWhile_split hA h.params).1, (takeWhile_split hA h.params).2]
    simp [List.append_assoc]
  obtain ⟨r', rs', hr', hpre'⟩ := insertRows_head sym true ⟨0, r.words⟩ rs ([.hole w0] :: H) hH hpre
  have hadd : addSymbol sym false none c =
      .ok { c with rows := insertRows sym true (⟨0, r.words⟩ :: rs) } := by
    unfold addSymbol
    rw [hr]
    simp [renumber]
  exact ⟨_, hadd, hwords, ⟨r', rs', hr', hpre'⟩, h.name, h.vals⟩

/-- Assembling the new shape after an addition to the geometry. -/
theorem shape_geo {c c' : Card} {w0 : Nat} {H G P : List Word} {num : ℤ}
    {vh vg vp : List (ℤ × Kind)} (h : Shape c w0 H G P num vh vg vp) (nn : Option ℤ)
    {sym : List Word} {vs : List (ℤ × Kind)} (hs : ∀ w ∈ sym, hasAlpha w = false)
    (hh : holes sym = vs.length) (hv : ∀ v ∈ vs, v.2 = Kind.sur ∨ v.2 = Kind.cel)
    (hw : c'.words = [.hole w0] :: H ++ (lit ['('] :: G ++ lit [')'] :: sym) ++ P)
    (hd : ∃ r rs, c'.rows = r :: rs ∧ ([.hole w0] :: H) <+: r.words)
    (hn : c'.name = nn.getD num)
    (hvals : c'.vals = (nn.getD num, .cel) :: vh ++ (vg ++ vs) ++ vp) :
    Shape c' w0 H (lit ['('] :: G ++ lit [')'] :: sym) P (nn.getD num) vh (vg ++ vs) vp where
  words := hw
  head := hd
  size := by
    have e1 : c.mat = first vh .mat := by
      unfold Card.mat; rw [h.vals, List.append_assoc, first_mat h.mat]
    have e2 : c'.mat = first vh .mat := by
      unfold Card.mat; rw [hvals, List.append_assoc, first_mat h.mat]
    rw [e2, ← e1]; exact h.size
  plain := by
    intro w hw'
    rcases List.mem_append.1 hw' with hw' | hw'
    · exact h.plain w (List.mem_append_left _ hw')
    · rcases List.mem_append.1 hw' with hw' | hw'
      · rcases List.mem_cons.1 hw' with rfl | hw'
        · exact hasAlpha_lp
        · exact h.plain w (List.mem_append_right _ hw')
      · rcases List.mem_cons.1 hw' with rfl | hw'
        · exact hasAlpha_rp
        · exact hs w hw'
  params := h.params
  name := hn
  vals := hvals
  mat := h.mat
  geoNe := by
    intro e
    exact h.geoNe (List.append_eq_nil_iff.1 e).1
  geo := by
    intro v hv'
    rcases List.mem_append.1 hv' with hv' | hv'
    · exact h.geo v hv'
    · exact hv v hv'
  other := h.other
  holesH := h.holesH
  holesG := by
    have e1 : ∀ w : Word, ∀ ws, holes (w :: ws) = w.countP isHole + holes ws := by
      intro w ws; simp [holes]
    rw [holes_append, e1, e1, h.holesG, hh, List.length_append]
    have h1 : (lit ['(']).countP isHole = 0 := by decide
    have h2 : (lit [')']).countP isHole = 0 := by decide
    rw [h1, h2]; omega
  holesP := h.holesP

/-- The tokens of the geometry after an addition. -/
theorem geo_tokens {gs add : List Str} {ts us : List Tok} (h : lex (unwords gs) = some ts)
    (ha : lex (unwords add) = some us) :
    lex (unwords (['('] :: gs ++ [')'] :: add)) = some (.lp :: ts ++ [.rp] ++ us) := by
  have h1 : lex (unwords (['('] :: gs)) = some ([Tok.lp] ++ ts) := lex_unwords_cons (by decide) h
  have h2 : lex (unwords ([')'] :: add)) = some ([Tok.rp] ++ us) := lex_unwords_cons (by decide) ha
  have := lex_unwords_append h1 h2
  rw [this]
  simp

/-- An addition to the geometry: what the card says afterwards. -/
theorem shows_added {c c' : Card} {w0 : Nat} {H G P : List Word} {num : ℤ}
    {vh vg vp : List (ℤ × Kind)} (hsh : Shape c w0 H G P num vh vg vp) {hd gs ps : List Str}
    (hH : render H (vh.map Prod.fst) = some (hd, []))
    (hG : render G (vg.map Prod.fst) = some (gs, []))
    (hP : render P (vp.map Prod.fst) = some (ps, []))
    (nn : Option ℤ) {sym : List Word} {vs : List (ℤ × Kind)} {add : List Str}
    (hs : ∀ w ∈ sym, hasAlpha w = false) (hh : holes sym = vs.length)
    (hv : ∀ v ∈ vs, v.2 = Kind.sur ∨ v.2 = Kind.cel)
    (hr : render sym (vs.map Prod.fst) = some (add, []))
    (h1 : c'.words = [.hole w0] :: H ++ (lit ['('] :: G ++ lit [')'] :: sym) ++ P)
    (h2 : ∃ r rs, c'.rows = r :: rs ∧ ([.hole w0] :: H) <+: r.words)
    (h3 : c'.name = nn.getD num)
    (h4 : c'.vals = (nn.getD num, .cel) :: vh ++ (vg ++ vs) ++ vp) :
    Shows c' (nn.getD num) hd (unwords (['('] :: gs ++ [')'] :: add)) ps := by
  refine ⟨w0, H, _, P, vh, vg ++ vs, vp, shape_geo hsh nn hs hh hv h1 h2 h3 h4, hH, ?_, hP⟩
  refine ⟨_, ?_, rfl⟩
  have a1 : render [lit ['(']] [] = some ([['(']], []) := render_lits [['(']]
  have a2 : render [lit [')']] [] = some ([[')']], []) := render_lits [[')']]
  have b3 := render_append (render_append a1 hG) (render_append a2 hr)
  simpa [List.map_append] using b3

/-- Adding one word with one number to the geometry. -/
theorem add_word {c : Card} {num : ℤ} {hd ps : List Str} {geo : Str} (hc : Shows c num hd geo ps)
    (x : Word) (v : ℤ × Kind) (text : Str) (nn : Option ℤ) (hx : hasAlpha x = false)
    (hh : holes [x] = 1) (hv : v.2 = Kind.sur ∨ v.2 = Kind.cel)
    (hr : render [x] [v.1] = some ([text], [])) :
    ∃ c1 c' gs, geo = unwords gs ∧ addSymbol [x] true nn c = .ok c1 ∧ withVal v c1 = .ok c' ∧
      Shows c' (nn.getD num) hd (unwords (['('] :: gs ++ [')'] :: [text])) ps := by
  obtain ⟨w0, H, G, P, vh, vg, vp, hsh, hH, ⟨gs, hG, rfl⟩, hP⟩ := hc
  obtain ⟨c1, ha, h1, h2, h3, h4⟩ := addSymbol_paren hsh [x] nn
  have hins : withVal v c1 = .ok { c1 with vals := (nn.getD num, .cel) :: vh ++ vg ++ v :: vp } := by
    unfold withVal
    rw [h4, insertVal_shape (pre := (nn.getD num, .cel) :: vh) _ hsh.geoNe hsh.geo hsh.other]
  refine ⟨c1, _, gs, rfl, ha, hins, ?_⟩
  exact shows_added (c' := { c1 with vals := (nn.getD num, .cel) :: vh ++ vg ++ v :: vp })
    (sym := [x]) (vs := [v]) hsh hH hG hP nn (by intro y hy; rw [List.mem_singleton.1 hy]; exact hx)
    hh (by intro y hy; rw [List.mem_singleton.1 hy]; exact hv) hr h1 h2 h3 (by simp)

/-! ## adding a surface -/

/-- the printed text of the added surface (proof) -/
def surfaceText (mode : Mode) (s : ℤ) : Str := mode.symbol ++ intStr s

theorem intStr_nonneg {s : ℤ} (h : 0 ≤ s) : intStr s = natStr s.natAbs := by
  cases s with
  | ofNat n => rfl
  | negSucc n => omega

theorem intStr_neg {s : ℤ} (h : s < 0) : intStr s = '-' :: natStr s.natAbs := by
  cases s with
  | ofNat n => simp at h; omega
  | negSucc n => rfl

theorem fmt_natAbs (s : ℤ) (w : Nat) :
    fmt w |s| = natStr s.natAbs ++ List.replicate (w - (natStr s.natAbs).length) ' ' := by
  unfold fmt
  have : intStr |s| = natStr s.natAbs := by
    rw [intStr_nonneg (abs_nonneg s), Int.natAbs_abs]
  rw [this]

theorem render_surface (mode : Mode) (s : ℤ) :
    render [surfaceWord mode s] [|s|] = some ([surfaceText mode s], []) := by
  unfold surfaceWord surfaceText
  by_cases h : 0 ≤ s
  · rw [if_pos h]
    simp only [render]
    rw [renderWord_lit_append]
    simp only [renderWord, Option.map_some]
    rw [fmt_natAbs, intStr_nonneg h]
    simp
  · rw [if_neg h]
    simp only [render]
    rw [renderWord_lit_append]
    simp only [renderWord, Option.map_some]
    rw [fmt_natAbs, intStr_neg (by omega)]
    simp

theorem lex_surface (s : ℤ) : lex (intStr s) = some [.num (decide (s < 0)) s.natAbs] := by
  by_cases h : 0 ≤ s
  · rw [intStr_nonneg h]
    have := lex_natStr s.natAbs 0
    rw [List.replicate_zero, List.append_nil] at this
    rw [this]
    have : ¬ s < 0 := by omega
    simp [this]
  · have h' : s < 0 := by omega
    rw [intStr_neg h']
    have := lexFrom_sign_natStr true s.natAbs 0
    rw [List.replicate_zero, List.append_nil] at this
    unfold lex
    have e : lexStep .idle '-' = some ([], .sign true) := by decide
    simp only [lexFrom, e, this]
    simp [h']

theorem lex_surfaceText_union (s : ℤ) :
    lex (surfaceText .union s) = some [.colon, .num (decide (s < 0)) s.natAbs] := by
  have e : lexStep .idle ':' = some ([.colon], .idle) := by decide
  have := lex_surface s
  unfold lex at this ⊢
  simp only [surfaceText, Mode.symbol, List.cons_append, List.nil_append, lexFrom, e, this]
  rfl

/-- what `add_surface` does to the region (specification) -/
def Mode.apply {P : Type} (m : Mode) (r s : Region P) : Region P :=
  match m with
  | .union => CellGeo.union r s
  | .intersect => CellGeo.inter r s

/-- **Adding a surface intersects or unites the region of the cell with the side of the surface**,
whatever the geometry was, and leaves number (or sets the new one), header and parameters. -/
theorem add_surface_region {P : Type} (w : World P) {c : Card} {num : ℤ} {hd ps : List Str} {geo : Str}
    {r : Region P} (hc : Shows c num hd geo ps) (hr : Denotes w geo r) (s : ℤ) (nn : Option ℤ)
    (mode : Mode) :
    ∃ c' geo', addSurface c s nn mode = .ok c' ∧ Shows c' (nn.getD num) hd geo' ps ∧
      Denotes w geo' (mode.apply r (sideOf w s)) := by
  have halpha : hasAlpha (surfaceWord mode s) = false := by
    unfold surfaceWord
    cases mode <;> split <;> simp [hasAlpha, lit, Mode.symbol, Piece.isAlpha, isAlpha]
  have hholes : holes [surfaceWord mode s] = 1 := by
    unfold surfaceWord
    cases mode <;> split <;> simp [holes, lit, Mode.symbol, isHole]
  obtain ⟨c1, c', gs, rfl, ha, hw, hshows⟩ :=
    add_word hc (surfaceWord mode s) (|s|, .sur) (surfaceText mode s) nn halpha hholes (Or.inl rfl)
      (render_surface mode s)
  refine ⟨c', _, ?_, hshows, ?_⟩
  · unfold addSurface; rw [ha]; exact hw
  obtain ⟨ts, hts, hu⟩ := hr
  cases mode with
  | intersect =>
    refine ⟨_, geo_tokens hts (lex_surface s), ?_⟩
    exact Union.one (Inter.more (Inter.one (Fact.paren hu)) (Fact.surf _ _))
  | union =>
    refine ⟨_, geo_tokens hts (lex_surfaceText_union s), ?_⟩
    exact Union.more (ts := .lp :: ts ++ [.rp]) (us := [_]) (Union.one (Inter.one (Fact.paren hu)))
      (Inter.one (Fact.surf _ _))

/-! ## hashing a cell -/

theorem render_hash (h : ℤ) :
    render [[.ch '#', .hole ((intStr h).length - 1)]] [h] = some (['#' :: intStr h], []) := by
  simp only [render, renderWord, Option.map_some, fmt]
  have : (intStr h).length - 1 - (intStr h).length = 0 := by omega
  rw [this]
  simp

theorem lex_hash {h : ℤ} (h0 : 0 ≤ h) : lex ('#' :: intStr h) = some [.hash, .num false h.natAbs] := by
  have e : lexStep .idle '#' = some ([.hash], .idle) := by decide
  have := lex_surface h
  have hn : ¬ h < 0 := by omega
  unfold lex at this ⊢
  simp only [lexFrom, e, this]
  simp [hn]

/-- **Hashing a cell removes the region of the other cell**, whatever the geometry was. -/
theorem hash_cell_region {P : Type} (w : World P) {c : Card} {num : ℤ} {hd ps : List Str} {geo : Str}
    {r : Region P} (hc : Shows c num hd geo ps) (hr : Denotes w geo r) (h : ℤ) (h0 : 0 ≤ h)
    (nn : Option ℤ) :
    ∃ c' geo', hashCell c h nn = .ok c' ∧ Shows c' (nn.getD num) hd geo' ps ∧
      Denotes w geo' (CellGeo.inter r (CellGeo.compl (w.cell h.natAbs))) := by
  obtain ⟨c1, c', gs, rfl, ha, hw, hshows⟩ :=
    add_word hc [.ch '#', .hole ((intStr h).length - 1)] (h, .cel) ('#' :: intStr h) nn
      (by simp [hasAlpha, Piece.isAlpha, isAlpha])
      (by simp [holes, isHole]) (Or.inr rfl) (render_hash h)
  refine ⟨c', _, ?_, hshows, ?_⟩
  · unfold hashCell; rw [ha]; exact hw
  obtain ⟨ts, hts, hu⟩ := hr
  refine ⟨_, geo_tokens hts (lex_hash h0), ?_⟩
  exact Union.one (Inter.more (Inter.one (Fact.paren hu)) (Fact.notCell _))

/-! ## sequences of edits -/

/-- one edit of the geometry of a cell (specification) -/
inductive Edit where
  | surface (s : ℤ) (mode : Mode)
  | hash (h : Nat)

/-- the edit on the card (specification) -/
def Edit.run (e : Edit) (c : Card) : Except PyErr Card :=
  match e with
  | .surface s m => addSurface c s none m
  | .hash h => hashCell c (h : ℤ) none

/-- the edit on the region (specification) -/
def Edit.apply {P : Type} (w : World P) (e : Edit) (r : Region P) : Region P :=
  match e with
  | .surface s m => m.apply r (sideOf w s)
  | .hash h => CellGeo.inter r (CellGeo.compl (w.cell h))

/-- all the edits on the card, one after the other (specification) -/
def runEdits : List Edit → Card → Except PyErr Card
  | [], c => .ok c
  | e :: es, c =>
    match e.run c with
    | .error x => .error x
    | .ok c' => runEdits es c'

/-- **Every sequence of edits** does to the region what each edit says, in that order, and never
fails. -/
theorem edits_region {P : Type} (w : World P) (es : List Edit) {c : Card} {num : ℤ} {hd ps : List Str}
    {geo : Str} {r : Region P} (hc : Shows c num hd geo ps) (hr : Denotes w geo r) :
    ∃ c' geo', runEdits es c = .ok c' ∧ Shows c' num hd geo' ps ∧
      Denotes w geo' (es.foldl (fun r e => e.apply w r) r) := by
  induction es generalizing c geo r with
  | nil => exact ⟨c, geo, rfl, hc, hr⟩
  | cons e es ih =>
    have hstep : ∃ c1 geo1, e.run c = .ok c1 ∧ Shows c1 num hd geo1 ps ∧
        Denotes w geo1 (e.apply w r) := by
      cases e with
      | surface s m => exact add_surface_region w hc hr s none m
      | hash h => simpa [Edit.run, Edit.apply] using hash_cell_region w hc hr (h : ℤ) (by omega) none
    obtain ⟨c1, geo1, h1, h2, h3⟩ := hstep
    obtain ⟨c', geo', h4, h5, h6⟩ := ih h2 h3
    refine ⟨c', geo', ?_, h5, h6⟩
    simp only [runEdits, h1]
    exact h4

/-! ## printing -/

/-- **What the card shows is what it prints**: number, header, geometry, parameters, in this
order. -/
theorem shows_print {c : Card} {num : ℤ} {hd ps : List Str} {geo : Str} (hc : Shows c num hd geo ps) :
    ∃ w0 gs, geo = unwords gs ∧ c.print = some (fmt w0 num :: hd ++ gs ++ ps) := by
  obtain ⟨w0, H, G, P, vh, vg, vp, hsh, hH, ⟨gs, hG, rfl⟩, hP⟩ := hc
  refine ⟨w0, gs, rfl, ?_⟩
  have a : render [[.hole w0]] [num] = some ([fmt w0 num], []) := by
    simp [render, renderWord]
  have b := render_append (render_append (render_append a hH) hG) hP
  unfold Card.print
  rw [hsh.words, hsh.vals]
  have e1 : [Piece.hole w0] :: H ++ G ++ P = [[Piece.hole w0]] ++ H ++ G ++ P := rfl
  have e2 : ((num, Kind.cel) :: vh ++ vg ++ vp).map Prod.fst =
      [num] ++ vh.map Prod.fst ++ vg.map Prod.fst ++ vp.map Prod.fst := by simp
  rw [e1, e2, b]
  simp

/-! ## universe and filling -/

theorem param_alpha (p : Param) (w : Word) : hasAlpha (lit p.key ++ w) = true := by
  cases p <;> simp [hasAlpha, lit, Param.key, Piece.isAlpha, isAlpha]

/-- **`add_cell_fill_u` adds the keyword and nothing else**: number, header, geometry and the other
parameters are printed as before. -/
theorem add_param_shows {c : Card} {num : ℤ} {hd ps : List Str} {geo : Str}
    (hc : Shows c num hd geo ps) (p : Param) (v : ℤ) (hp : first c.vals p.kind = none) :
    ∃ c', addParam c p v = .ok c' ∧ Shows c' num hd geo ((p.key ++ intStr v) :: ps) ∧
      first c'.vals p.kind = some v := by
  obtain ⟨w0, H, G, P, vh, vg, vp, hsh, hH, ⟨gs, hG, rfl⟩, hP⟩ := hc
  obtain ⟨c1, ha, h1, h2, h3, h4⟩ := addSymbol_plain hsh [lit p.key ++ [.hole (intStr v).length]]
  have hins : withVal (v, p.kind) c1 = .ok { c1 with vals := (num, .cel) :: vh ++ vg ++ (v, p.kind) :: vp } := by
    unfold withVal
    rw [h4, insertVal_shape (pre := (num, .cel) :: vh) _ hsh.geoNe hsh.geo hsh.other]
  have hmat : first ((num, Kind.cel) :: vh ++ vg ++ (v, p.kind) :: vp) .mat = c.mat := by
    unfold Card.mat
    rw [hsh.vals, List.append_assoc, List.append_assoc, first_mat hsh.mat, first_mat hsh.mat]
  refine ⟨{ c1 with vals := (num, .cel) :: vh ++ vg ++ (v, p.kind) :: vp }, ?_, ⟨w0, H, G, (lit p.key ++ [.hole (intStr v).length]) :: P, vh, vg, (v, p.kind) :: vp,
    ?_, hH, ⟨gs, hG, rfl⟩, ?_⟩, ?_⟩
  · unfold addParam
    rw [hp]
    simp only [truthy, Bool.false_eq_true, if_false]
    rw [ha]
    exact hins
  · exact {
      words := h1
      head := h2
      size := by
        have : ({ c1 with vals := (num, .cel) :: vh ++ vg ++ (v, p.kind) :: vp } : Card).mat = c.mat := hmat
        rw [this]; exact hsh.size
      plain := hsh.plain
      params := Or.inr ⟨_, _, rfl, param_alpha p _⟩
      name := h3
      vals := rfl
      mat := hsh.mat
      geoNe := hsh.geoNe
      geo := hsh.geo
      other := by
        intro x hx
        rcases List.mem_cons.1 hx with rfl | hx
        · cases p <;> simp [Param.kind]
        · exact hsh.other x hx
      holesH := hsh.holesH
      holesG := hsh.holesG
      holesP := by
        have := hsh.holesP
        simp only [holes, List.map_cons, List.sum_cons, List.length_cons] at this ⊢
        rw [this]
        cases p <;> simp [lit, Param.key, isHole] <;> omega }
  · have : renderWord (lit p.key ++ [.hole (intStr v).length]) (v :: vp.map Prod.fst) =
        some (p.key ++ intStr v, vp.map Prod.fst) := by
      rw [renderWord_lit_append]
      simp [renderWord, fmt]
    simp only [render, List.map_cons, this, hP]
    rfl
  · have hn : ∀ x ∈ (num, Kind.cel) :: vh ++ vg, x.2 ≠ p.kind := by
      have aux : ∀ (l : List (ℤ × Kind)) (k : Kind), first l k = none → ∀ x ∈ l, x.2 ≠ k := by
        intro l k
        induction l with
        | nil => intro _ x hx; cases hx
        | cons y l ih =>
          intro hl x hx
          obtain ⟨yv, yk⟩ := y
          simp only [first] at hl
          by_cases hk : yk = k
          · rw [if_pos hk] at hl; cases hl
          · rw [if_neg hk] at hl
            rcases List.mem_cons.1 hx with rfl | hx
            · exact hk
            · exact ih hl x hx
      intro x hx
      exact aux c.vals p.kind hp x (by rw [hsh.vals]; exact List.mem_append_left _ hx)
    have skip : ∀ (l m : List (ℤ × Kind)) (k : Kind), (∀ x ∈ l, x.2 ≠ k) → first (l ++ m) k = first m k := by
      intro l m k hl
      induction l with
      | nil => rfl
      | cons y l ih =>
        obtain ⟨yv, yk⟩ := y
        simp only [List.cons_append, first]
        rw [if_neg (hl _ List.mem_cons_self), ih (fun x hx => hl x (List.mem_cons_of_mem _ hx))]
    show first ((num, Kind.cel) :: vh ++ vg ++ (v, p.kind) :: vp) p.kind = some v
    rw [skip _ _ _ hn]
    simp [first]

/-- A cell that has the keyword with a non-zero number is refused. -/
theorem add_param_refused (c : Card) (p : Param) (v u : ℤ) (hu : first c.vals p.kind = some u)
    (h0 : u ≠ 0) : addParam c p v = .error .valueError := by
  unfold addParam
  rw [hu]
  simp [truthy, h0]

/-! ### removing the universe -/

theorem subU_plain (w : Word) (h : hasAlpha w = false) : subU w = w := by
  fun_induction subU w with
  | case1 a b w r hab ih =>
    exfalso
    rcases hab.1 with rfl | rfl <;> simp [hasAlpha, Piece.isAlpha, isAlpha] at h
  | case2 a b w r hab ih =>
    rw [ih]
    simp only [hasAlpha, List.any_cons, Bool.or_eq_false_iff] at h ⊢
    exact h.2
  | case3 p r _ ih =>
    rw [ih]
    simp only [hasAlpha, List.any_cons, Bool.or_eq_false_iff] at h ⊢
    exact h.2
  | case4 => rfl

theorem removeU_words (c : Card) :
    (removeU c).words = (c.words.map subU).filter (fun w => !w.isEmpty) := by
  unfold removeU Card.words
  simp only
  induction c.rows with
  | nil => rfl
  | cons r rs ih => simp [List.flatMap_cons, ih]

theorem map_subU_id {ws : List Word} (h : ∀ w ∈ ws, subU w = w ∧ w ≠ []) :
    (ws.map subU).filter (fun w => !w.isEmpty) = ws := by
  induction ws with
  | nil => rfl
  | cons w ws ih =>
    have hw := h w List.mem_cons_self
    simp only [List.map_cons, hw.1]
    rw [List.filter_cons, if_pos (by cases w with
      | nil => exact absurd rfl hw.2
      | cons _ _ => rfl), ih (fun x hx => h x (List.mem_cons_of_mem _ hx))]

theorem popU_split {a b : List (ℤ × Kind)} {v : ℤ} (h : ∀ x ∈ a, x.2 ≠ Kind.u) :
    popU (a ++ (v, .u) :: b) = a ++ b := by
  induction a with
  | nil => simp [popU]
  | cons y a ih =>
    obtain ⟨yv, yk⟩ := y
    simp only [List.cons_append, popU]
    rw [if_neg (h _ List.mem_cons_self), ih (fun x hx => h x (List.mem_cons_of_mem _ hx))]

/-- **`remove_u` removes the universe and nothing else**, when the universe is written `u=n` without
blanks. (Partial: with a blank after `=` see `remove_u_blank`.) -/
theorem remove_u_partial {c : Card} {w0 : Nat} {H G P1 P2 : List Word} {num v : ℤ} {a : Char} {w : Nat}
    {vh vg vp1 vp2 : List (ℤ × Kind)} {hd gs ps1 ps2 : List Str}
    (ha : a = 'u' ∨ a = 'U')
    (hsh : Shape c w0 H G (P1 ++ [.ch a, .ch '=', .hole w] :: P2) num vh vg (vp1 ++ (v, .u) :: vp2))
    (hH : render H (vh.map Prod.fst) = some (hd, []))
    (hG : render G (vg.map Prod.fst) = some (gs, []))
    (hP1 : render P1 (vp1.map Prod.fst) = some (ps1, []))
    (hP2 : render P2 (vp2.map Prod.fst) = some (ps2, []))
    (hhP1 : holes P1 = vp1.length)
    (hne : ∀ x ∈ c.words, x ≠ []) (hsub : ∀ x ∈ P1 ++ P2, subU x = x)
    (hkey : P1 ++ P2 = [] ∨ ∃ p ps, P1 ++ P2 = p :: ps ∧ hasAlpha p = true)
    (hu : ∀ x ∈ vh ++ vp1 ++ vp2, x.2 ≠ Kind.u) :
    Shows c num hd (unwords gs) (ps1 ++ (a :: '=' :: fmt w v) :: ps2) ∧
    Shows (removeU c) num hd (unwords gs) (ps1 ++ ps2) ∧ (removeU c).univ = none := by
  have hb : render ([.ch a, .ch '=', .hole w] :: P2) (v :: vp2.map Prod.fst) =
      some ((a :: '=' :: fmt w v) :: ps2, []) := by
    simp [render, renderWord, hP2]
  refine ⟨⟨w0, H, G, _, vh, vg, _, hsh, hH, ⟨gs, hG, rfl⟩, ?_⟩, ?_, ?_⟩
  · have := render_append hP1 hb
    simpa [List.map_append] using this
  · have hwords : (removeU c).words = [.hole w0] :: H ++ G ++ (P1 ++ P2) := by
      rw [removeU_words, hsh.words]
      have hid : ∀ x ∈ [Piece.hole w0] :: H ++ G ++ P1, subU x = x ∧ x ≠ [] := by
        intro x hx
        refine ⟨?_, hne x ?_⟩
        · rcases List.mem_append.1 hx with hx | hx
          · apply subU_plain
            rcases List.mem_append.1 hx with hx | hx
            · rcases List.mem_cons.1 hx with rfl | hx
              · rfl
              · exact hsh.plain x (List.mem_append_left _ hx)
            · exact hsh.plain x (List.mem_append_right _ hx)
          · exact hsub x (List.mem_append_left _ hx)
        · rw [hsh.words, ← List.append_assoc]
          exact List.mem_append_left _ hx
      have hid2 : ∀ x ∈ P2, subU x = x ∧ x ≠ [] := by
        intro x hx
        refine ⟨hsub x (List.mem_append_right _ hx), hne x ?_⟩
        rw [hsh.words]
        exact List.mem_append_right _ (List.mem_append_right _ (List.mem_cons_of_mem _ hx))
      have hu0 : subU [.ch a, .ch '=', .hole w] = [] := by
        simp [subU, ha]
      rw [← List.append_assoc, List.map_append, List.filter_append, map_subU_id hid, List.map_cons, hu0,
        List.filter_cons, if_neg (by simp), map_subU_id hid2]
      simp [List.append_assoc]
    have hvals : (removeU c).vals = (num, .cel) :: vh ++ vg ++ (vp1 ++ vp2) := by
      unfold removeU
      simp only
      rw [hsh.vals, ← List.append_assoc, popU_split]
      · simp [List.append_assoc]
      · intro x hx
        rcases List.mem_append.1 hx with hx | hx
        · rcases List.mem_append.1 hx with hx | hx
          · rcases List.mem_cons.1 hx with rfl | hx
            · simp
            · exact hu x (List.mem_append_left _ (List.mem_append_left _ hx))
          · rcases hsh.geo x hx with e | e <;> rw [e] <;> decide
        · exact hu x (List.mem_append_left _ (List.mem_append_right _ hx))
    refine ⟨w0, H, G, P1 ++ P2, vh, vg, vp1 ++ vp2, ?_, hH, ⟨gs, hG, rfl⟩, ?_⟩
    · exact {
        words := hwords
        head := by
          obtain ⟨r, rs, hr, t, ht⟩ := hsh.head
          refine ⟨{ r with words := (r.words.map subU).filter (fun w => !w.isEmpty) }, _, by
            unfold removeU; simp only; rw [hr, List.map_cons], ?_⟩
          refine ⟨(t.map subU).filter (fun w => !w.isEmpty), ?_⟩
          simp only
          have hid : (([Piece.hole w0] :: H).map subU).filter (fun w => !w.isEmpty) = [Piece.hole w0] :: H := by
           apply map_subU_id
           intro x hx
           refine ⟨subU_plain x ?_, hne x ?_⟩
           · rcases List.mem_cons.1 hx with rfl | hx
             · rfl
             · exact hsh.plain x (List.mem_append_left _ hx)
           · rw [hsh.words, List.append_assoc]
             exact List.mem_append_left _ hx
          rw [← ht, List.map_append, List.filter_append, hid]
        size := by
          have e1 : c.mat = first vh .mat := by
            unfold Card.mat; rw [hsh.vals, List.append_assoc, first_mat hsh.mat]
          have e2 : (removeU c).mat = first vh .mat := by
            unfold Card.mat; rw [hvals, List.append_assoc, first_mat hsh.mat]
          rw [e2, ← e1]; exact hsh.size
        plain := hsh.plain
        params := hkey
        name := hsh.name
        vals := hvals
        mat := hsh.mat
        geoNe := hsh.geoNe
        geo := hsh.geo
        other := by
          intro x hx
          apply hsh.other
          rcases List.mem_append.1 hx with hx | hx
          · exact List.mem_append_left _ hx
          · exact List.mem_append_right _ (List.mem_cons_of_mem _ hx)
        holesH := hsh.holesH
        holesG := hsh.holesG
        holesP := by
          have := hsh.holesP
          rw [holes_append] at this ⊢
          have e : holes ([.ch a, .ch '=', .hole w] :: P2) = 1 + holes P2 := by
            simp [holes, isHole]
          rw [e] at this
          simp only [List.length_append, List.length_cons] at this ⊢
          omega }
    · have := render_append hP1 hP2
      simpa [List.map_append] using this
  · have hvals : (removeU c).vals = (num, .cel) :: vh ++ vg ++ (vp1 ++ vp2) := by
      unfold removeU
      simp only
      rw [hsh.vals, ← List.append_assoc, popU_split]
      · simp [List.append_assoc]
      · intro x hx
        rcases List.mem_append.1 hx with hx | hx
        · rcases List.mem_append.1 hx with hx | hx
          · rcases List.mem_cons.1 hx with rfl | hx
            · simp
            · exact hu x (List.mem_append_left _ (List.mem_append_left _ hx))
          · rcases hsh.geo x hx with e | e <;> rw [e] <;> decide
        · exact hu x (List.mem_append_left _ (List.mem_append_right _ hx))
    unfold Card.univ
    rw [hvals]
    have none_of : ∀ (l : List (ℤ × Kind)), (∀ x ∈ l, x.2 ≠ Kind.u) → first l .u = none := by
      intro l hl
      induction l with
      | nil => rfl
      | cons y l ih =>
        obtain ⟨yv, yk⟩ := y
        simp only [first]
        rw [if_neg (hl _ List.mem_cons_self), ih (fun x hx => hl x (List.mem_cons_of_mem _ hx))]
    apply none_of
    intro x hx
    rcases List.mem_append.1 hx with hx | hx
    · rcases List.mem_append.1 hx with hx | hx
      · rcases List.mem_cons.1 hx with rfl | hx
        · simp
        · exact hu x (List.mem_append_left _ (List.mem_append_left _ hx))
      · rcases hsh.geo x hx with e | e <;> rw [e] <;> decide
    · rcases List.mem_append.1 hx with hx | hx
      · exact hu x (List.mem_append_left _ (List.mem_append_right _ hx))
      · exact hu x (List.mem_append_right _ hx)

end F4Enix.CellText
