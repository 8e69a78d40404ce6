import Verif.Inp.CellTextProps
import Verif.Base.Tokens
/-!
# Properties of `cells_union` and `hash_multiple_cells`, and witnesses (C89 – C93)
-/
namespace F4Enix.CellText
open F4Enix F4Enix.Inp F4Enix.CellGeo

/-! ## the two facilities of numjuggler that `cells_union` uses -/

/-- What is assumed of `card.get_geom()`: the printed geometry, as a text without letters. (specification) -/
def GeomOk (geom : Card → List Str) : Prop :=
  ∀ c num hd geo ps, Shows c num hd geo ps →
    lex (unwords (geom c)) = lex geo ∧ ∀ w ∈ geom c, hasAlpha (lit w) = false

/-- the same words, up to blanks (specification) -/
def SameText (a b : List Str) : Prop := tokens (unwords a) = tokens (unwords b)

/-- What is assumed of printing a card (`card(wrap=True)`) and reading it again: it says the same. (specification) -/
def RereadOk (reread : Card → Card) : Prop :=
  ∀ c num hd geo ps, Shows c num hd geo ps →
    ∃ hd' geo' ps', Shows (reread c) num hd' geo' ps' ∧ SameText hd' hd ∧ lex geo' = lex geo ∧ SameText ps' ps

/-- the identity is such a reading -/
theorem rereadOk_id : RereadOk id := fun _ _ hd geo ps h => ⟨hd, geo, ps, h, rfl, rfl, rfl⟩

theorem denotes_of_lex {P : Type} {w : World P} {a b : Str} {r : Region P} (h : lex a = lex b)
    (hd : Denotes w b r) : Denotes w a r := by
  obtain ⟨ts, h1, h2⟩ := hd
  exact ⟨ts, h.trans h1, h2⟩

/-! ### a card says one thing only, and a `get_geom` as assumed exists -/

theorem append_inj_len {α : Type} {a b c d : List α} (h : a ++ b = c ++ d) (hl : a.length = c.length) :
    a = c ∧ b = d := List.append_inj h hl

theorem shape_unique {c : Card} {w0 w0' : Nat} {H G P H' G' P' : List Word} {num num' : ℤ}
    {vh vg vp vh' vg' vp' : List (ℤ × Kind)} (h : Shape c w0 H G P num vh vg vp)
    (h' : Shape c w0' H' G' P' num' vh' vg' vp') :
    num = num' ∧ H = H' ∧ G = G' ∧ P = P' ∧ vh = vh' ∧ vg = vg' ∧ vp = vp' := by
  have e1 : [Piece.hole w0] :: H ++ (G ++ P) = [Piece.hole w0'] :: H' ++ (G' ++ P') := by
    rw [← List.append_assoc, ← List.append_assoc, ← h.words, ← h'.words]
  have l1 : ([Piece.hole w0] :: H).length = ([Piece.hole w0'] :: H').length := by
    simp [h.size, h'.size]
  obtain ⟨e2, e3⟩ := append_inj_len e1 l1
  have eH : H = H' := (List.cons.inj e2).2
  have a1 := takeWhile_split (A := G) (P := P) (fun w hw => h.plain w (List.mem_append_right _ hw)) h.params
  have a2 := takeWhile_split (A := G') (P := P') (fun w hw => h'.plain w (List.mem_append_right _ hw)) h'.params
  have eG : G = G' := by rw [← a1.1, e3, a2.1]
  have eP : P = P' := by rw [← a1.2, e3, a2.2]
  subst eH eG eP
  have v1 : (num, Kind.cel) :: (vh ++ (vg ++ vp)) = (num', Kind.cel) :: (vh' ++ (vg' ++ vp')) := by
    have := h.vals.symm.trans h'.vals
    simpa [List.append_assoc] using this
  have v2 := (List.cons.inj v1).1
  have v3 := (List.cons.inj v1).2
  obtain ⟨v4, v5⟩ := append_inj_len v3 (by rw [← h.holesH, ← h'.holesH])
  obtain ⟨v6, v7⟩ := append_inj_len v5 (by rw [← h.holesG, ← h'.holesG])
  exact ⟨(Prod.mk.inj v2).1, rfl, rfl, rfl, v4, v6, v7⟩

/-- **A card says one thing only.** -/
theorem shows_unique {c : Card} {num num' : ℤ} {hd hd' ps ps' : List Str} {geo geo' : Str}
    (h : Shows c num hd geo ps) (h' : Shows c num' hd' geo' ps') :
    num = num' ∧ hd = hd' ∧ geo = geo' ∧ ps = ps' := by
  obtain ⟨w0, H, G, P, vh, vg, vp, s, r1, ⟨gs, r2, rfl⟩, r3⟩ := h
  obtain ⟨w0', H', G', P', vh', vg', vp', s', r1', ⟨gs', r2', rfl⟩, r3'⟩ := h'
  obtain ⟨rfl, rfl, rfl, rfl, rfl, rfl, rfl⟩ := shape_unique s s'
  rw [r1] at r1'
  rw [r2] at r2'
  rw [r3] at r3'
  cases r1'; cases r2'; cases r3'
  exact ⟨rfl, rfl, rfl, rfl⟩

theorem intStr_no_alpha (v : ℤ) : (intStr v).any isAlpha = false := by
  have hd : ∀ n, (natStr n).any isAlpha = false := by
    intro n
    rw [List.any_eq_false]
    intro c hc
    have := natStr_all_digit n c hc
    simp only [isDigit, isAlpha, Bool.and_eq_true, decide_eq_true_eq] at this ⊢
    simp only [Bool.or_eq_true, Bool.and_eq_true, decide_eq_true_eq]
    omega
  cases v with
  | ofNat n => exact hd n
  | negSucc n =>
    show (('-' :: natStr (n + 1)).any isAlpha) = false
    rw [List.any_cons, hd]
    decide

theorem renderWord_no_alpha (w : Word) : ∀ (vs : List ℤ) (s : Str) (r : List ℤ), hasAlpha w = false →
    renderWord w vs = some (s, r) → s.any isAlpha = false := by
  induction w with
  | nil =>
    intro vs s r _ h
    simp only [renderWord, Option.some.injEq, Prod.mk.injEq] at h
    rw [← h.1]; rfl
  | cons p w ih =>
    intro vs s r ha h
    simp only [hasAlpha, List.any_cons, Bool.or_eq_false_iff] at ha
    cases p with
    | ch c =>
      simp only [renderWord] at h
      cases h' : renderWord w vs with
      | none => rw [h'] at h; simp at h
      | some x =>
        rw [h'] at h
        simp only [Option.map_some, Option.some.injEq, Prod.mk.injEq] at h
        rw [← h.1, List.any_cons, ih vs x.1 x.2 ha.2 h']
        have : isAlpha c = false := ha.1
        rw [this]; rfl
    | hole n =>
      cases vs with
      | nil => simp [renderWord] at h
      | cons v vs =>
        simp only [renderWord] at h
        cases h' : renderWord w vs with
        | none => rw [h'] at h; simp at h
        | some x =>
          rw [h'] at h
          simp only [Option.map_some, Option.some.injEq, Prod.mk.injEq] at h
          rw [← h.1, List.any_append, ih vs x.1 x.2 ha.2 h']
          have : (fmt n v).any isAlpha = false := by
            unfold fmt
            rw [List.any_append, intStr_no_alpha, List.any_replicate]
            split <;> simp [isAlpha]
          rw [this]; rfl

theorem render_no_alpha (A : List Word) : ∀ (vs : List ℤ) (xs : List Str) (r : List ℤ),
    (∀ w ∈ A, hasAlpha w = false) → render A vs = some (xs, r) → ∀ s ∈ xs, hasAlpha (lit s) = false := by
  induction A with
  | nil =>
    intro vs xs r _ h
    simp only [render, Option.some.injEq, Prod.mk.injEq] at h
    rw [← h.1]; intro s hs; cases hs
  | cons w A ih =>
    intro vs xs r ha h
    simp only [render] at h
    cases h1 : renderWord w vs with
    | none => rw [h1] at h; simp at h
    | some x =>
      obtain ⟨s0, v1⟩ := x
      rw [h1] at h
      simp only at h
      cases h2 : render A v1 with
      | none => rw [h2] at h; simp at h
      | some y =>
        rw [h2] at h
        simp only [Option.map_some, Option.some.injEq, Prod.mk.injEq] at h
        intro s hs
        rw [← h.1] at hs
        rcases List.mem_cons.1 hs with rfl | hs
        · exact hasAlpha_lit_punct (renderWord_no_alpha w vs _ v1 (ha w List.mem_cons_self) h1)
        · exact ih v1 y.1 y.2 (fun x hx => ha x (List.mem_cons_of_mem _ hx)) h2 s hs

/-- a `get_geom` as assumed exists -/
theorem geomOk_exists : ∃ geom : Card → List Str, GeomOk geom := by
  classical
  refine ⟨fun c => if h : ∃ gs, ∃ num hd ps, Shows c num hd (unwords gs) ps ∧
      ∀ w ∈ gs, hasAlpha (lit w) = false then h.choose else [], ?_⟩
  intro c num hd geo ps h
  have hex : ∃ gs, ∃ num hd ps, Shows c num hd (unwords gs) ps ∧ ∀ w ∈ gs, hasAlpha (lit w) = false := by
    have h0 := h
    obtain ⟨w0, H, G, P, vh, vg, vp, s, r1, ⟨gs, r2, rfl⟩, r3⟩ := h
    exact ⟨gs, num, hd, ps, h0,
      render_no_alpha G _ gs [] (fun w hw => s.plain w (List.mem_append_right _ hw)) r2⟩
  simp only [dif_pos hex]
  obtain ⟨n1, hd1, ps1, hs1, ha1⟩ := hex.choose_spec
  exact ⟨by rw [(shows_unique hs1 h).2.2.1], ha1⟩

/-! ## one turn of the loop -/

theorem unionStep_ok {P : Type} (w : World P) {geom : Card → List Str} {reread : Card → Card}
    (hg : GeomOk geom) (hre : RereadOk reread) (n : ℤ) {acc cell : Card}
    {num num2 : ℤ} {hd ps hd2 ps2 : List Str} {geo geo2 : Str} {r r2 : Region P}
    (ha : Shows acc num hd geo ps) (hr : Denotes w geo r)
    (hc : Shows cell num2 hd2 geo2 ps2) (hr2 : Denotes w geo2 r2) :
    ∃ c' hd' geo' ps', unionStep geom reread n acc cell = .ok c' ∧ Shows c' n hd' geo' ps' ∧
      SameText hd' hd ∧ SameText ps' ps ∧ Denotes w geo' (CellGeo.union r r2) := by
  obtain ⟨hl, hal⟩ := hg cell num2 hd2 geo2 ps2 hc
  obtain ⟨w0, H, G, P', vh, vg, vp, hsh, hH, ⟨gs, hG, rfl⟩, hP⟩ := ha
  obtain ⟨c1, h0, h1, h2, h3, h4⟩ := addSymbol_paren hsh (unionWords (geom cell)) (some n)
  have hsym : ∀ x ∈ unionWords (geom cell), hasAlpha x = false := by
    intro x hx
    unfold unionWords at hx
    rcases List.mem_append.1 hx with hx | hx
    · rcases List.mem_cons.1 hx with rfl | hx
      · decide
      · rcases List.mem_cons.1 hx with rfl | hx
        · decide
        · obtain ⟨y, hy, rfl⟩ := List.mem_map.1 hx
          exact hal y hy
    · rw [List.mem_singleton.1 hx]; decide
  have hlits : unionWords (geom cell) = ([':'] :: ['('] :: geom cell ++ [[')']]).map lit := by
    simp [unionWords]
  have hsh1 : Shows c1 n hd (unwords (['('] :: gs ++ [')'] :: ([':'] :: ['('] :: geom cell ++ [[')']]))) ps :=
    shows_added (vs := []) hsh hH hG hP (some n) hsym (by rw [hlits, holes_lits]; rfl)
      (by intro v hv; cases hv) (by rw [hlits]; exact render_lits _) h1 h2 h3 (by simpa using h4)
  obtain ⟨hd', geo', ps', hs', e1, e2, e3⟩ := hre c1 n _ _ _ hsh1
  refine ⟨reread c1, hd', geo', ps', ?_, hs', e1, e3, ?_⟩
  · unfold unionStep; rw [h0]
  apply denotes_of_lex e2
  obtain ⟨ts, hts, hu⟩ := hr
  obtain ⟨us, hus, hv⟩ := denotes_of_lex hl hr2
  have l1 : lex (unwords (['('] :: geom cell ++ [[')']])) = some (.lp :: us ++ [.rp] ++ []) :=
    geo_tokens hus (add := []) rfl
  have l2 : lex (unwords ([':'] :: (['('] :: geom cell ++ [[')']]))) =
      some ([Tok.colon] ++ (.lp :: us ++ [.rp] ++ [])) := lex_unwords_cons (by decide) l1
  refine ⟨_, geo_tokens hts l2, ?_⟩
  rw [List.append_nil]
  exact Union.more (ts := .lp :: ts ++ [.rp]) (us := .lp :: us ++ [.rp])
    (Union.one (Inter.one (Fact.paren hu))) (Inter.one (Fact.paren hv))

theorem unionLoop_ok {P : Type} (w : World P) {geom : Card → List Str} {reread : Card → Card}
    (hg : GeomOk geom) (hre : RereadOk reread) (n : ℤ) (rs : List (Region P)) (cs : List Card)
    (hcs : List.Forall₂ (fun c r => ∃ num hd geo ps, Shows c num hd geo ps ∧ Denotes w geo r) cs rs)
    {acc : Card} {hd ps : List Str} {geo : Str} {r : Region P} {num : ℤ}
    (ha : Shows acc num hd geo ps) (hr : Denotes w geo r) :
    ∃ c' hd' geo' ps', unionLoop geom reread n acc cs = .ok c' ∧
      Shows c' (if cs = [] then num else n) hd' geo' ps' ∧
      SameText hd' hd ∧ SameText ps' ps ∧ Denotes w geo' (rs.foldl CellGeo.union r) := by
  induction hcs generalizing acc hd ps geo r num with
  | nil => exact ⟨acc, hd, geo, ps, rfl, ha, rfl, rfl, hr⟩
  | @cons c r2 cs rs hc _ ih =>
    obtain ⟨num2, hd2, geo2, ps2, hc1, hc2⟩ := hc
    obtain ⟨c1, hd1, geo1, ps1, h1, h2, h3, h4, h5⟩ := unionStep_ok w hg hre n ha hr hc1 hc2
    obtain ⟨c', hd', geo', ps', k1, k2, k3, k4, k5⟩ := ih h2 h5
    refine ⟨c', hd', geo', ps', ?_, ?_, k3.trans h3, k4.trans h4, k5⟩
    · simp only [unionLoop, h1]; exact k1
    · rw [if_neg (by simp)]
      have : (if cs = [] then n else n) = n := by split <;> rfl
      rwa [this] at k2

/-! ## the dictionary -/

theorem getCells_ok {d : Dict Str Card} {ks : List Str} {cs : List Card}
    (h : List.Forall₂ (fun k c => Dict.get? d k = some c) ks cs) : getCells d ks = .ok cs := by
  induction h with
  | nil => rfl
  | cons h _ ih => simp only [getCells, h, ih]

theorem popCells_ok {d : Dict Str Card} (hw : Dict.WF d) {ks : List Str} (hn : ks.Nodup)
    (h : ∀ k ∈ ks, Dict.has d k = true) :
    ∃ d', popCells d ks = (d', none) ∧ Dict.WF d' ∧
      ∀ k, Dict.get? d' k = if k ∈ ks then none else Dict.get? d k := by
  induction ks generalizing d with
  | nil => exact ⟨d, rfl, hw, by simp⟩
  | cons k ks ih =>
    have hk := h k List.mem_cons_self
    rw [List.nodup_cons] at hn
    have hget : ∀ x, Dict.get? (Dict.del d k) x = if k = x then none else Dict.get? d x :=
      fun x => Dict.get?_del hw k x
    obtain ⟨d', h1, h2, h3⟩ := ih (Dict.WF_del hw k) hn.2 (by
      intro x hx
      have hne : ¬ k = x := fun e => hn.1 (e ▸ hx)
      unfold Dict.has
      rw [hget x, if_neg hne]
      exact h x (List.mem_cons_of_mem _ hx))
    refine ⟨d', ?_, h2, ?_⟩
    · simp only [popCells, hk, if_true]; exact h1
    · intro x
      rw [h3 x, hget x]
      by_cases hx : x ∈ ks
      · simp [hx]
      · by_cases e : k = x
        · subst e; simp
        · have e' : ¬ x = k := fun q => e q.symm
          simp [hx, e, e']

/-- **The union of cells**: for two or more different cells, the new cell is stored under the
requested number (the number of the first cell by default), its card carries that number, it
describes the union of all the regions, with the header and the parameters of the first cell; the old
cells are gone and every other cell is untouched. (Partial: a cell that already had the requested
number and is not in the list is overwritten, see `cells_union_overwrites`.) -/
theorem cells_union_region_partial {P : Type} (w : World P) {geom : Card → List Str} {reread : Card → Card}
    (hg : GeomOk geom) (hre : RereadOk reread) (d : Dict Str Card) (hw : Dict.WF d)
    (k : Str) (ks : List Str) (c : Card) (cs : List Card) (hks : ks ≠ [])
    (hnd : (k :: ks).Nodup) (hget : List.Forall₂ (fun k c => Dict.get? d k = some c) (k :: ks) (c :: cs))
    {num : ℤ} {hd ps : List Str} {geo : Str} {r : Region P} (rs : List (Region P))
    (hc : Shows c num hd geo ps) (hr : Denotes w geo r)
    (hcs : List.Forall₂ (fun c r => ∃ num hd geo ps, Shows c num hd geo ps ∧ Denotes w geo r) cs rs)
    (nn : Option ℤ) :
    ∃ d' new hd' geo' ps', cellsUnion geom reread d (k :: ks) nn = (d', none) ∧
      (∀ x, Dict.get? d' x =
        if x = intStr (nn.getD num) then some new else if x ∈ k :: ks then none else Dict.get? d x) ∧
      Shows new (nn.getD num) hd' geo' ps' ∧ SameText hd' hd ∧ SameText ps' ps ∧
      ∃ R, Denotes w geo' R ∧ ∀ x, R x ↔ r x ∨ ∃ s ∈ rs, s x := by
  have hlen : cs ≠ [] := by
    intro e
    cases hget with
    | cons _ h => rw [e] at h; cases h; exact hks rfl
  have hnum : unionNum nn c = .ok (nn.getD num) := by
    cases nn with
    | some n => rfl
    | none =>
      obtain ⟨w0, H, G, P', vh, vg, vp, hsh, _⟩ := hc
      unfold unionNum
      rw [hsh.vals]
      rfl
  obtain ⟨new, hd', geo', ps', h1, h2, h3, h4, h5⟩ := unionLoop_ok w hg hre (nn.getD num) rs cs hcs hc hr
  rw [if_neg hlen] at h2
  have hall : ∀ x ∈ k :: ks, Dict.has d x = true := by
    have aux : ∀ (ks : List Str) (cs : List Card),
        List.Forall₂ (fun k c => Dict.get? d k = some c) ks cs → ∀ x ∈ ks, Dict.has d x = true := by
      intro ks cs h
      induction h with
      | nil => intro x hx; cases hx
      | cons h _ ih =>
        intro x hx
        rcases List.mem_cons.1 hx with rfl | hx
        · unfold Dict.has; rw [h]; rfl
        · exact ih x hx
    exact aux _ _ hget
  obtain ⟨d1, p1, p2, p3⟩ := popCells_ok hw hnd hall
  refine ⟨Dict.set d1 (intStr (nn.getD num)) new, new, hd', geo', ps', ?_, ?_, h2, h3, h4, _, h5, ?_⟩
  · unfold cellsUnion
    rw [getCells_ok hget]
    simp only [hnum, h1, p1]
  · intro x
    rw [Dict.get?_set, p3 x]
    by_cases e : intStr (nn.getD num) = x
    · rw [if_pos e, if_pos e.symm]
    · have e' : ¬ x = intStr (nn.getD num) := fun q => e q.symm
      rw [if_neg e, if_neg e']
  · intro x
    clear h5 hcs h1
    induction rs generalizing r with
    | nil => simp
    | cons s rs ih =>
      rw [List.foldl_cons]
      have hih : (rs.foldl CellGeo.union (CellGeo.union r s)) x ↔ CellGeo.union r s x ∨ ∃ s ∈ rs, s x := by
        clear ih
        have gen : ∀ (q : Region P), (rs.foldl CellGeo.union q) x ↔ q x ∨ ∃ s ∈ rs, s x := by
          induction rs with
          | nil => intro q; simp
          | cons t rs ih2 =>
            intro q
            rw [List.foldl_cons, ih2]
            simp only [CellGeo.union, List.mem_cons, exists_eq_or_imp, or_assoc]
        exact gen _
      rw [hih]
      simp only [CellGeo.union, List.mem_cons, exists_eq_or_imp, or_assoc]

/-! ## hashing many cells -/

/-- the card under the key describes a region (specification) -/
def HasRegion {P : Type} (w : World P) (d : Dict Str Card) (k : Str) (num : ℤ) (hd ps : List Str)
    (r : Region P) : Prop :=
  ∃ c geo r', Dict.get? d k = some c ∧ Shows c num hd geo ps ∧ Denotes w geo r' ∧ ∀ x, r' x ↔ r x

theorem hashInner_ok {P : Type} (w : World P) (h : Nat) (ns : List ℤ) (d : Dict Str Card)
    (hd : ∀ n ∈ ns, ∃ num hd ps r, HasRegion w d (intStr n) num hd ps r) :
    ∃ d', hashInner (h : ℤ) d ns = (d', none) ∧
      (∀ k num hd ps r, HasRegion w d k num hd ps r →
        HasRegion w d' k num hd ps (fun x => r x ∧ ((∃ n ∈ ns, intStr n = k) → ¬ w.cell h x))) ∧
      (∀ k, (¬ ∃ n ∈ ns, intStr n = k) → Dict.get? d' k = Dict.get? d k) := by
  induction ns generalizing d with
  | nil =>
    refine ⟨d, rfl, ?_, fun _ _ => rfl⟩
    intro k num hd ps r ⟨c, geo, r', h1, h2, h3, h4⟩
    exact ⟨c, geo, r', h1, h2, h3, fun x => by simp [h4 x]⟩
  | cons n ns ih =>
    obtain ⟨num, hd0, ps, r, c, geo, r', g1, g2, g3, g4⟩ := hd n List.mem_cons_self
    obtain ⟨c', geo', e1, e2, e3⟩ := hash_cell_region w g2 g3 (h : ℤ) (by omega) none
    have hone : ∀ k num hd ps r, HasRegion w d k num hd ps r →
        HasRegion w (Dict.set d (intStr n) c') k num hd ps (fun x => r x ∧ (intStr n = k → ¬ w.cell h x)) := by
      intro k num1 hd1 ps1 r1 ⟨c1, geo1, r1', k1, k2, k3, k4⟩
      by_cases e : intStr n = k
      · subst e
        rw [g1] at k1
        cases k1
        obtain ⟨c2, geo2, m1, m2, m3⟩ := hash_cell_region w k2 k3 (h : ℤ) (by omega) none
        rw [e1] at m1
        cases m1
        refine ⟨c', geo2, _, by rw [Dict.get?_set, if_pos rfl], m2, m3, ?_⟩
        intro x
        simp [CellGeo.inter, CellGeo.compl, k4 x]
      · refine ⟨c1, geo1, r1', by rw [Dict.get?_set, if_neg e]; exact k1, k2, k3, ?_⟩
        intro x
        simp [k4 x, e]
    obtain ⟨d', h1, h2, h3⟩ := ih (Dict.set d (intStr n) c') (by
      intro m hm
      obtain ⟨num1, hd1, ps1, r1, hr1⟩ := hd m (List.mem_cons_of_mem _ hm)
      exact ⟨num1, hd1, ps1, _, hone _ _ _ _ _ hr1⟩)
    refine ⟨d', ?_, ?_, ?_⟩
    · simp only [hashInner, g1, e1]; exact h1
    · intro k num1 hd1 ps1 r1 hr1
      obtain ⟨c2, geo2, r2, m1, m2, m3, m4⟩ := h2 _ _ _ _ _ (hone _ _ _ _ _ hr1)
      refine ⟨c2, geo2, r2, m1, m2, m3, ?_⟩
      intro x
      rw [m4 x]
      simp only [List.mem_cons, exists_eq_or_imp]
      by_cases e : intStr n = k
      · by_cases e2 : ∃ m ∈ ns, intStr m = k
        · simp [e, e2]
        · simp [e, e2]
      · simp [e]
    · intro k hk
      simp only [List.mem_cons, exists_eq_or_imp, not_or] at hk
      rw [h3 k hk.2, Dict.get?_set, if_neg hk.1]

/-- **Hashing many cells**: when every listed cell exists (and has a geometry), afterwards each cell
describes its old region minus the regions of all the cells it has been hashed with; number, header
and parameters are kept; cells that are listed nowhere keep their card. -/
theorem hash_multiple_region {P : Type} (w : World P) (hs : List (Nat × List ℤ)) (d : Dict Str Card)
    (hd : ∀ e ∈ hs, ∀ n ∈ e.2, ∃ num hd ps r, HasRegion w d (intStr n) num hd ps r) :
    ∃ d', hashMultiple d (hs.map (fun e => ((e.1 : ℤ), e.2))) = (d', none) ∧
      (∀ n num hd ps r, HasRegion w d (intStr n) num hd ps r →
        HasRegion w d' (intStr n) num hd ps (fun x => r x ∧ ∀ e ∈ hs, n ∈ e.2 → ¬ w.cell e.1 x)) ∧
      (∀ k, (¬ ∃ e ∈ hs, ∃ n ∈ e.2, intStr n = k) → Dict.get? d' k = Dict.get? d k) := by
  have inj : ∀ a b : ℤ, intStr a = intStr b → a = b := by
    intro a b h
    have := parseInt_intStr a
    rw [h, parseInt_intStr b] at this
    exact (Option.some.inj this).symm
  induction hs generalizing d with
  | nil =>
    refine ⟨d, rfl, ?_, fun _ _ => rfl⟩
    intro n num hd ps r ⟨c, geo, r', h1, h2, h3, h4⟩
    exact ⟨c, geo, r', h1, h2, h3, fun x => by simp [h4 x]⟩
  | cons e hs ih =>
    obtain ⟨d1, a1, a2, a3⟩ := hashInner_ok w e.1 e.2 d (hd e List.mem_cons_self)
    obtain ⟨d', b1, b2, b3⟩ := ih d1 (by
      intro f hf n hn
      obtain ⟨num1, hd1, ps1, r1, hr1⟩ := hd f (List.mem_cons_of_mem _ hf) n hn
      exact ⟨num1, hd1, ps1, _, a2 _ _ _ _ _ hr1⟩)
    refine ⟨d', ?_, ?_, ?_⟩
    · simp only [List.map_cons, hashMultiple, a1]; exact b1
    · intro n num1 hd1 ps1 r1 hr1
      obtain ⟨c2, geo2, r2, m1, m2, m3, m4⟩ := b2 _ _ _ _ _ (a2 _ _ _ _ _ hr1)
      refine ⟨c2, geo2, r2, m1, m2, m3, ?_⟩
      intro x
      rw [m4 x]
      have : (∃ m ∈ e.2, intStr m = intStr n) ↔ n ∈ e.2 :=
        ⟨fun ⟨m, hm, hmn⟩ => inj m n hmn ▸ hm, fun h => ⟨n, h, rfl⟩⟩
      simp only [this, List.mem_cons, forall_eq_or_imp, and_assoc]
    · intro k hk
      simp only [List.mem_cons, exists_eq_or_imp, not_or] at hk
      rw [b3 k hk.2, a3 k hk.1]

/-! ## concrete cards, and what the code does wrong -/

/-- `10 0 1 -2 : 3` / `imp:n=1 u=5 fill=7` (example) -/
def card10 : Card :=
  ⟨10, [⟨0, [[.hole 2], [.hole 1], [.hole 1], [.ch '-', .hole 1], lit [':'], [.hole 1]]⟩,
        ⟨5, [lit "imp:n=1".toList, lit ['u', '='] ++ [.hole 1], lit "fill=".toList ++ [.hole 1]]⟩],
    [(10, .cel), (0, .mat), (1, .sur), (2, .sur), (3, .sur), (5, .u), (7, .fill)]⟩

/-- `20 4 -7.8 -8 #10 imp:n=1` (example) -/
def card20 : Card :=
  ⟨20, [⟨0, [[.hole 2], [.hole 1], lit ['~'], [.ch '-', .hole 1], [.ch '#', .hole 2], lit "imp:n=1".toList]⟩],
    [(20, .cel), (4, .mat), (8, .sur), (10, .cel)]⟩

theorem card10_shows : Shows card10 10 [['0']] "1 -2 : 3".toList
    ["imp:n=1".toList, "u=5".toList, "fill=7".toList] := by
  refine ⟨2, [[.hole 1]], [[.hole 1], [.ch '-', .hole 1], lit [':'], [.hole 1]],
    [lit "imp:n=1".toList, lit ['u', '='] ++ [.hole 1], lit "fill=".toList ++ [.hole 1]],
    [(0, .mat)], [(1, .sur), (2, .sur), (3, .sur)], [(5, .u), (7, .fill)], ?_, by decide +kernel,
    ⟨[['1'], ['-', '2'], [':'], ['3']], by decide +kernel, by decide +kernel⟩, by decide +kernel⟩
  exact {
    words := by decide +kernel
    head := ⟨_, _, rfl, [[.hole 1], [.ch '-', .hole 1], lit [':'], [.hole 1]], by decide +kernel⟩
    size := by decide +kernel
    plain := by decide +kernel
    params := Or.inr ⟨_, _, rfl, by decide +kernel⟩
    name := rfl
    vals := rfl
    mat := ⟨_, List.mem_singleton.2 rfl, rfl⟩
    geoNe := by simp
    geo := by decide +kernel
    other := by decide +kernel
    holesH := by decide +kernel
    holesG := by decide +kernel
    holesP := by decide +kernel }

theorem card20_shows : Shows card20 20 [['4'], ['~']] "-8 #10".toList ["imp:n=1".toList] := by
  refine ⟨2, [[.hole 1], lit ['~']], [[.ch '-', .hole 1], [.ch '#', .hole 2]], [lit "imp:n=1".toList],
    [(4, .mat)], [(8, .sur), (10, .cel)], [], ?_, by decide +kernel,
    ⟨["-8".toList, "#10".toList], by decide +kernel, by decide +kernel⟩, by decide +kernel⟩
  exact {
    words := by decide +kernel
    head := ⟨_, _, rfl, [[.ch '-', .hole 1], [.ch '#', .hole 2], lit "imp:n=1".toList], by decide +kernel⟩
    size := by decide +kernel
    plain := by decide +kernel
    params := Or.inr ⟨_, _, rfl, by decide +kernel⟩
    name := rfl
    vals := rfl
    mat := ⟨_, List.mem_singleton.2 rfl, rfl⟩
    geoNe := by simp
    geo := by decide +kernel
    other := by decide +kernel
    holesH := by decide +kernel
    holesG := by decide +kernel
    holesP := by decide +kernel }

/-- the geometry of `card10` -/
theorem card10_region {P : Type} (w : World P) : Denotes w "1 -2 : 3".toList
    (CellGeo.union (CellGeo.inter (w.pos 1) (w.neg 2)) (w.pos 3)) := by
  refine ⟨[.num false 1, .num true 2, .colon, .num false 3], by decide +kernel, ?_⟩
  exact Union.more (ts := [.num false 1, .num true 2]) (us := [.num false 3])
    (Union.one (Inter.more (ts := [_]) (Inter.one (.surf false 1)) (.surf true 2)))
    (Inter.one (.surf false 3))

theorem card20_region {P : Type} (w : World P) : Denotes w "-8 #10".toList
    (CellGeo.inter (w.neg 8) (CellGeo.compl (w.cell 10))) :=
  ⟨[.num true 8, .hash, .num false 10], by decide +kernel,
    Union.one (Inter.more (ts := [.num true 8]) (Inter.one (.surf true 8)) (.notCell 10))⟩

/-- the printed cards after the edits -/
example : ((addSurface card10 (-15) none .intersect).toOption.bind Card.print).map unwords =
    some "10 0 ( 1 -2 : 3 ) -15 imp:n=1 u=5 fill=7".toList := by decide +kernel
example : ((addSurface card20 15 (some 99) .union).toOption.bind Card.print).map unwords =
    some "99 4 ~ ( -8 #10 ) :15 imp:n=1".toList := by decide +kernel
example : ((hashCell card10 33 none).toOption.bind Card.print).map unwords =
    some "10 0 ( 1 -2 : 3 ) #33 imp:n=1 u=5 fill=7".toList := by decide +kernel
example : (Card.print (removeU card10)).map unwords = some "10 0 1 -2 : 3 imp:n=1 fill=7".toList := by
  decide +kernel
example : ((addParam card20 .u 12).toOption.bind Card.print).map unwords =
    some "20 4 ~ -8 #10 u=12 imp:n=1".toList := by decide +kernel

/-- the universe written with a blank: `u= 5 fill=7` (example) -/
def card11 : Card :=
  ⟨11, [⟨0, [[.hole 2], [.hole 1], [.ch '-', .hole 1], lit ['u', '='], [.hole 1], lit "fill=".toList ++ [.hole 1]]⟩],
    [(11, .cel), (0, .mat), (2, .sur), (5, .u), (7, .fill)]⟩

/-- **`remove_u` breaks a card whose universe is written `u= 5`**: the text keeps `u=` and its hole,
but the number is removed, so the following numbers move one hole to the left and there is none left
for the last one: printing the card raises `IndexError`. -/
theorem remove_u_blank : card11.print.map unwords = some "11 0 -2 u= 5 fill=7".toList ∧
    (removeU card11).print = none := by decide +kernel

/-- the header spread over two lines (example) -/
def card12 : Card :=
  ⟨12, [⟨0, [[.hole 2], [.hole 1]]⟩, ⟨5, [lit ['~'], [.ch '-', .hole 1], lit "imp:n=1".toList]⟩],
    [(12, .cel), (3, .mat), (2, .sur)]⟩

/-- A card whose density is on the second line cannot be edited: `IndexError`. -/
theorem header_two_lines : addSurface card12 5 none .intersect = .error .indexError := by decide +kernel

/-- what `get_geom` gives for the two cards (specification) -/
def geomEx (c : Card) : List Str := if c.name = 10 then ["1 -2 : 3".toList] else ["-8 #10".toList]

/-- the cells of a model (specification) -/
def cellsEx : Dict Str Card := [("10".toList, card10), ("20".toList, card20), ("30".toList, card11)]

/-- the union of cells 20 and 10 -/
example : (((cellsUnion geomEx id cellsEx ["20".toList, "10".toList] none).1.map
    (fun kv => (kv.1, (kv.2.print.map unwords).getD []))) =
    [("30".toList, "11 0 -2 u= 5 fill=7".toList),
     ("20".toList, "20 4 ~ ( -8 #10 ) : ( 1 -2 : 3 ) imp:n=1".toList)]) ∧
    (cellsUnion geomEx id cellsEx ["20".toList, "10".toList] none).2 = none := by decide +kernel

/-- **The union silently replaces a cell that already has the requested number.** -/
theorem cells_union_overwrites :
    (cellsUnion geomEx id cellsEx ["20".toList, "10".toList] (some 30)).2 = none ∧
    ((cellsUnion geomEx id cellsEx ["20".toList, "10".toList] (some 30)).1.map
      (fun kv => (kv.1, (kv.2.print.map unwords).getD []))) =
      [("30".toList, "30 4 ~ ( -8 #10 ) : ( 1 -2 : 3 ) imp:n=1".toList)] := by decide +kernel

/-- **The union of a single cell under a new number** stores the card under that number but leaves
the old number on the card. -/
theorem cells_union_single (geom : Card → List Str) (reread : Card → Card) (d : Dict Str Card)
    (k : Str) (c : Card) (hk : Dict.get? d k = some c) (n : ℤ) :
    cellsUnion geom reread d [k] (some n) = (Dict.set (Dict.del d k) (intStr n) c, none) := by
  have hh : Dict.has d k = true := by unfold Dict.has; rw [hk]; rfl
  simp [cellsUnion, getCells, hk, unionNum, unionLoop, popCells, hh]

/-- **A number given twice**: the cells are already removed when the `KeyError` is raised. -/
theorem cells_union_duplicate :
    (cellsUnion geomEx id cellsEx ["20".toList, "10".toList, "10".toList] none).2 = some .keyError ∧
    Dict.keys (cellsUnion geomEx id cellsEx ["20".toList, "10".toList, "10".toList] none).1 =
      ["30".toList] := by decide +kernel

end F4Enix.CellText
