import Verif.Inp.EliteWholeProps
/-!
# What the file of extracted sectors holds (C160)
-/
namespace F4Enix.EliteX
open F4Enix F4Enix.Inp F4Enix.Elite

variable {K : Type} [Field K] [LinearOrder K]

theorem extractWith_ok {m : Deck} {rows : Str → List CellText.Row} {shape : Str → Surf K} {e : Env K} {tol : K} {fuel : ℕ} {tab : Sector → List ℤ}
    {names : List (Option Sector)} {out : Out K} (h : extractWith m rows shape e tol fuel tab names = .ok out) :
    ∃ sectors l0 sset cs ss ml o1 o2 vs vs' gy outer gy' outer',
      collectCells tab names = .ok (sectors, l0) ∧ envelopeSurfs l0 m.cells = .ok sset ∧
      extraction m (l0 ++ [800, 801]) false true fuel = .ok (cs, ss, ml) ∧
      setText (m.other.map (fun kc => (kc.1, kc.2, none))) "SI70".toList (setSdef sectors).1 = .ok o1 ∧
      setText o1 "SP70".toList (setSdef sectors).2 = .ok o2 ∧ viewSurfs shape ss = .ok vs ∧
      setBoundaries e (boundaryAngles sectors) tol (fun n => decide (n ∈ sset)) vs = .ok vs' ∧
      Dict.get? m.cells "801".toList = some gy ∧ Dict.get? m.cells "800".toList = some outer ∧
      modifyGraveyard sectors (withRows rows "801".toList gy) (withRows rows "800".toList outer) = .ok (outer', gy') ∧
      out = ⟨Dict.set (Dict.set cs "800".toList { outer with values := outer'.vals }) "801".toList { gy with values := gy'.vals },
        List.zipWith (fun kc s => (kc.1, kc.2, s)) ss vs', ml, m.transformations, o2, m.header⟩ := by
  unfold extractWith at h
  cases h1 : collectCells tab names with
  | error x => rw [h1] at h; simp at h
  | ok p =>
    obtain ⟨sectors, l0⟩ := p
    rw [h1] at h; simp only at h
    cases h2 : envelopeSurfs l0 m.cells with
    | error x => rw [h2] at h; simp at h
    | ok sset =>
      rw [h2] at h; simp only at h
      cases h3 : extraction m (l0 ++ [800, 801]) false true fuel with
      | error x => rw [h3] at h; simp at h
      | ok q =>
        obtain ⟨cs, ss, ml⟩ := q
        rw [h3] at h; simp only at h
        cases h4 : setText (m.other.map (fun kc => (kc.1, kc.2, none))) "SI70".toList (setSdef sectors).1 with
        | error x => rw [h4] at h; simp at h
        | ok o1 =>
          rw [h4] at h; simp only at h
          cases h5 : setText o1 "SP70".toList (setSdef sectors).2 with
          | error x => rw [h5] at h; simp at h
          | ok o2 =>
            rw [h5] at h; simp only at h
            cases h6 : viewSurfs shape ss with
            | error x => rw [h6] at h; simp at h
            | ok vs =>
              rw [h6] at h; simp only at h
              cases h7 : setBoundaries e (boundaryAngles sectors) tol (fun n => decide (n ∈ sset)) vs with
              | error x => rw [h7] at h; simp at h
              | ok vs' =>
                rw [h7] at h; simp only at h
                cases h8 : Dict.get? m.cells "801".toList with
                | none => rw [h8] at h; simp at h
                | some gy =>
                  cases h9 : Dict.get? m.cells "800".toList with
                  | none => rw [h8, h9] at h; simp at h
                  | some outer =>
                    rw [h8, h9] at h; simp only at h
                    cases h10 : modifyGraveyard sectors (withRows rows "801".toList gy) (withRows rows "800".toList outer) with
                    | error x => rw [h10] at h; simp at h
                    | ok r =>
                      obtain ⟨outer', gy'⟩ := r
                      rw [h10] at h
                      simp only [Except.ok.injEq] at h
                      exact ⟨sectors, l0, sset, cs, ss, ml, o1, o2, vs, vs', gy, outer, gy', outer', rfl, h2, h3, h4, h5, h6, h7, rfl, rfl, h10, h.symm⟩

/-- without a table read before, a call that ends normally uses the table given -/
theorem first_call {m : Deck} {rows : Str → List CellText.Row} {shape : Str → Surf K} {e : Env K} {tol : K} {fuel : ℕ}
    {names : List (Option Sector)} {x : Excel} {check : Bool} {st : Option (Sector → List ℤ)} {out : Out K}
    (h : extractSector m rows shape e tol fuel none names x check = (st, .ok out)) :
    st = some (sectorCells x) ∧ extractWith m rows shape e tol fuel (sectorCells x) names = .ok out := by
  have hi : ∀ tab, initElite m check x = .ok tab → tab = sectorCells x := by
    intro tab ht
    unfold initElite at ht
    split at ht
    · split at ht
      · simp at ht
      · split at ht
        · simp at ht
        · split at ht
          · simp only [Except.ok.injEq] at ht; exact ht.symm
          · simp at ht
    · simp only [Except.ok.injEq] at ht; exact ht.symm
  unfold extractSector at h
  simp only at h
  cases ht : initElite m check x with
  | error er => rw [ht] at h; simp at h
  | ok tab =>
    rw [ht] at h
    simp only [Prod.mk.injEq] at h
    rw [hi tab ht] at h
    exact ⟨h.1.symm, h.2⟩

theorem str800 : intStr 800 = "800".toList := by decide
theorem str801 : intStr 801 = "801".toList := by decide

/-- **C160 (cells).** The file has exactly the needed cells, each with its card (without the universe, if it was asked for); the outer cell and the
graveyard have, besides their own surfaces, the two planes of the cut. -/
theorem sector_cells {m : Deck} {rows : Str → List CellText.Row} {shape : Str → Surf K} {e : Env K} {tol : K} {fuel : ℕ}
    {names : List (Option Sector)} {x : Excel} {check : Bool} {st : Option (Sector → List ℤ)} {out : Out K}
    (h : extractSector m rows shape e tol fuel none names x check = (st, .ok out)) :
    ∃ sectors, names = sectors.map some ∧
      (∀ k c', k ≠ "800".toList → k ≠ "801".toList → (out.cells.get? k = some c' ↔
        ∃ n c, k = intStr n ∧ NeededCell m x sectors n ∧ m.cells.get? k = some c ∧
          ((∃ w, Wanted x sectors w ∧ c.num = .ok w) → c' = removeU c) ∧ ((¬ ∃ w, Wanted x sectors w ∧ c.num = .ok w) → c' = c))) ∧
      (∀ k, k = "800".toList ∨ k = "801".toList → ∃ c c', m.cells.get? k = some c ∧ out.cells.get? k = some c' ∧ c'.name = c.name ∧ c'.dens = c.dens ∧
        ∀ v k', (v, k') ∈ c'.values ↔ (v, k') ∈ c.values ∨ (k' = Kind.sur ∧ CutPlane sectors v)) := by
  obtain ⟨-, hw⟩ := first_call h
  obtain ⟨sectors, l0, sset, cs, ss, ml, o1, o2, vs, vs', gy, outer, gy', outer', h1, h2, h3, h4, h5, h6, h7, h8, h9, h10, rfl⟩ := extractWith_ok hw
  obtain ⟨hn, rfl⟩ := collectCells_ok h1
  refine ⟨sectors, hn, ?_, ?_⟩
  · intro k c' k8 k9
    obtain ⟨c1, -⟩ := c12_self_contained _ _ _ _ _ _ _ _ h3
    simp only
    rw [Dict.get?_set_ne _ _ (fun h => k9 h.symm), Dict.get?_set_ne _ _ (fun h => k8 h.symm), c1]
    have hreq : ∀ c : Card, (∃ n ∈ sectors.flatMap (sectorCells x) ++ [800, 801], c.num = .ok n) ↔ ∃ w, Wanted x sectors w ∧ c.num = .ok w := by
      intro c
      unfold Wanted
      simp only [List.mem_append, List.mem_cons, List.not_mem_nil, or_false, mem_sectorCells]
      constructor
      · rintro ⟨n, hn | hn | hn, hc⟩
        · exact ⟨n, Or.inr (Or.inr hn), hc⟩
        · exact ⟨n, Or.inl hn, hc⟩
        · exact ⟨n, Or.inr (Or.inl hn), hc⟩
      · rintro ⟨n, hn | hn | hn, hc⟩
        · exact ⟨n, Or.inr (Or.inl hn), hc⟩
        · exact ⟨n, Or.inr (Or.inr hn), hc⟩
        · exact ⟨n, Or.inl hn, hc⟩
    have hex : ∀ c : Card, c' = extracted false (sectors.flatMap (sectorCells x) ++ [800, 801]) c ↔
        (((∃ w, Wanted x sectors w ∧ c.num = .ok w) → c' = removeU c) ∧ ((¬ ∃ w, Wanted x sectors w ∧ c.num = .ok w) → c' = c)) := by
      intro c
      unfold extracted
      by_cases hc : ∃ w, Wanted x sectors w ∧ c.num = .ok w
      · rw [if_pos ⟨rfl, (hreq c).2 hc⟩]
        exact ⟨fun h => ⟨fun _ => h, fun h' => absurd hc h'⟩, fun h => h.1 hc⟩
      · rw [if_neg (fun h => hc ((hreq c).1 h.2))]
        exact ⟨fun h => ⟨fun h' => absurd h' hc, fun _ => h⟩, fun h => h.2 hc⟩
    constructor
    · rintro ⟨n, c, rfl, hcl, hg, hx⟩
      exact ⟨n, c, rfl, (closure_iff m x sectors n).1 hcl, hg, (hex c).1 hx⟩
    · rintro ⟨n, c, rfl, hcl, hg, hx⟩
      exact ⟨n, c, rfl, (closure_iff m x sectors n).2 hcl, hg, (hex c).2 hx⟩
  · obtain ⟨a, b, ha, hb, v1, v2⟩ := graveyard_vals h10
    have hcut : ∀ v, CutPlane sectors v ↔ v = |a.bounds.1| ∨ v = |b.bounds.2| := by
      intro v
      unfold CutPlane
      constructor
      · rintro ⟨a', b', ha', hb', hv⟩
        unfold IsFirst at ha ha'
        unfold IsLast at hb hb'
        rw [ha] at ha'; rw [hb] at hb'
        simp only [Option.some.injEq] at ha' hb'
        rw [← ha', ← hb'] at hv
        exact hv
      · intro hv; exact ⟨a, b, ha, hb, hv⟩
    have hval : ∀ (v : ℤ) (k' : Kind), ((v, k') = (|a.bounds.1|, Kind.sur) ∨ (v, k') = (|b.bounds.2|, Kind.sur)) ↔ (k' = Kind.sur ∧ CutPlane sectors v) := by
      intro v k'
      rw [hcut]
      simp only [Prod.mk.injEq]
      tauto
    rintro k (rfl | rfl)
    · refine ⟨outer, { outer with values := outer'.vals }, h9, ?_, rfl, rfl, ?_⟩
      · simp only
        rw [Dict.get?_set_ne _ _ (by decide), Dict.get?_set_self]
      · intro v k'
        rw [← hval]
        exact v1 (v, k')
    · refine ⟨gy, { gy with values := gy'.vals }, h8, ?_, rfl, rfl, ?_⟩
      · simp only
        rw [Dict.get?_set_self]
      · intro v k'
        rw [← hval]
        exact v2 (v, k')

/-! ### surfaces -/

/-- a surface of an envelope: it stands on a cell that the table gives to one of the sectors (specification) -/
def EnvelopeSurf (m : Deck) (x : Excel) (sectors : List Sector) (v : ℤ) : Prop :=
  ∃ k c a s, (k, c) ∈ m.cells ∧ c.num = .ok a ∧ s ∈ sectors ∧ (a, some s) ∈ x ∧ HasSurf c v

theorem envelopeSurfs_mem {l0 : List ℤ} : ∀ {cells : Dict Str Card} {vs : List ℤ}, envelopeSurfs l0 cells = .ok vs →
    ∀ v, v ∈ vs ↔ ∃ k c a, (k, c) ∈ cells ∧ c.num = .ok a ∧ a ∈ l0 ∧ HasSurf c v := by
  intro cells
  induction cells with
  | nil =>
    intro vs h v
    simp only [envelopeSurfs, Except.ok.injEq] at h
    rw [← h]
    simp
  | cons p r ih =>
    obtain ⟨k, c⟩ := p
    intro vs h v
    rw [envelopeSurfs.eq_def] at h
    simp only at h
    cases hc : c.num with
    | error x => rw [hc] at h; simp at h
    | ok n =>
      rw [hc] at h
      simp only at h
      cases hr : envelopeSurfs l0 r with
      | error x => rw [hr] at h; simp at h
      | ok ws =>
        rw [hr] at h
        simp only [Except.ok.injEq] at h
        rw [← h, List.mem_append, ih hr v]
        constructor
        · rintro (hv | ⟨k', c', a, hm, h1, h2, h3⟩)
          · split at hv
            · rename_i hl
              rw [List.mem_filterMap] at hv
              obtain ⟨⟨w, kd⟩, hw, he⟩ := hv
              split at he
              · rename_i hkd
                simp only [Option.some.injEq] at he hkd
                subst he; subst hkd
                exact ⟨k, c, n, by simp, hc, hl, hw⟩
              · simp at he
            · simp at hv
          · exact ⟨k', c', a, by simp [hm], h1, h2, h3⟩
        · rintro ⟨k', c', a, hm, h1, h2, h3⟩
          rcases List.mem_cons.1 hm with e | hm
          · simp only [Prod.mk.injEq] at e
            obtain ⟨rfl, rfl⟩ := e
            rw [hc] at h1
            simp only [Except.ok.injEq] at h1
            subst h1
            left
            rw [if_pos h2, List.mem_filterMap]
            exact ⟨(v, Kind.sur), h3, by simp⟩
          · right; exact ⟨k', c', a, hm, h1, h2, h3⟩

theorem viewSurfs_forall {shape : Str → Surf K} : ∀ {ss : Dict Str Card} {vs : List (Surf K)}, viewSurfs shape ss = .ok vs →
    List.Forall₂ (fun kc s => ∃ n, Card.num kc.2 = .ok n ∧ s = { shape kc.1 with num := n }) ss vs := by
  intro ss
  induction ss with
  | nil =>
    intro vs h
    simp only [viewSurfs, Except.ok.injEq] at h
    rw [← h]; exact .nil
  | cons p r ih =>
    obtain ⟨k, c⟩ := p
    intro vs h
    rw [viewSurfs.eq_def] at h
    simp only at h
    cases hc : c.num with
    | error x => rw [hc] at h; simp at h
    | ok n =>
      rw [hc] at h
      simp only at h
      cases hr : viewSurfs shape r with
      | error x => rw [hr] at h; simp at h
      | ok ws =>
        rw [hr] at h
        simp only [Except.ok.injEq] at h
        rw [← h]
        exact .cons ⟨n, hc, rfl⟩ (ih hr)

theorem zip_mem {α β γ : Type} {R : α → β → Prop} {S : β → γ → Prop} : ∀ {l : List α} {m : List β} {n : List γ}, List.Forall₂ R l m → List.Forall₂ S m n →
    (∀ a ∈ l, ∃ c, (a, c) ∈ List.zip l n) ∧ (∀ a c, (a, c) ∈ List.zip l n → a ∈ l ∧ ∃ b, R a b ∧ S b c) := by
  intro l m n h
  induction h generalizing n with
  | nil => intro h; cases h; simp
  | @cons a b l m h1 _ ih =>
    intro h
    cases h with
    | @cons _ c _ n h2 h3 =>
      obtain ⟨i1, i2⟩ := ih h3
      constructor
      · intro a' ha
        rcases List.mem_cons.1 ha with rfl | ha
        · exact ⟨c, by simp⟩
        · obtain ⟨c', hc⟩ := i1 a' ha
          exact ⟨c', by simp [hc]⟩
      · intro a' c' hm
        rw [List.zip_cons_cons, List.mem_cons] at hm
        rcases hm with e | hm
        · simp only [Prod.mk.injEq] at e
          obtain ⟨rfl, rfl⟩ := e
          exact ⟨by simp, b, h1, h2⟩
        · obtain ⟨h4, h5⟩ := i2 a' c' hm
          exact ⟨by simp [h4], h5⟩

/-- **C160 (surfaces).** The file has exactly the surfaces of the needed cells of the model. A surface of an envelope gets one star for each boundary
angle it lies along and is otherwise unchanged; a surface that lies along none is unchanged. -/
theorem sector_surfs {m : Deck} {rows : Str → List CellText.Row} {shape : Str → Surf K} {e : Env K} {tol : K} {fuel : ℕ}
    {names : List (Option Sector)} {x : Excel} {check : Bool} {st : Option (Sector → List ℤ)} {out : Out K}
    (h : extractSector m rows shape e tol fuel none names x check = (st, .ok out)) :
    ∃ sectors, names = sectors.map some ∧
      (∀ v, NeededSurf m x sectors v → ∃ key card s, SurfCard m.surfs v key card ∧ (key, card, s) ∈ out.surfs) ∧
      (∀ key card s', (key, card, s') ∈ out.surfs → (∃ v, NeededSurf m x sectors v ∧ SurfCard m.surfs v key card) ∧
        ∃ n s, card.num = .ok n ∧ s = { shape key with num := n } ∧
          (EnvelopeSurf m x sectors n →
            s' = { s with stars := s.stars + (withReverse (boundaryAngles sectors)).countP (fun a => decide (Along e tol s a)) }) ∧
          ((∀ a ∈ withReverse (boundaryAngles sectors), ¬ Along e tol s a) → s' = s)) := by
  obtain ⟨-, hw⟩ := first_call h
  obtain ⟨sectors, l0, sset, cs, ss, ml, o1, o2, vs, vs', gy, outer, gy', outer', h1, h2, h3, h4, h5, h6, h7, h8, h9, h10, rfl⟩ := extractWith_ok hw
  obtain ⟨hn, rfl⟩ := collectCells_ok h1
  obtain ⟨-, c2, c3, -, -⟩ := c12_self_contained _ _ _ _ _ _ _ _ h3
  obtain ⟨-, hmem⟩ := extraction_surfs_mem _ _ _ _ _ _ _ _ h3
  have hset : ∀ v, decide (v ∈ sset) = true ↔ EnvelopeSurf m x sectors v := by
    intro v
    rw [decide_eq_true_iff, envelopeSurfs_mem h2 v]
    unfold EnvelopeSurf
    constructor
    · rintro ⟨k, c, a, hm, h1, h2, h3⟩
      obtain ⟨s, hs, hx⟩ := (mem_sectorCells x sectors a).1 h2
      exact ⟨k, c, a, s, hm, h1, hs, hx, h3⟩
    · rintro ⟨k, c, a, s, hm, h1, hs, hx, h3⟩
      exact ⟨k, c, a, hm, h1, (mem_sectorCells x sectors a).2 ⟨s, hs, hx⟩, h3⟩
  have hboth : List.Forall₂ (fun s s' => (EnvelopeSurf m x sectors s.num →
            s' = { s with stars := s.stars + (withReverse (boundaryAngles sectors)).countP (fun a => decide (Along e tol s a)) }) ∧
          ((∀ a ∈ withReverse (boundaryAngles sectors), ¬ Along e tol s a) → s' = s)) vs vs' := by
    have f1 := envelope_stars_partial h7
    have f2 := others_untouched h7
    clear h7 h6 hw h
    induction f1 with
    | nil => exact .nil
    | cons g1 _ ih =>
      cases f2 with
      | cons g2 f2 => exact .cons ⟨fun he => g1 ((hset _).2 he), g2⟩ (ih f2)
  obtain ⟨z1, z2⟩ := zip_mem (viewSurfs_forall h6) hboth
  have hz : ∀ key card s', (key, card, s') ∈ List.zipWith (fun kc s => (kc.1, kc.2, s)) ss vs' ↔ ((key, card), s') ∈ List.zip ss vs' := by
    intro key card s'
    rw [show List.zipWith (fun (kc : Str × Card) (s : Surf K) => (kc.1, kc.2, s)) ss vs' = (List.zip ss vs').map (fun p => (p.1.1, p.1.2, p.2)) by
      rw [List.zip, List.map_zipWith]]
    rw [List.mem_map]
    constructor
    · rintro ⟨⟨⟨a, b⟩, c⟩, hm, he⟩
      simp only [Prod.mk.injEq] at he
      obtain ⟨rfl, rfl, rfl⟩ := he
      exact hm
    · intro hm
      exact ⟨((key, card), s'), hm, rfl⟩
  refine ⟨sectors, hn, ?_, ?_⟩
  · rintro v ⟨n, c, hc, hg, hv⟩
    obtain ⟨key, card, h1, h2⟩ := c2 n c v ((closure_iff m x sectors n).2 hc) hg hv
    obtain ⟨s, hs⟩ := z1 (key, card) (Dict.mem_of_get? h2)
    exact ⟨key, card, s, h1, (hz key card s).2 hs⟩
  · intro key card s' hm
    obtain ⟨hss, s, ⟨n, hnum, hs⟩, hb⟩ := z2 _ _ ((hz key card s').1 hm)
    obtain ⟨n', c, v, g1, g2, g3, g4⟩ := c3 key card (hmem _ _ hss)
    refine ⟨⟨v, ⟨n', c, (closure_iff m x sectors n').1 g1, g2, g3⟩, g4⟩, n, s, hnum, hs, ?_, hb.2⟩
    intro he
    refine hb.1 ?_
    rw [hs]
    exact he

/-! ### the rest of the file -/

theorem setText_ok {d d' : Dict Str (Card × Option Str)} {k t : Str} (h : setText d k t = .ok d') :
    ∃ c, Dict.get? d k = some c ∧ d' = Dict.set d k (c.1, some t) := by
  unfold setText at h
  cases hc : Dict.get? d k with
  | none => rw [hc] at h; simp at h
  | some c =>
    rw [hc] at h
    simp only [Except.ok.injEq] at h
    exact ⟨c, rfl, h.symm⟩

/-- **C160 (the rest).** Materials are those of the needed cells; header and transformations are those of the model; of the data cards only SI70 and SP70
have a new text, that of the source of these sectors. -/
theorem sector_rest {m : Deck} {rows : Str → List CellText.Row} {shape : Str → Surf K} {e : Env K} {tol : K} {fuel : ℕ}
    {names : List (Option Sector)} {x : Excel} {check : Bool} {st : Option (Sector → List ℤ)} {out : Out K}
    (h : extractSector m rows shape e tol fuel none names x check = (st, .ok out)) :
    ∃ sectors, names = sectors.map some ∧ out.header = m.header ∧ out.transformations = m.transformations ∧
      (∀ n c v, NeededCell m x sectors n → m.cells.get? (intStr n) = some c → (v, Kind.mat) ∈ c.values → v ≠ 0 →
        ∃ mat ∈ out.materials.mats, m.materials.byName ('M' :: intStr v) = .ok mat) ∧
      (∀ mat ∈ out.materials.mats, ∃ n c v, NeededCell m x sectors n ∧ m.cells.get? (intStr n) = some c ∧ (v, Kind.mat) ∈ c.values ∧ v ≠ 0 ∧
        m.materials.byName ('M' :: intStr v) = .ok mat) ∧
      (∀ k, Dict.get? out.other k = (Dict.get? m.other k).map (fun c => (c,
        if k = "SP70".toList then some (setSdef sectors).2 else if k = "SI70".toList then some (setSdef sectors).1 else none))) := by
  obtain ⟨-, hw⟩ := first_call h
  obtain ⟨sectors, l0, sset, cs, ss, ml, o1, o2, vs, vs', gy, outer, gy', outer', h1, h2, h3, h4, h5, h6, h7, h8, h9, h10, rfl⟩ := extractWith_ok hw
  obtain ⟨hn, rfl⟩ := collectCells_ok h1
  obtain ⟨-, -, -, c4, c5⟩ := c12_self_contained _ _ _ _ _ _ _ _ h3
  refine ⟨sectors, hn, rfl, rfl, ?_, ?_, ?_⟩
  · intro n c v hc
    exact c4 n c v ((closure_iff m x sectors n).2 hc)
  · intro mat hm
    obtain ⟨n, c, v, g1, g2⟩ := c5 mat hm
    exact ⟨n, c, v, (closure_iff m x sectors n).1 g1, g2⟩
  · intro k
    obtain ⟨a1, e1, rfl⟩ := setText_ok h4
    obtain ⟨a2, e2, rfl⟩ := setText_ok h5
    simp only
    have hmap : ∀ k, Dict.get? (m.other.map (fun kc => (kc.1, kc.2, (none : Option Str)))) k = (Dict.get? m.other k).map (fun c => (c, none)) :=
      fun k => Dict.get?_map_val m.other (fun c => (c, none)) k
    rw [Dict.get?_set_ne _ _ (by decide), hmap] at e2
    rw [hmap] at e1
    rw [Dict.get?_set]
    by_cases hk : k = "SP70".toList
    · subst hk
      rw [if_pos rfl]
      simp only [if_true]
      cases hg : Dict.get? m.other "SP70".toList with
      | none => rw [hg] at e2; simp at e2
      | some c =>
        rw [hg] at e2
        simp only [Option.map_some, Option.some.injEq] at e2
        simp only [Option.map_some, ← e2]
    · rw [if_neg (fun e => hk e.symm), Dict.get?_set]
      simp only [if_neg hk]
      by_cases hk2 : k = "SI70".toList
      · subst hk2
        rw [if_pos rfl]
        simp only [if_true]
        cases hg : Dict.get? m.other "SI70".toList with
        | none => rw [hg] at e1; simp at e1
        | some c =>
          rw [hg] at e1
          simp only [Option.map_some, Option.some.injEq] at e1
          simp only [Option.map_some, ← e1]
      · rw [if_neg (fun e => hk2 e.symm), hmap]
        simp only [if_neg hk2]

end F4Enix.EliteX
