import Verif.Out.EeoutExample
import Verif.Out.OutpTableCut
/-!
# EEOUT files that were cut off (eeout.py)

What `EEOUT` makes of a file that ends anywhere, compared with the whole file.
-/
namespace F4Enix.Eeout
open F4Enix F4Enix.Outp

variable {K : Type}

/-- the lines before that of the centroids (specification) -/
def Text.before (t : Text) : List Str :=
  t.front ++ " NODES X (cm)\n".toList :: (t.xs ++ t.r1 :: " NODES Y (cm)\n".toList :: (t.ys ++ t.r2 :: " NODES Z (cm)\n".toList ::
    (t.zs ++ t.r3 :: " ELEMENT TYPE\n".toList :: (t.types ++ " ELEMENT MATERIAL\n".toList :: (t.mats ++ t.r4 :: t.connHead ::
      (t.conn ++ t.r5 :: t.neighHead :: (t.d ++ t.edits)))))))

/-- the lines from the centroids on, with other lines for the volumes (specification) -/
def Text.after (t : Text) (vol : Str) (volumes : List Str) : List Str :=
  t.e ++ " DENSITY (gm/cm^3)\n".toList :: (t.density ++ t.r6 :: vol :: volumes)

theorem lines_parts (t : Text) : t.lines = t.before ++ t.centHead :: t.after " VOLUMES (cm^3)\n".toList t.volume := by
  simp only [Text.lines, Text.before, Text.after, List.append_assoc, List.cons_append]

/-- the sections before the densities are read as they stand, whatever follows -/
theorem read_before {pf : Str → Option K} {t : Text} {m : Data K} {n : ℕ} {nums : List (Str × ℕ)} (h : Layout pf t m n nums) {ch : Str}
    (hc : "CENTROIDS X".toList <:+: ch ∧ ¬ "DATA OUTPUT PARTICLE".toList <:+: ch) (S : List Str) :
    readFile pf (t.before ++ ch :: S) =
      match rhoVolLoop pf false false [] [] (ch :: S) with
      | .error e => .error e
      | .ok r => build m.elements.length (numbered 0 m.materials) m.points (m.elements.map (fun x => (n : ℤ) :: x.map (fun k : ℕ => (k : ℤ) - 1)))
          (m.elemMats.map (fun k : ℕ => (k : ℤ))) (found m.edits) r.1 r.2 := by
  obtain ⟨wp, hp1, hp2⟩ := h.particles
  have hn : 0 < n := by rcases h.nodes with h | h <;> omega
  have hlen : 0 < m.elements.length := List.length_pos_iff.2 h.some
  obtain ⟨r1, r2, r3, r4, r5, r6⟩ := h.records
  have hnd := h.info.2.1
  obtain ⟨T, hT⟩ : ∃ T, t.before ++ ch :: S = t.front ++ T := ⟨_, by rw [Text.before, List.append_assoc]⟩
  have e1 : infoLoop false [] (t.before ++ ch :: S) = .ok nums := by
    rw [hT, Text.front, List.append_assoc, List.append_assoc]
    exact info_read h.head h.info
  have e2 : ∃ R, t.before ++ ch :: S = (t.head ++ (t.info ++ (t.a ++ (" PARTICLE LIST\n".toList :: t.particles :: t.b)))) ++ " MATERIALS\n".toList :: (t.materials ++ R) := by
    refine ⟨t.c ++ T, ?_⟩
    rw [hT, Text.front]
    simp only [List.append_assoc, List.cons_append]
  obtain ⟨R, hR⟩ := e2
  have e3 : matNames m.materials.length 0 [] (behindMats (t.before ++ ch :: S)) = .ok (numbered 0 m.materials) := by
    rw [hR, behindMats_read h.materialsOnce, matNames_ok h.materials 0 [] (by simp)]
    rfl
  have e4 : particleList (t.before ++ ch :: S) = .ok m.particles := by
    have := particle_read (A := t.head ++ (t.info ++ t.a)) (rest := t.b ++ " MATERIALS\n".toList :: (t.materials ++ R)) h.particlesOnce hp2
    refine Eq.trans ?_ this
    rw [hR, hp1]
    simp
  have e5 : elements (if n = 4 then m.elements.length else 0) (if n = 10 then m.elements.length else 0) = .ok (m.elements.length, n) := by
    unfold elements
    rcases h.nodes with rfl | rfl
    · simp [hlen]
    · simp [hlen]
  have e6 := nodes_read (pf := pf) (rest := t.types ++ " ELEMENT MATERIAL\n".toList :: (t.mats ++ t.r4 :: t.connHead ::
      (t.conn ++ t.r5 :: t.neighHead :: (t.d ++ (t.edits ++ ch :: S))))) h.front h.xs h.ys h.zs r1 r2 r3
  have e7 := material_read (A := " ELEMENT TYPE\n".toList :: t.types) (rest := t.conn ++ t.r5 :: t.neighHead ::
      (t.d ++ (t.edits ++ ch :: S)))
    (by
      intro l hl
      rcases List.mem_cons.1 hl with rfl | hl
      · decide
      · exact h.types l hl) h.mats r4 h.connHead.1
  have e8 := connectivity_read hn (rest := t.d ++ (t.edits ++ ch :: S)) h.connHead h.conn r5 ⟨h.neighHead.1, h.neighHead.2.1⟩ h.elements
  have e9 := edits_read (rest := S) h.neighHead.2.2 h.d h.edits h.names hc
  have hl : t.before ++ ch :: S = t.front ++ " NODES X (cm)\n".toList :: (t.xs ++ t.r1 :: " NODES Y (cm)\n".toList ::
      (t.ys ++ t.r2 :: " NODES Z (cm)\n".toList :: (t.zs ++ t.r3 :: " ELEMENT TYPE\n".toList :: (t.types ++ " ELEMENT MATERIAL\n".toList ::
        (t.mats ++ t.r4 :: t.connHead :: (t.conn ++ t.r5 :: t.neighHead :: (t.d ++ (t.edits ++ ch :: S)))))))) := by
    simp only [Text.before, List.append_assoc, List.cons_append]
  rw [← hl] at e6
  rw [List.cons_append] at e7
  unfold readFile
  simp only [e1, e3, e4, e5, e6, e7, e8, e9, getInfo_ok hnd h.nMat, getInfo_ok hnd h.nTets1, getInfo_ok hnd h.nTets2,
    getInfo_ok hnd h.nNodes, getInfo_ok hnd h.nPart, bind, Except.bind, ne_eq, not_true_eq_false, if_false]
  cases rhoVolLoop pf false false [] [] (ch :: S) <;> rfl

/-- the grid of the data with other volumes (specification) -/
def Data.gridVol (m : Data K) (n : ℕ) (vs : List K) (loc : Loc) : Grid K :=
  { m.grid n with arrays := ("density".toList, (m.density, m.loc)) :: ("volume".toList, (vs, loc)) :: m.edits.flatMap (fun e => e.arrays m.loc) }

/-- the grid is made with the volumes read if there are as many as points or elements -/
theorem build_vol {m : Data K} {n : ℕ} (hne : m.elements ≠ []) (hnames : (m.edits.map Edit.name).Nodup)
    (hb : ∀ x ∈ m.edits, (∃ b ∈ x.blocks, b.1 = .values) ∧ (∃ b ∈ x.blocks, b.1 = .errors))
    (hs : m.elemMats.length = m.elements.length ∧ m.density.length = m.elements.length ∧ m.volume.length = m.elements.length ∧
      ∀ x ∈ m.edits, ∀ b ∈ x.blocks, b.2.length = m.elements.length) (vs : List K) :
    build m.elements.length (numbered 0 m.materials) m.points (m.elements.map (fun x => (n : ℤ) :: x.map (fun k : ℕ => (k : ℤ) - 1)))
      (m.elemMats.map (fun k : ℕ => (k : ℤ))) (found m.edits) m.density vs =
      match place m.points.length m.elements.length vs.length with
      | .error e => .error e
      | .ok loc => .ok (m.gridVol n vs loc) := by
  obtain ⟨s1, s2, s3, s4⟩ := hs
  have hlen : 0 < m.elements.length := List.length_pos_iff.2 hne
  have hm : m.elemMats.map (fun k : ℕ => (k : ℤ)) ≠ [] := by
    intro h
    have := congrArg List.length h
    rw [List.length_map, List.length_nil] at this
    omega
  have hv : ∀ loc, Dict.set [("density".toList, (m.density, m.loc))] "volume".toList (vs, loc) =
      [("density".toList, (m.density, m.loc)), ("volume".toList, (vs, loc))] := fun loc =>
    set_fresh _ (by
      show "volume".toList ∉ ["density".toList]
      decide)
  have hloc : (if m.elements.length = m.points.length then Loc.points else Loc.cells) = m.loc := rfl
  unfold build
  rw [List.length_map, if_neg (by simp), if_neg hm, List.length_map, s1]
  simp only [putArray, s2, place_ok, hloc]
  rw [show Dict.set ([] : Dict Str (List K × Loc)) "density".toList (m.density, m.loc) = [("density".toList, (m.density, m.loc))] from rfl]
  cases hp : place m.points.length m.elements.length vs.length with
  | error e => simp only
  | ok loc =>
    simp only
    rw [hv, fields_ok hb s4]
    · simp only [hloc, Data.gridVol, Data.grid]
      congr 2
      · congr 1
        rw [List.map_map]
        refine List.map_congr_left (fun k _ => ?_)
        simp only [Function.comp_def]
        rw [if_pos (by omega), Int.toNat_natCast, numbered_zero]
    · obtain ⟨n1, n2⟩ := array_names hnames (if m.elements.length = m.points.length then Loc.points else Loc.cells)
      rw [List.map_append, List.nodup_append]
      refine ⟨by
        show ["density".toList, "volume".toList].Nodup
        decide, n1, ?_⟩
      intro k hk k' hk' hkk
      obtain ⟨e, _, h⟩ := n2 k' hk'
      subst hkk
      have ht : k.head? = some 'T' := by
        rcases h with h | h <;> rw [h] <;> rfl
      simp only [List.map_cons, List.map_nil, List.mem_cons, List.not_mem_nil, or_false] at hk
      rcases hk with rfl | rfl
      · revert ht; decide
      · revert ht; decide

/-- without volumes no grid is made -/
theorem build_none {m : Data K} (hne : m.elements ≠ []) (hp : m.points ≠ []) (names : Dict ℕ Str) {conn : List (List ℤ)}
    (hc : conn.length = m.elements.length) (mats : List ℤ) (edits : Dict Str (Field K)) (rho : List K) :
    ∃ e, build m.elements.length names m.points conn mats edits rho [] = .error e := by
  have h1 : 0 < m.elements.length := List.length_pos_iff.2 hne
  have h2 : 0 < m.points.length := List.length_pos_iff.2 hp
  have hpl : place m.points.length conn.length ([] : List K).length = .error .valueError := by
    unfold place
    rw [List.length_nil, if_neg (by omega), if_neg (by omega)]
  unfold build
  by_cases hm : mats = []
  · rw [if_neg (by omega), if_pos hm]; exact ⟨_, rfl⟩
  · rw [if_neg (by omega), if_neg hm]
    cases place m.points.length conn.length mats.length with
    | error e => exact ⟨_, rfl⟩
    | ok loc =>
      simp only
      cases putArray m.points.length conn.length [] "density".toList rho with
      | error e => exact ⟨_, rfl⟩
      | ok d =>
        simp only [putArray, hpl]
        exact ⟨_, rfl⟩

/-- before the line of the volumes none is read -/
theorem rho_none {pf : Str → Option K} {ls : List Str} (h : ∀ l ∈ ls, ¬ "VOLUMES".toList <:+: l) (fd : Bool) (ds ws : List K) {r : List K × List K}
    (hr : rhoVolLoop pf fd false ds ws ls = .ok r) : r.2 = ws := by
  induction ls generalizing fd ds with
  | nil =>
    rw [rhoVolLoop] at hr
    cases hr; rfl
  | cons l ls ih =>
    rw [rhoVolLoop, has_false (h l (by simp))] at hr
    cases hx : (if (fd || false) && isValueLine l then floats pf (tokens l) else .ok []) with
    | error e => rw [hx] at hr; cases hr
    | ok xs =>
      rw [hx] at hr
      simp only [Bool.not_false, Bool.true_and, Bool.or_false] at hr
      have e : (if fd = true then ws else ws ++ xs) = ws := by
        cases fd with
        | true => rfl
        | false =>
          simp only [Bool.or_false, Bool.false_and] at hx
          cases hx
          simp
      rw [e] at hr
      exact ih (fun x hx => h x (by simp [hx])) _ _ hr

theorem floats_append {pf : Str → Option K} {a b : List Str} {vs : List K} (h : floats pf (a ++ b) = .ok vs) :
    ∃ v w, vs = v ++ w ∧ floats pf a = .ok v ∧ floats pf b = .ok w := by
  induction a generalizing vs with
  | nil => exact ⟨[], vs, rfl, rfl, h⟩
  | cons x a ih =>
    rw [List.cons_append, floats] at h
    cases hx : pf x with
    | none => rw [hx] at h; cases h
    | some y =>
      rw [hx] at h
      simp only at h
      cases hf : floats pf (a ++ b) with
      | error e => rw [hf] at h; cases h
      | ok us =>
        rw [hf] at h
        simp only [Except.ok.injEq] at h
        obtain ⟨v, w, rfl, e1, e2⟩ := ih hf
        exact ⟨y :: v, w, h.symm, by rw [floats, hx, e1], e2⟩

/-- the numbers of a broken line: the first ones of the line, but for the last one -/
theorem floats_cut {pf : Str → Option K} {part l : Str} (hp : part <+: l) {xs vs : List K} (h1 : floats pf (tokens part) = .ok xs)
    (h2 : floats pf (tokens l) = .ok vs) : xs.dropLast <+: vs := by
  rcases tokens_prefix hp with ⟨c, e⟩ | ⟨ts, w, w', -, -, e1, c, e2⟩
  · rw [← e] at h2
    obtain ⟨v, u, rfl, e1, -⟩ := floats_append h2
    rw [e1] at h1
    cases h1
    exact (List.dropLast_prefix _).trans (List.prefix_append _ _)
  · rw [e1] at h1
    rw [← e2, List.append_assoc] at h2
    obtain ⟨v, u, rfl, i1, -⟩ := floats_append h2
    obtain ⟨v', u', rfl, j1, j2⟩ := floats_append h1
    rw [i1] at j1
    cases j1
    have : ∃ y, u' = [y] := by
      rw [floats] at j2
      cases hw : pf w' with
      | none => rw [hw] at j2; cases j2
      | some y =>
        rw [hw] at j2
        simp only [floats, Except.ok.injEq] at j2
        exact ⟨y, j2.symm⟩
    obtain ⟨y, rfl⟩ := this
    simp

/-- **Volumes of a cut file**: the first ones of the whole file, but for the last one -/
theorem rho_cut {pf : Str → Option K} {V V' : List Str} {vs : List K} (hV : NumLines pf V vs) (hc : CutOf V' V) (ds ws : List K) :
    (∃ e, rhoVolLoop pf false true ds ws V' = .error e) ∨
    ∃ vs', rhoVolLoop pf false true ds ws V' = .ok (ds, ws ++ vs') ∧ vs'.dropLast <+: vs ∧ (V' <+: V → vs' <+: vs) := by
  have whole : ∀ {N : List Str} {us : List K}, NumLines pf N us → ∀ ds ws : List K, ∀ R, rhoVolLoop pf false true ds ws (N ++ R) = rhoVolLoop pf false true ds (ws ++ us) R := by
    intro N us hN ds ws R
    rw [rho_nums rfl hN]
    simp
  rcases hc with rfl | ⟨pre, l, post, part, rfl, hp, hne, rfl⟩
  · refine .inr ⟨vs, ?_, List.dropLast_prefix _, fun _ => List.prefix_refl _⟩
    have := whole hV ds ws []
    rw [List.append_nil] at this
    rw [this, rhoVolLoop]
  · obtain ⟨wss, e, h1, h2⟩ := hV
    obtain ⟨wa, wb, rfl, rfl, eb⟩ := List.map_eq_append_iff.1 e.symm
    cases wb with
    | nil => cases eb
    | cons u wb =>
      rw [List.map_cons, List.cons.injEq] at eb
      obtain ⟨rfl, rfl⟩ := eb
      rw [List.flatten_append, List.flatten_cons, List.map_append, List.map_append] at h2
      obtain ⟨va, vb, rfl, ea, eb⟩ := List.map_eq_append_iff.1 h2.symm
      obtain ⟨vu, vb, rfl, eu, eb⟩ := List.map_eq_append_iff.1 eb
      have hA : NumLines pf (wa.map numLine) va := ⟨wa, rfl, fun x hx => h1 x (by simp [hx]), ea.symm⟩
      rw [whole hA]
      by_cases hn : part = []
      · simp only [hn, if_true, rhoVolLoop]
        exact .inr ⟨va, rfl, (List.dropLast_prefix _).trans (List.prefix_append _ _), fun _ => List.prefix_append _ _⟩
      · simp only [hn, if_false]
        rw [rhoVolLoop]
        obtain ⟨hu0, hu⟩ := h1 u (by simp)
        have hl : floats pf (tokens (numLine u)) = .ok vu := by rw [tokens_numLine hu]; exact floats_ok eu.symm
        simp only [Bool.false_or, Bool.true_and, rhoVolLoop]
        by_cases hv : isValueLine part = true
        · rw [if_pos hv]
          cases hx : floats pf (tokens part) with
          | error e => exact .inl ⟨e, rfl⟩
          | ok xs =>
            refine .inr ⟨va ++ xs, by simp, ?_, ?_⟩
            · have hd := floats_cut hp hx hl
              cases xs with
              | nil =>
                rw [List.append_nil]
                exact (List.dropLast_prefix _).trans (List.prefix_append _ _)
              | cons x xs =>
                rw [List.dropLast_append_of_ne_nil (by simp)]
                refine (List.prefix_append_right_inj _).2 (hd.trans (List.prefix_append _ _))
            · intro hpre
              have := (List.prefix_append_right_inj _).1 hpre
              rw [List.cons_prefix_cons] at this
              exact absurd this.1 hne
        · rw [if_neg hv]
          refine .inr ⟨va, by simp, (List.dropLast_prefix _).trans (List.prefix_append _ _), fun _ => List.prefix_append _ _⟩

/-- the densities are read, then the volumes -/
theorem rho_after {pf : Str → Option K} {t : Text} {ch vol : Str} {ds : List K} (hch : ¬ "DENSITY".toList <:+: ch ∧ ¬ "VOLUMES".toList <:+: ch)
    (hE : ∀ l ∈ t.e, ¬ "DENSITY".toList <:+: l ∧ ¬ "VOLUMES".toList <:+: l) (hD : NumLines pf t.density ds) (h6 : IsRecord t.r6)
    (hv : "VOLUMES".toList <:+: vol) (hv2 : isValueLine vol = false) (V : List Str) :
    rhoVolLoop pf false false [] [] (ch :: t.after vol V) = rhoVolLoop pf false true ds [] V := by
  have front : ∀ B : List Str, (∀ l ∈ B, ¬ "DENSITY".toList <:+: l ∧ ¬ "VOLUMES".toList <:+: l) → ∀ ls,
      rhoVolLoop pf false false [] [] (B ++ ls) = rhoVolLoop pf false false [] [] ls := by
    intro B
    induction B with
    | nil => intro _ ls; rfl
    | cons l B ih =>
      intro hB ls
      obtain ⟨b1, b2⟩ := hB l (by simp)
      rw [List.cons_append, rho_skip (Or.inl rfl), has_false b1, has_false b2]
      exact ih (fun x hx => hB x (by simp [hx])) ls
  have := front [ch] (by simpa using hch) (t.after vol V)
  rw [List.singleton_append] at this
  rw [this, Text.after, front t.e hE, rho_skip (Or.inl rfl)]
  have e1 : has "DENSITY" " DENSITY (gm/cm^3)\n".toList = true := by decide
  have e2 : has "VOLUMES" " DENSITY (gm/cm^3)\n".toList = false := by decide
  have e4 : has "VOLUMES" vol = true := (has_iff _ _).2 hv
  rw [e1, e2]
  simp only [Bool.not_false, Bool.or_true, Bool.and_true, Bool.or_false]
  rw [rho_nums rfl hD, rho_skip (Or.inr (record_not_value h6)),
    has_false (tag := "VOLUMES") (record_tag h6 (c := 'V') (by decide) (by decide)),
    has_false (tag := "DENSITY") (record_tag h6 (c := 'D') (by decide) (by decide))]
  simp only [Bool.not_false, Bool.or_false, Bool.and_true]
  rw [rho_skip (Or.inr hv2), e4]
  simp

/-- a file that ends before the volumes is refused -/
theorem cut_early {pf : Str → Option K} {t : Text} {m : Data K} {n : ℕ} {nums : List (Str × ℕ)} (h : Layout pf t m n nums) (hp : m.points ≠ [])
    {ch : Str} (hc : "CENTROIDS X".toList <:+: ch ∧ ¬ "DATA OUTPUT PARTICLE".toList <:+: ch) {S : List Str}
    (hr : ∀ r, rhoVolLoop pf false false [] [] (ch :: S) = .ok r → r.2 = []) : ∃ e, readFile pf (t.before ++ ch :: S) = .error e := by
  rw [read_before h hc]
  cases hx : rhoVolLoop pf false false [] [] (ch :: S) with
  | error e => exact ⟨e, rfl⟩
  | ok r =>
    simp only
    rw [hr r hx]
    exact build_none h.some hp _ (by simp) _ _ _

theorem part_mem {ls' ls : List Str} (h : CutOf ls' ls) {tag : Str} (hl : ∀ l ∈ ls, ¬ tag <:+: l) : ∀ l ∈ ls', ¬ tag <:+: l := by
  intro l hm ht
  obtain ⟨y, hy, hy2⟩ := cutOf_mem h l hm
  exact hl y hy (ht.trans hy2.isInfix)

/-- a part of a title is no line of values -/
theorem title_part {part : Str} (h : part <+: " VOLUMES (cm^3)\n".toList) : isValueLine part = false := by
  cases part with
  | nil => rfl
  | cons a p =>
    cases p with
    | nil => rfl
    | cons b p =>
      cases p with
      | nil => rfl
      | cons c p =>
        have e : " VOLUMES (cm^3)\n".toList = ' ' :: 'V' :: 'O' :: "LUMES (cm^3)\n".toList := by decide
        rw [e, List.cons_prefix_cons, List.cons_prefix_cons, List.cons_prefix_cons] at h
        obtain ⟨rfl, rfl, rfl, -⟩ := h
        show (isSpace ' ' && (isSpace 'V' || 'V' == '-') && isDigit 'O') = false
        decide

/-- **An EEOUT file that was cut off.** It is refused, or the grid is that of the whole file but for the volumes: these
are the first ones of the whole file, the last one perhaps broken, and as many as elements or points. -/
theorem cut_mesh {pf : Str → Option K} {t : Text} {m : Data K} {n : ℕ} {nums : List (Str × ℕ)} (h : Layout pf t m n nums) (hp : m.points ≠ [])
    (hone : ∀ l ∈ t.before, ¬ "CENTROIDS X".toList <:+: l) {ls' : List Str} (hc : CutOf ls' t.lines) :
    (∃ e, readFile pf ls' = .error e) ∨
    ∃ vs loc, readFile pf ls' = .ok (m.gridVol n vs loc) ∧ vs.dropLast <+: m.volume ∧ (ls' <+: t.lines → vs <+: m.volume) ∧
      ((loc = .points ∧ vs.length = m.points.length) ∨ (loc = .cells ∧ vs.length = m.elements.length)) := by
  obtain ⟨c1, c2, c3, c4⟩ := h.centHead
  have h6 : IsRecord t.r6 := h.records.2.2.2.2.2
  have hD : ∀ l ∈ t.density, ¬ "VOLUMES".toList <:+: l := by
    intro l hl
    obtain ⟨wss, e, h1, -⟩ := h.density
    rw [e] at hl
    obtain ⟨ws, hw, rfl⟩ := List.mem_map.1 hl
    exact numLine_tag (h1 ws hw).2 (c := 'V') (by decide) (by decide)
  have hpre : ∀ l ∈ t.e ++ " DENSITY (gm/cm^3)\n".toList :: (t.density ++ [t.r6]), ¬ "VOLUMES".toList <:+: l := by
    intro l hl
    simp only [List.mem_append, List.mem_cons, List.not_mem_nil, or_false] at hl
    rcases hl with hl | rfl | hl | rfl
    · exact (h.e l hl).2
    · decide
    · exact hD l hl
    · exact record_tag h6 (c := 'V') (by decide) (by decide)
  have noCent : (∀ l ∈ ls', ¬ "CENTROIDS X".toList <:+: l) → ∃ e, readFile pf ls' = .error e := fun hn =>
    truncated pf ls' (.inr (.inr (.inr (.inr hn))))
  have el : t.lines = t.before ++ ([t.centHead] ++ t.after " VOLUMES (cm^3)\n".toList t.volume) := by rw [lines_parts]; rfl
  have hall : CutOf ls' (t.before ++ ([t.centHead] ++ t.after " VOLUMES (cm^3)\n".toList t.volume)) := by rw [← el]; exact hc
  rcases cutOf_append hall with hc1 | ⟨b', rfl, hc1⟩
  · exact .inl (noCent (part_mem hc1 hone))
  · rcases cutOf_append hc1 with hc2 | ⟨S, rfl, hc2⟩
    · by_cases hb : ∃ x ∈ b', "CENTROIDS X".toList <:+: x
      · obtain ⟨x, hx, hx2⟩ := hb
        obtain ⟨y, hy, hxy⟩ := cutOf_mem hc2 x hx
        simp only [List.mem_singleton] at hy
        subst hy
        have hb1 : b' = [x] := by
          rcases hc2 with rfl | ⟨pre, l, post, part, e1, -, -, rfl⟩
          · simp only [List.mem_singleton] at hx; rw [hx]
          · cases pre with
            | nil =>
              by_cases hq : part = []
              · simp [hq] at hx
              · simp only [hq, if_false, List.nil_append, List.mem_singleton] at hx ⊢
                rw [hx]
            | cons p pre =>
              have := congrArg List.length e1
              simp at this
        subst hb1
        refine .inl (cut_early h hp ⟨hx2, fun h1 => c2 (h1.trans hxy.isInfix)⟩ ?_)
        intro r hr
        exact rho_none (by
          intro l hl
          rw [List.mem_singleton.1 hl]
          exact fun h1 => c4 (h1.trans hxy.isInfix)) _ _ _ hr
      · refine .inl (noCent ?_)
        intro l hl
        rcases List.mem_append.1 hl with hl | hl
        · exact hone l hl
        · exact fun h1 => hb ⟨l, hl, h1⟩
    · have ea : t.after " VOLUMES (cm^3)\n".toList t.volume =
          (t.e ++ " DENSITY (gm/cm^3)\n".toList :: (t.density ++ [t.r6])) ++ ([" VOLUMES (cm^3)\n".toList] ++ t.volume) := by
        simp [Text.after]
      have hafter : ∀ vol V, (t.e ++ " DENSITY (gm/cm^3)\n".toList :: (t.density ++ [t.r6])) ++ vol :: V = t.after vol V := by
        intro vol V
        simp [Text.after]
      rw [ea] at hc2
      have early : (∀ l ∈ S, ¬ "VOLUMES".toList <:+: l) → ∃ e, readFile pf (t.before ++ ([t.centHead] ++ S)) = .error e := by
        intro hS
        refine cut_early h hp ⟨c1, c2⟩ ?_
        intro r hr
        refine rho_none ?_ _ _ _ hr
        intro l hl
        rcases List.mem_cons.1 hl with rfl | hl
        · exact c4
        · exact hS l hl
      rcases cutOf_append hc2 with hc3 | ⟨W, rfl, hc3⟩
      · exact .inl (early (part_mem hc3 hpre))
      · rcases cutOf_append hc3 with hc4 | ⟨V', rfl, hc4⟩
        · by_cases hb : ∃ x ∈ W, "VOLUMES".toList <:+: x
          · obtain ⟨x, hx, hx2⟩ := hb
            obtain ⟨y, hy, hxy⟩ := cutOf_mem hc4 x hx
            simp only [List.mem_singleton] at hy
            subst hy
            have hb1 : W = [x] := by
              rcases hc4 with rfl | ⟨pre, l, post, part, e1, -, -, rfl⟩
              · simp only [List.mem_singleton] at hx; rw [hx]
              · cases pre with
                | nil =>
                  by_cases hq : part = []
                  · simp [hq] at hx
                  · simp only [hq, if_false, List.nil_append, List.mem_singleton] at hx ⊢
                    rw [hx]
                | cons p pre =>
                  have := congrArg List.length e1
                  simp at this
            subst hb1
            refine .inl (cut_early h hp ⟨c1, c2⟩ ?_)
            intro r hr
            have hr2 : rhoVolLoop pf false false [] [] (t.centHead :: t.after x []) = .ok r := by rw [← hafter]; exact hr
            rw [rho_after ⟨c3, c4⟩ h.e h.density h6 hx2 (title_part hxy), rhoVolLoop] at hr2
            cases hr2; rfl
          · refine .inl (early ?_)
            intro l hl
            rcases List.mem_append.1 hl with hl | hl
            · exact hpre l hl
            · exact fun h1 => hb ⟨l, hl, h1⟩
        · have hread := read_before h ⟨c1, c2⟩ (t.after " VOLUMES (cm^3)\n".toList V')
          rw [rho_after ⟨c3, c4⟩ h.e h.density h6 (by decide) (by decide)] at hread
          have hfile : t.before ++ ([t.centHead] ++ ((t.e ++ " DENSITY (gm/cm^3)\n".toList :: (t.density ++ [t.r6])) ++ ([" VOLUMES (cm^3)\n".toList] ++ V'))) =
              t.before ++ t.centHead :: t.after " VOLUMES (cm^3)\n".toList V' := by
            rw [List.singleton_append, List.singleton_append, hafter]
          rw [hfile]
          rcases rho_cut h.volume hc4 m.density [] with ⟨e, he⟩ | ⟨vs, he, h1, h2⟩
          · rw [he] at hread
            exact .inl ⟨e, hread⟩
          · rw [he] at hread
            simp only [List.nil_append] at hread
            rw [build_vol h.some h.names h.blocks h.sizes] at hread
            unfold place at hread
            have hpp : t.before ++ t.centHead :: t.after " VOLUMES (cm^3)\n".toList V' <+: t.lines → vs <+: m.volume := by
              intro hpre
              rw [lines_parts, List.prefix_append_right_inj, List.cons_prefix_cons, ← hafter, ← hafter, List.prefix_append_right_inj,
                List.cons_prefix_cons] at hpre
              exact h2 hpre.2.2
            by_cases l1 : vs.length = m.points.length
            · rw [if_pos l1] at hread
              exact .inr ⟨vs, .points, hread, h1, hpp, .inl ⟨rfl, l1⟩⟩
            · rw [if_neg l1] at hread
              by_cases l2 : vs.length = m.elements.length
              · rw [if_pos l2] at hread
                exact .inr ⟨vs, .cells, hread, h1, hpp, .inr ⟨rfl, l2⟩⟩
              · rw [if_neg l2] at hread
                exact .inl ⟨_, hread⟩

/-- a file that ends after a line of volumes, when there are fewer points than elements and as many volumes are left as
there are points: **the grid is made, with the volumes on the points** -/
theorem volumes_on_points {pf : Str → Option K} {t : Text} {m : Data K} {n : ℕ} {nums : List (Str × ℕ)} (h : Layout pf t m n nums)
    {V : List Str} (hV : V <+: t.volume) {vs : List K} (hn : NumLines pf V vs) (hl : vs.length = m.points.length) :
    CutOf (t.before ++ t.centHead :: t.after " VOLUMES (cm^3)\n".toList V) t.lines ∧
    readFile pf (t.before ++ t.centHead :: t.after " VOLUMES (cm^3)\n".toList V) = .ok (m.gridVol n vs .points) := by
  obtain ⟨c1, c2, c3, c4⟩ := h.centHead
  constructor
  · obtain ⟨W, e⟩ := hV
    cases W with
    | nil =>
      rw [List.append_nil] at e
      exact .inl (by rw [lines_parts, e])
    | cons w W =>
      by_cases hw : w = []
      · exfalso
        obtain ⟨wss, e2, -, -⟩ := h.volume
        have : w ∈ t.volume := by rw [← e]; simp
        rw [e2] at this
        obtain ⟨ws, -, e3⟩ := List.mem_map.1 this
        rw [hw] at e3
        have := congrArg List.length e3
        simp [numLine] at this
      · refine .inr ⟨t.before ++ t.centHead :: t.after " VOLUMES (cm^3)\n".toList V, w, W, [], ?_, List.nil_prefix, Ne.symm hw, by simp⟩
        rw [lines_parts, ← e]
        simp [Text.after]
  · rw [read_before h ⟨c1, c2⟩, rho_after ⟨c3, c4⟩ h.e h.density h.records.2.2.2.2.2 (by decide) (by decide)]
    have := rho_nums (pf := pf) (fd := false) (fv := true) rfl hn (ds := m.density) (ws := []) []
    rw [List.append_nil] at this
    rw [this]
    simp only [Bool.false_eq_true, if_false, List.nil_append, rhoVolLoop]
    rw [build_vol h.some h.names h.blocks h.sizes]
    unfold place
    rw [if_pos hl]

/-! ### what goes wrong -/

open Ex

namespace Few

/-- the edit (example) -/
def edit : Edit Str := ⟨1, 1, "FLUX_1".toList, [(.values, [o, o, o, o, o, o]), (.errors, [u, u, u, u, u, u])]⟩

/-- what the file says (example) -/
def data : Data Str where
  materials := ["steel".toList, "water 2".toList]
  particles := [1]
  points := [(z, z, z), (z, o, u), (z, u, o), (o, z, z), (o, o, u)]
  elements := [[1, 2, 3, 4], [1, 5, 3, 4], [1, 2, 3, 5], [2, 3, 4, 5], [1, 2, 4, 5], [2, 3, 4, 6]]
  elemMats := [1, 1, 1, 1, 1, 1]
  edits := [edit]
  density := [o, o, o, o, o, o]
  volume := [z, z, z, z, z, o]

/-- the numbers of the head (example) -/
def nums6 : List (Str × ℕ) :=
  [("NUMBER OF PARTICLES".toList, 1), ("NUMBER OF NODES".toList, 5), ("NUMBER OF MATERIALS".toList, 2), ("NUMBER OF 1st TETS".toList, 6),
    ("NUMBER OF 2nd TETS".toList, 0), ("NUMBER OF EDITS".toList, 1)]

/-- the lines of the edit (example) -/
def editText : List Str :=
  editHead 1 1 "FLUX_1".toList :: ([" DATA SETS RESULT TIME BIN : 1\n".toList, numLine [z, o, o, o, o, o, o], rec6,
    " TOTALS\n".toList, " DATA SETS REL ERROR TIME BIN : 1\n".toList, numLine [z, u, u, u, u, u, u], rec6] ++ [])

/-- `text` (example) -/
def text : Text where
  head := [" EEOUT\n".toList]
  info := nums6.map (fun x => ' ' :: x.1 ++ List.replicate 3 ' ' ++ ':' :: List.replicate 9 ' ' ++ natStr x.2 ++ ['\n'])
  a := [rec6]
  particles := intLine 12 [1]
  b := [rec6]
  materials := ["steel   \n".toList, "water 2\n".toList]
  c := [rec6]
  xs := [[z, z, z, o, o]].map numLine
  r1 := rec6
  ys := [[z, o, u, z, o]].map numLine
  r2 := rec6
  zs := [[z, u, o, z, u]].map numLine
  r3 := rec6
  types := [intLine 8 [1, 1], rec6]
  mats := [intLine 8 [1, 1, 1, 1, 1, 1]]
  r4 := rec6
  connHead := " CONNECTIVITY DATA 1ST ORDER TETS ELEMENT ORDERED\n".toList
  conn := [intLine 12 [1, 2, 3, 4], intLine 12 [1, 5, 3, 4], intLine 12 [1, 2, 3, 5], intLine 12 [2, 3, 4, 5], intLine 12 [1, 2, 4, 5], intLine 12 [2, 3, 4, 6]]
  r5 := rec6
  neighHead := " NEAREST NEIGHBOR DATA 1ST ORDER TETS\n".toList
  d := [intLine 12 [0, 0, 0, 2], rec6]
  edits := editText
  centHead := " CENTROIDS X (cm)\n".toList
  e := [numLine [z, z], rec6]
  density := [[o, o, o, o, o, o]].map numLine
  r6 := rec6
  volume := [[z, z, z, z, z], [o]].map numLine

theorem edit_layout : EditLines (some : Str → Option Str) editText [edit] := by
  refine EditLines.cons (e := edit) (by decide) (by decide) ?_ EditLines.nil
  refine Body.block (tr := " DATA SETS RESULT TIME BIN : 1\n".toList) (e := rec6) (vl := [[z, o, o, o, o, o, o]].map numLine) (v := z) (vs := [o, o, o, o, o, o])
    (by decide +kernel) (nums (by decide) (by decide)) rec_ok ?_
  refine Body.filler (by decide +kernel) ?_
  refine Body.block (tr := " DATA SETS REL ERROR TIME BIN : 1\n".toList) (e := rec6) (vl := [[z, u, u, u, u, u, u]].map numLine) (v := z) (vs := [u, u, u, u, u, u])
    (by decide +kernel) (nums (by decide) (by decide)) rec_ok ?_
  exact Body.nil

theorem info_layout : InfoLines text.info nums6 := by
  refine ⟨?_, by decide, ⟨_, _, rfl, by decide⟩, ⟨_, (text.info).dropLast, (List.dropLast_append_getLast (by decide)).symm, by decide, by decide⟩⟩
  unfold text nums6
  simp only [List.map_cons, List.map_nil]
  repeat' apply List.Forall₂.cons
  all_goals first | exact List.Forall₂.nil | exact ⟨3, 9, rfl, by decide, by decide, by decide⟩

/-- the layout is met -/
theorem layout : Layout (some : Str → Option Str) text data 4 nums6 where
  head := by decide
  info := info_layout
  nMat := by decide
  nPart := by decide
  nNodes := by decide
  nTets1 := by decide
  nTets2 := by decide
  nodes := by decide
  some := by decide
  particlesOnce := by decide +kernel
  particles := ⟨12, rfl, by decide⟩
  materialsOnce := by decide +kernel
  materials := by
    refine List.Forall₂.cons ⟨3, by decide, by decide, by decide, by decide⟩ (List.Forall₂.cons ⟨0, by decide, by decide, by decide, by decide⟩ List.Forall₂.nil)
  front := by decide +kernel
  xs := nums (by decide) (by decide)
  ys := nums (by decide) (by decide)
  zs := nums (by decide) (by decide)
  records := ⟨rec_ok, rec_ok, rec_ok, rec_ok, rec_ok, rec_ok⟩
  types := by decide +kernel
  mats := ⟨[[1, 1, 1, 1, 1, 1]], rfl, by decide, rfl⟩
  connHead := by decide
  conn := ⟨[[1, 2, 3, 4], [1, 5, 3, 4], [1, 2, 3, 5], [2, 3, 4, 5], [1, 2, 4, 5], [2, 3, 4, 6]], rfl, by decide, rfl⟩
  neighHead := by decide +kernel
  d := by decide +kernel
  edits := edit_layout
  centHead := by decide
  e := by decide +kernel
  density := nums (by decide) (by decide)
  volume := nums (by decide) (by decide)
  elements := by decide
  names := by decide
  blocks := by decide
  sizes := by decide

/-- **Volumes on the points.** A mesh of six elements and five points, cut off after the line with the first five volumes:
the grid is made, the volumes are those of the points. -/
theorem points_for_elements : ∃ ls', CutOf ls' text.lines ∧
    readFile (some : Str → Option Str) ls' = .ok (data.gridVol 4 [z, z, z, z, z] .points) ∧
    readFile (some : Str → Option Str) text.lines = .ok (data.gridVol 4 [z, z, z, z, z, o] .cells) := by
  obtain ⟨h1, h2⟩ := volumes_on_points (V := [[z, z, z, z, z]].map numLine) layout ⟨[[o]].map numLine, rfl⟩ (nums (by decide) (by decide)) (by decide)
  exact ⟨_, h1, h2, read_file layout⟩

/-- **A broken number.** The file ends within the last number: the volume is another one, and nothing is said. -/
theorem volume_broken : ∃ ls', CutOf ls' text.lines ∧
    readFile (some : Str → Option Str) ls' = .ok (data.gridVol 4 [z, z, z, z, z, "1.00000E+0".toList] .cells) := by
  refine ⟨text.before ++ text.centHead :: text.after " VOLUMES (cm^3)\n".toList ([[z, z, z, z, z]].map numLine ++ ["  1.00000E+0".toList]), ?_, ?_⟩
  · refine .inr ⟨text.before ++ text.centHead :: text.after " VOLUMES (cm^3)\n".toList ([[z, z, z, z, z]].map numLine), numLine [o], [], "  1.00000E+0".toList,
      ?_, by decide +kernel, by decide +kernel, ?_⟩
    · rw [lines_parts]
      simp [Text.after, text]
    · rw [if_neg (by decide)]
      simp [Text.after]
  · rw [read_before layout (by decide), rho_after (ds := data.density) (by decide) layout.e layout.density layout.records.2.2.2.2.2 (by decide) (by decide)]
    have e : rhoVolLoop (some : Str → Option Str) false true data.density [] ([[z, z, z, z, z]].map numLine ++ ["  1.00000E+0".toList]) =
        .ok (data.density, [z, z, z, z, z, "1.00000E+0".toList]) := by decide +kernel
    rw [e]
    simp only
    rw [build_vol layout.some layout.names layout.blocks layout.sizes]
    have e2 : place data.points.length data.elements.length ([z, z, z, z, z, "1.00000E+0".toList] : List Str).length = .ok .cells := by decide
    rw [e2]

/-- the hypotheses of `cut_mesh` are met (example) -/
example (ls' : List Str) (hc : CutOf ls' text.lines) : (∃ e, readFile (some : Str → Option Str) ls' = .error e) ∨
    ∃ vs loc, readFile (some : Str → Option Str) ls' = .ok (data.gridVol 4 vs loc) ∧ vs.dropLast <+: data.volume := by
  rcases cut_mesh layout (by decide) (by decide +kernel) hc with h | ⟨vs, loc, h1, h2, -⟩
  · exact .inl h
  · exact .inr ⟨vs, loc, h1, h2⟩

end Few

end F4Enix.Eeout
