import Verif.Out.EeoutEdits
/-!
# An eeout file is read as it stands (C124-C127)
-/
namespace F4Enix.Eeout
open F4Enix

variable {K : Type}

/-! ### the arrays of the grid -/

/-- where the arrays of a file are: on the cells, unless there are as many points as cells (specification) -/
def Data.loc (m : Data K) : Loc := if m.elements.length = m.points.length then .points else .cells

theorem place_ok (np nc : ℕ) : place np nc nc = .ok (if nc = np then Loc.points else Loc.cells) := by
  unfold place
  by_cases h : nc = np
  · simp [h]
  · simp [h]

/-- the two arrays of an edit (specification) -/
def Edit.arrays (e : Edit K) (loc : Loc) : List (Str × (List K × Loc)) :=
  [(e.name ++ " - value".toList, ((lastOf .values e.blocks).getD [], loc)), (e.name ++ " - error".toList, ((lastOf .errors e.blocks).getD [], loc))]

theorem lastOf_some {w : Which} {bs : List (Which × List K)} (h : ∃ b ∈ bs, b.1 = w) : ∃ b ∈ bs, lastOf w bs = some b.2 := by
  induction bs using List.reverseRecOn with
  | nil => obtain ⟨b, hb, _⟩ := h; cases hb
  | append_singleton bs b ih =>
    rw [lastOf_append]
    by_cases hw : b.1 = w
    · exact ⟨b, by simp, by simp [hw]⟩
    · obtain ⟨c, hc, hcw⟩ := h
      rcases List.mem_append.1 hc with hc | hc
      · obtain ⟨e, he, hl⟩ := ih ⟨c, hc, hcw⟩
        exact ⟨e, by simp [he], by rw [if_neg hw, hl]⟩
      · rw [List.mem_singleton.1 hc] at hcw; exact absurd hcw hw

theorem value_ne_error (a b : Str) : a ++ " - value".toList ≠ b ++ " - error".toList := by
  intro h
  have := (List.append_inj' h (by decide)).2
  revert this
  decide

/-- the names of the arrays of the edits are distinct and belong to no other array -/
theorem array_names {es : List (Edit K)} (hn : (es.map Edit.name).Nodup) (loc : Loc) :
    ((es.flatMap (fun e => e.arrays loc)).map Prod.fst).Nodup ∧
    ∀ k ∈ (es.flatMap (fun e => e.arrays loc)).map Prod.fst, ∃ e ∈ es, k = e.name ++ " - value".toList ∨ k = e.name ++ " - error".toList := by
  induction es with
  | nil => simp
  | cons e es ih =>
    rw [List.map_cons, List.nodup_cons] at hn
    obtain ⟨i1, i2⟩ := ih hn.2
    refine ⟨?_, ?_⟩
    · rw [List.flatMap_cons, List.map_append, List.nodup_append]
      refine ⟨?_, i1, ?_⟩
      · simp only [Edit.arrays, List.map_cons, List.map_nil, List.nodup_cons, List.mem_singleton, List.not_mem_nil, not_false_iff, and_true,
          List.nodup_nil]
        exact value_ne_error _ _
      · intro k hk k' hk' hkk
        obtain ⟨e', he', h'⟩ := i2 k' hk'
        have hne : e.name ≠ e'.name := fun h => hn.1 (h ▸ List.mem_map_of_mem he')
        simp only [Edit.arrays, List.map_cons, List.map_nil, List.mem_cons, List.not_mem_nil, or_false] at hk
        subst hkk
        rcases hk with rfl | rfl <;> rcases h' with h' | h'
        · exact hne (List.append_cancel_right h')
        · exact value_ne_error _ _ h'
        · exact value_ne_error _ _ h'.symm
        · exact hne (List.append_cancel_right h')
    · intro k hk
      rw [List.flatMap_cons, List.map_append, List.mem_append] at hk
      rcases hk with hk | hk
      · simp only [Edit.arrays, List.map_cons, List.map_nil, List.mem_cons, List.not_mem_nil, or_false] at hk
        exact ⟨e, by simp, hk⟩
      · obtain ⟨e', he', h'⟩ := i2 k hk
        exact ⟨e', by simp [he'], h'⟩

theorem fields_ok {np nc : ℕ} {es : List (Edit K)} (hb : ∀ x ∈ es, (∃ b ∈ x.blocks, b.1 = .values) ∧ (∃ b ∈ x.blocks, b.1 = .errors))
    (hs : ∀ x ∈ es, ∀ b ∈ x.blocks, b.2.length = nc) (d : Dict Str (List K × Loc))
    (hn : ((d ++ es.flatMap (fun e => e.arrays (if nc = np then Loc.points else Loc.cells))).map Prod.fst).Nodup) :
    putFields np nc d (found es) = .ok (d ++ es.flatMap (fun e => e.arrays (if nc = np then Loc.points else Loc.cells))) := by
  induction es generalizing d with
  | nil => simp [found, putFields]
  | cons e es ih =>
    obtain ⟨h1, h2⟩ := hb e (by simp)
    obtain ⟨b1, m1, l1⟩ := lastOf_some h1
    obtain ⟨b2, m2, l2⟩ := lastOf_some h2
    have s1 := hs e (by simp) b1 m1
    have s2 := hs e (by simp) b2 m2
    have hk : (d.map Prod.fst ++ ((e.name ++ " - value".toList) :: (e.name ++ " - error".toList) ::
        (es.flatMap (fun e => e.arrays (if nc = np then Loc.points else Loc.cells))).map Prod.fst)).Nodup := by
      simpa [Edit.arrays, List.flatMap_cons] using hn
    have f1 : e.name ++ " - value".toList ∉ d.map Prod.fst := fun hm => (List.nodup_append.1 hk).2.2 _ hm _ (by simp) rfl
    have f2 : e.name ++ " - error".toList ∉ (d ++ [(e.name ++ " - value".toList, (b1.2, if nc = np then Loc.points else Loc.cells))]).map Prod.fst := by
      rw [List.map_append, List.mem_append]
      rintro (hm | hm)
      · exact (List.nodup_append.1 hk).2.2 _ hm _ (by simp) rfl
      · rw [List.map_singleton, List.mem_singleton] at hm
        exact value_ne_error _ _ hm.symm
    have e0 : found (e :: es) = (e.name, ⟨some b1.2, some b2.2⟩) :: found es := by simp [found, l1, l2]
    rw [e0, putFields]
    simp only [putArray, s1, s2, place_ok, set_fresh _ f1, set_fresh _ f2]
    rw [ih (fun x hx => hb x (by simp [hx])) (fun x hx => hs x (by simp [hx]))]
    · simp [Edit.arrays, l1, l2]
    · simpa [Edit.arrays] using hk

/-! ### the whole file -/

/-- the grid that shows the data: the elements with their nodes counted from 0, the names of their materials, densities and volumes, and the last
block of values and errors of each edit (specification) -/
def Data.grid (m : Data K) (n : ℕ) : Grid K where
  points := m.points
  cells := m.elements.map (fun x => (n : ℤ) :: x.map (fun k : ℕ => (k : ℤ) - 1))
  cellType := 10
  material := (m.elemMats.map (fun k => if k = 0 then none else m.materials[k - 1]?), m.loc)
  arrays := ("density".toList, (m.density, m.loc)) :: ("volume".toList, (m.volume, m.loc)) :: m.edits.flatMap (fun e => e.arrays m.loc)

theorem numbered_zero (xs : List Str) (k : ℕ) : Dict.get? (numbered 0 xs) k = if k = 0 then none else xs[k - 1]? := by
  cases k with
  | zero =>
    rw [if_pos rfl, Dict.get?_eq_none_iff]
    intro hm
    have := numbered_keys 0 xs 0 hm
    omega
  | succ k =>
    have := numbered_get 0 xs k
    rw [show 0 + 1 + k = k + 1 by omega] at this
    simpa using this

theorem build_ok {m : Data K} {n : ℕ} (hne : m.elements ≠ []) (hnames : (m.edits.map Edit.name).Nodup)
    (hb : ∀ x ∈ m.edits, (∃ b ∈ x.blocks, b.1 = .values) ∧ (∃ b ∈ x.blocks, b.1 = .errors))
    (hs : m.elemMats.length = m.elements.length ∧ m.density.length = m.elements.length ∧ m.volume.length = m.elements.length ∧
      ∀ x ∈ m.edits, ∀ b ∈ x.blocks, b.2.length = m.elements.length) :
    build m.elements.length (numbered 0 m.materials) m.points (m.elements.map (fun x => (n : ℤ) :: x.map (fun k : ℕ => (k : ℤ) - 1)))
      (m.elemMats.map (fun k : ℕ => (k : ℤ))) (found m.edits) m.density m.volume = .ok (m.grid n) := by
  obtain ⟨s1, s2, s3, s4⟩ := hs
  have hlen : 0 < m.elements.length := List.length_pos_iff.2 hne
  have hm : m.elemMats.map (fun k : ℕ => (k : ℤ)) ≠ [] := by
    intro h
    have := congrArg List.length h
    rw [List.length_map, List.length_nil] at this
    omega
  have hv : Dict.set [("density".toList, (m.density, m.loc))] "volume".toList (m.volume, m.loc) =
      [("density".toList, (m.density, m.loc)), ("volume".toList, (m.volume, m.loc))] :=
    set_fresh _ (by
      show "volume".toList ∉ ["density".toList]
      decide)
  have hloc : (if m.elements.length = m.points.length then Loc.points else Loc.cells) = m.loc := rfl
  unfold build
  rw [List.length_map, if_neg (by simp), if_neg hm, List.length_map, s1]
  simp only [putArray, s2, s3, place_ok, hloc]
  rw [show Dict.set ([] : Dict Str (List K × Loc)) "density".toList (m.density, m.loc) = [("density".toList, (m.density, m.loc))] from rfl, hv,
    fields_ok hb s4]
  · simp only [hloc, Data.grid]
    congr 2
    · congr 1
      rw [List.map_map]
      refine List.map_congr_left (fun k _ => ?_)
      simp only [Function.comp_def]
      rw [if_pos (by omega), Int.toNat_natCast, numbered_zero]
  · obtain ⟨n1, n2⟩ := array_names hnames (if m.elements.length = m.points.length then Loc.points else Loc.cells)
    rw [List.map_append, List.nodup_append]
    refine ⟨by
      show ["density".toList, "volume".toList].Nodup
      decide, n1, ?_⟩
    intro k hk k' hk' hkk
    obtain ⟨e, _, h⟩ := n2 k' hk'
    subst hkk
    have ht : k.head? = some 'T' := by
      rcases h with h | h <;> rw [h] <;> rfl
    simp only [List.map_cons, List.map_nil, List.mem_cons, List.not_mem_nil, or_false] at hk
    rcases hk with rfl | rfl
    · revert ht; decide
    · revert ht; decide

/-- A file with the layout of `EeoutSpec` is read as it stands: points, elements, materials, densities, volumes, and of each edit the last block of
values and of errors. -/
theorem read_file {pf : Str → Option K} {t : Text} {m : Data K} {n : ℕ} {nums : List (Str × ℕ)} (h : Layout pf t m n nums) :
    readFile pf t.lines = .ok (m.grid n) := by
  obtain ⟨wp, hp1, hp2⟩ := h.particles
  have hn : 0 < n := by rcases h.nodes with h | h <;> omega
  have hlen : 0 < m.elements.length := List.length_pos_iff.2 h.some
  obtain ⟨r1, r2, r3, r4, r5, r6⟩ := h.records
  have hnd := h.info.2.1
  obtain ⟨T, hT⟩ : ∃ T, t.lines = t.front ++ T := ⟨_, rfl⟩
  have e1 : infoLoop false [] t.lines = .ok nums := by
    rw [hT, Text.front, List.append_assoc, List.append_assoc]
    exact info_read h.head h.info
  have e2 : ∃ R, t.lines = (t.head ++ (t.info ++ (t.a ++ (" PARTICLE LIST\n".toList :: t.particles :: t.b)))) ++ " MATERIALS\n".toList :: (t.materials ++ R) := by
    refine ⟨t.c ++ T, ?_⟩
    rw [hT, Text.front]
    simp only [List.append_assoc, List.cons_append]
  obtain ⟨R, hR⟩ := e2
  have e3 : matNames m.materials.length 0 [] (behindMats t.lines) = .ok (numbered 0 m.materials) := by
    rw [hR, behindMats_read h.materialsOnce, matNames_ok h.materials 0 [] (by simp)]
    rfl
  have e4 : particleList t.lines = .ok m.particles := by
    have := particle_read (A := t.head ++ (t.info ++ t.a)) (rest := t.b ++ " MATERIALS\n".toList :: (t.materials ++ R)) h.particlesOnce hp2
    refine Eq.trans ?_ this
    rw [hR, hp1]
    simp
  have e5 : elements (if n = 4 then m.elements.length else 0) (if n = 10 then m.elements.length else 0) = .ok (m.elements.length, n) := by
    unfold elements
    rcases h.nodes with rfl | rfl
    · simp [hlen]
    · simp [hlen]
  have e6 := nodes_read (pf := pf) (rest := t.types ++ " ELEMENT MATERIAL\n".toList :: (t.mats ++ t.r4 :: t.connHead ::
      (t.conn ++ t.r5 :: t.neighHead :: (t.d ++ (t.edits ++ t.centHead :: (t.e ++ " DENSITY (gm/cm^3)\n".toList ::
        (t.density ++ t.r6 :: " VOLUMES (cm^3)\n".toList :: t.volume))))))) h.front h.xs h.ys h.zs r1 r2 r3
  have e7 := material_read (A := " ELEMENT TYPE\n".toList :: t.types) (rest := t.conn ++ t.r5 :: t.neighHead ::
      (t.d ++ (t.edits ++ t.centHead :: (t.e ++ " DENSITY (gm/cm^3)\n".toList :: (t.density ++ t.r6 :: " VOLUMES (cm^3)\n".toList :: t.volume)))))
    (by
      intro l hl
      rcases List.mem_cons.1 hl with rfl | hl
      · decide
      · exact h.types l hl) h.mats r4 h.connHead.1
  have e8 := connectivity_read hn (rest := t.d ++ (t.edits ++ t.centHead :: (t.e ++ " DENSITY (gm/cm^3)\n".toList ::
      (t.density ++ t.r6 :: " VOLUMES (cm^3)\n".toList :: t.volume)))) h.connHead h.conn r5 ⟨h.neighHead.1, h.neighHead.2.1⟩ h.elements
  have e9 := edits_read (rest := t.e ++ " DENSITY (gm/cm^3)\n".toList :: (t.density ++ t.r6 :: " VOLUMES (cm^3)\n".toList :: t.volume))
    h.neighHead.2.2 h.d h.edits h.names ⟨h.centHead.1, h.centHead.2.1⟩
  have e10 := rhoVol_read h.centHead.2.2 h.e h.density h.volume r6
  have e11 := build_ok (n := n) h.some h.names h.blocks h.sizes
  have hl : t.lines = t.front ++ " NODES X (cm)\n".toList :: (t.xs ++ t.r1 :: " NODES Y (cm)\n".toList ::
      (t.ys ++ t.r2 :: " NODES Z (cm)\n".toList :: (t.zs ++ t.r3 :: " ELEMENT TYPE\n".toList :: (t.types ++ " ELEMENT MATERIAL\n".toList ::
        (t.mats ++ t.r4 :: t.connHead :: (t.conn ++ t.r5 :: t.neighHead :: (t.d ++ (t.edits ++ t.centHead :: (t.e ++ " DENSITY (gm/cm^3)\n".toList ::
        (t.density ++ t.r6 :: " VOLUMES (cm^3)\n".toList :: t.volume)))))))))) := rfl
  rw [← hl] at e6
  rw [List.cons_append] at e7
  unfold readFile
  simp only [e1, e3, e4, e5, e6, e7, e8, e9, e10, e11, getInfo_ok hnd h.nMat, getInfo_ok hnd h.nTets1, getInfo_ok hnd h.nTets2,
    getInfo_ok hnd h.nNodes, getInfo_ok hnd h.nPart, bind, Except.bind, ne_eq, not_true_eq_false, if_false]

end F4Enix.Eeout
