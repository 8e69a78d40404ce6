import Verif.Mat.InfoProps
/-!
# The tables of `get_info` (C170)
-/
namespace F4Enix.MatInfo
open F4Enix F4Enix.Mat

/-- the atom fraction of a zaid in the tables: if the material is given by mass, its share of the atoms; else what was given (specification) -/
def atomFrac (m : Material) (lm : LibMan) (z : Zaid) : ℚ :=
  if m.tot < 0 then (z.fraction / lm.massOf z) / (m.zaids.map (fun y => y.fraction / lm.massOf y)).sum else z.fraction

/-- the mass fraction: if the material is given by atoms, minus its share of the mass; else what was given (specification) -/
def massFrac (m : Material) (lm : LibMan) (z : Zaid) : ℚ :=
  if 0 < m.tot then -(z.fraction * lm.massOf z / (m.zaids.map (fun y => y.fraction * lm.massOf y)).sum) else z.fraction

/-- the zaids with other fractions (proof) -/
def withF (g : Zaid → ℚ) (zs : List Zaid) : List Zaid := zs.map (fun z => { z with fraction := g z })

/-- the rows of a list of zaids (proof) -/
def rowsOf (lm : LibMan) (zaids : Bool) (zs : List Zaid) : List Row :=
  if zaids then ((collapse zs).flatMap Element.zaids).map (rowOf lm) else (collapse zs).map (elRowOf lm)

theorem withF_self (zs : List Zaid) : withF Zaid.fraction zs = zs := by
  unfold withF
  exact List.map_id' zs

theorem withF_canon {g : Zaid → ℚ} {zs : List Zaid} (hc : ∀ z ∈ zs, Canon z) : ∀ z ∈ withF g zs, Canon z := by
  intro z hz
  obtain ⟨y, hy, rfl⟩ := List.mem_map.1 hz
  exact ⟨(hc y hy).1, (hc y hy).2, (hc y hy).3, (hc y hy).4⟩

theorem rebuilt_subs (m : Material) (hcons : m.tot = 0 → Consistent m) :
    (rebuilt m).subs = m.subs.map (fun s => s.withFractions Zaid.fraction) := by
  have hs : ∀ s : SubMat, s.withFractions Zaid.fraction = { s with elements := collapse s.zaids } := by
    intro s
    unfold SubMat.withFractions
    have : s.zaids.map (fun z => { z with fraction := z.fraction }) = s.zaids := withF_self s.zaids
    simp only [this]
  unfold rebuilt
  split_ifs with h
  · have := hcons h
    conv_lhs => rw [← List.map_id m.subs]
    apply List.map_congr_left
    intro s hsm
    rw [hs, ← this s hsm]
    rfl
  · simp only
    apply List.map_congr_left
    intro s _
    rw [hs]

theorem atomSubs_ok {m : Material} {lm : LibMan} {sa : List SubMat} (hcons : m.tot = 0 → Consistent m) (h : atomSubs m lm = .ok sa) :
    sa = m.subs.map (fun s => s.withFractions (atomFrac m lm)) := by
  unfold atomSubs at h
  by_cases ht : m.tot < 0
  · rw [if_pos ht] at h
    unfold Material.switched at h
    cases hs : m.switch "atom".toList lm with
    | error e => rw [hs] at h; cases h
    | ok m' =>
      simp only [hs, Except.ok.injEq] at h
      obtain ⟨-, -, rfl⟩ := switch_atom_eq hs ht
      rw [← h]
      unfold Material.withFractions
      simp only
      have hg : (fun z : Zaid => (-1 * z.fraction / lm.massOf z) / sumOf m.zaids (fun z => -1 * z.fraction / lm.massOf z)) = atomFrac m lm := by
        funext z
        unfold atomFrac
        rw [if_pos ht]
        have : sumOf m.zaids (fun z => -1 * z.fraction / lm.massOf z) = -(m.zaids.map (fun y => y.fraction / lm.massOf y)).sum := by
          rw [sumOf_congr (h' := fun z => (z.fraction / lm.massOf z) * (-1)) (fun z _ => by ring), sumOf_mul]
          unfold sumOf
          ring
        rw [this, show -1 * z.fraction / lm.massOf z = -(z.fraction / lm.massOf z) by ring, neg_div_neg_eq]
      rw [hg]
  · rw [if_neg ht] at h
    simp only [Except.ok.injEq] at h
    rw [← h, rebuilt_subs m hcons]
    have : atomFrac m lm = Zaid.fraction := by
      funext z
      unfold atomFrac
      rw [if_neg ht]
    rw [this]

theorem massSubs_ok {m : Material} {lm : LibMan} {sm : List SubMat} (hcons : m.tot = 0 → Consistent m) (h : massSubs m lm = .ok sm) :
    sm = m.subs.map (fun s => s.withFractions (massFrac m lm)) := by
  unfold massSubs at h
  by_cases ht : m.tot > 0
  · rw [if_pos ht] at h
    unfold Material.switched at h
    cases hs : m.switch "mass".toList lm with
    | error e => rw [hs] at h; cases h
    | ok m' =>
      simp only [hs, Except.ok.injEq] at h
      obtain ⟨-, -, rfl⟩ := switch_mass_eq hs ht
      rw [← h]
      unfold Material.withFractions
      simp only
      have hg : (fun z : Zaid => (-1 * z.fraction * lm.massOf z) / sumOf m.zaids (fun z => z.fraction * lm.massOf z)) = massFrac m lm := by
        funext z
        unfold massFrac
        rw [if_pos ht]
        unfold sumOf
        ring
      rw [hg]
  · rw [if_neg ht] at h
    simp only [Except.ok.injEq] at h
    rw [← h, rebuilt_subs m hcons]
    have : massFrac m lm = Zaid.fraction := by
      funext z
      unfold massFrac
      rw [if_neg ht]
    rw [this]

theorem subInfo_with {lm : LibMan} {zaids : Bool} {g : Zaid → ℚ} {s : SubMat} {rs : List Row} (hc : ∀ z ∈ s.zaids, Canon z)
    (h : subInfo lm zaids (s.withFractions g) = .ok rs) : rs = rowsOf lm zaids (withF g s.zaids) :=
  (subInfo_sums (s := s.withFractions g) (withF_canon hc) rfl h).2.2.2.2

/-- what is known of a submaterial whose table could be made (proof) -/
def SubFacts (lm : LibMan) (zaids : Bool) (s : SubMat) : Prop :=
  (∀ n, rowSum (ofName n (rowsOf lm zaids s.zaids)) = sumOf s.zaids (fun z => if symName lm z.element = some n then z.fraction else 0)) ∧
  rowSum (rowsOf lm zaids s.zaids) = total s.zaids ∧
  (∀ n, n ∈ (rowsOf lm zaids s.zaids).map Row.element ↔ ∃ z ∈ s.zaids, symName lm z.element = some n) ∧
  (∀ z ∈ s.zaids, ∃ n, symName lm z.element = some n)

theorem infoLoop_ok {lm : LibMan} {name : Str} {zaids : Bool} (A M : Zaid → ℚ) (ss : List SubMat) (i : ℕ)
    (hc : ∀ s ∈ ss, ∀ z ∈ s.zaids, Canon z) {c : List CRow} {t : List (ℕ × List Row)}
    (h : infoLoop lm name zaids i (ss.map (fun s => (s.withFractions Zaid.fraction, s.withFractions A, s.withFractions M))) = .ok (c, t)) :
    (∀ s ∈ ss, SubFacts lm zaids s) ∧
    c = (ss.zipIdx i).flatMap (fun p => completeRows name (p.2 + 1) (rowsOf lm zaids p.1.zaids) (rowsOf lm zaids (withF A p.1.zaids))
      (rowsOf lm zaids (withF M p.1.zaids))) ∧
    t = (ss.zipIdx i).map (fun p => (p.2 + 1, rowsOf lm zaids p.1.zaids)) := by
  induction ss generalizing i c t with
  | nil =>
    simp only [List.map_nil, infoLoop, Except.ok.injEq, Prod.mk.injEq] at h
    obtain ⟨rfl, rfl⟩ := h
    simp
  | cons s ss ih =>
    rw [List.map_cons] at h
    unfold infoLoop at h
    have hcs := hc s (by simp)
    cases h1 : subInfo lm zaids (s.withFractions Zaid.fraction) with
    | error e => simp [h1] at h
    | ok rs =>
      cases h2 : subInfo lm zaids (s.withFractions A) with
      | error e => simp [h1, h2] at h
      | ok ra =>
        cases h3 : subInfo lm zaids (s.withFractions M) with
        | error e => simp [h1, h2, h3] at h
        | ok rm =>
          simp only [h1, h2, h3] at h
          cases hl : infoLoop lm name zaids (i + 1)
              (ss.map (fun s => (s.withFractions Zaid.fraction, s.withFractions A, s.withFractions M))) with
          | error e => simp [hl] at h
          | ok p =>
            obtain ⟨c', t'⟩ := p
            simp only [hl, Except.ok.injEq, Prod.mk.injEq] at h
            obtain ⟨rfl, rfl⟩ := h
            obtain ⟨g1, g2, g3⟩ := ih (i + 1) (fun s hs => hc s (List.mem_cons_of_mem _ hs)) hl
            have e1 := subInfo_with hcs h1
            rw [withF_self] at e1
            have hf := subInfo_sums (s := s.withFractions Zaid.fraction) (withF_canon hcs) rfl h1
            have hz : (s.withFractions Zaid.fraction).zaids = s.zaids := withF_self s.zaids
            rw [hz] at hf
            refine ⟨?_, ?_, ?_⟩
            · intro s' hs'
              rcases List.mem_cons.1 hs' with rfl | hs'
              · unfold SubFacts
                rw [← e1]
                exact ⟨hf.1, hf.2.1, hf.2.2.1, hf.2.2.2.1⟩
              · exact g1 s' hs'
            · rw [List.zipIdx_cons, List.flatMap_cons, ← g2, e1, subInfo_with hcs h2, subInfo_with hcs h3]
            · rw [List.zipIdx_cons, List.map_cons, ← g3, e1]

/-- the tables of a material -/
theorem getInfo_ok {m : Material} {lm : LibMan} {zaids : Bool} (hc : ∀ z ∈ m.zaids, Canon z) (hcons : m.tot = 0 → Consistent m)
    {c : List CRow} {e : List ERow} (h : getInfo m lm zaids = .ok (c, e)) :
    m.subs ≠ [] ∧ (∀ s ∈ m.subs, SubFacts lm zaids s) ∧
    c = m.subs.zipIdx.flatMap (fun p => completeRows m.name (p.2 + 1) (rowsOf lm zaids p.1.zaids)
      (rowsOf lm zaids (withF (atomFrac m lm) p.1.zaids)) (rowsOf lm zaids (withF (massFrac m lm) p.1.zaids))) ∧
    e = elementTable m.name (m.subs.zipIdx.map (fun p => (p.2 + 1, rowsOf lm zaids p.1.zaids))) := by
  unfold getInfo at h
  cases ha : atomSubs m lm with
  | error e => simp [ha] at h
  | ok sa =>
    cases hm : massSubs m lm with
    | error e => simp [ha, hm] at h
    | ok sm =>
      simp only [ha, hm] at h
      rw [atomSubs_ok hcons ha, massSubs_ok hcons hm, rebuilt_subs m hcons] at h
      have hzip : (m.subs.map (fun s => s.withFractions Zaid.fraction)).zip
          ((m.subs.map (fun s => s.withFractions (atomFrac m lm))).zip (m.subs.map (fun s => s.withFractions (massFrac m lm)))) =
          m.subs.map (fun s => (s.withFractions Zaid.fraction, s.withFractions (atomFrac m lm), s.withFractions (massFrac m lm))) := by
        rw [List.zip_map', List.zip_map']
      rw [hzip] at h
      cases hl : infoLoop lm m.name zaids 0 (m.subs.map
          (fun s => (s.withFractions Zaid.fraction, s.withFractions (atomFrac m lm), s.withFractions (massFrac m lm)))) with
      | error e => simp [hl] at h
      | ok p =>
        obtain ⟨c', t'⟩ := p
        simp only [hl] at h
        obtain ⟨g1, g2, g3⟩ := infoLoop_ok _ _ _ 0 (fun s hs z hz => hc z (List.mem_flatMap.2 ⟨s, hs, hz⟩)) hl
        split_ifs at h with ht
        simp only [Except.ok.injEq, Prod.mk.injEq] at h
        obtain ⟨rfl, rfl⟩ := h
        refine ⟨?_, g1, g2, by rw [g3]⟩
        rintro h0
        rw [h0] at g3
        exact ht (by rw [g3]; rfl)

instance : Std.Total (fun a b : Str => Path.lexLe a b = true) := ⟨fun a b => Path.lexLe_total a b⟩
instance : IsTrans Str (fun a b => Path.lexLe a b = true) := ⟨fun _ _ _ h1 h2 => Path.lexLe_trans h1 h2⟩

theorem mem_rowNames (rs : List Row) (n : Str) : n ∈ rowNames rs ↔ n ∈ rs.map Row.element := by
  unfold rowNames
  rw [(List.perm_insertionSort _ _).mem_iff, List.mem_dedup]

theorem rowNames_nodup (rs : List Row) : (rowNames rs).Nodup := by
  unfold rowNames
  exact (List.perm_insertionSort _ _).nodup_iff.2 (List.nodup_dedup _)

theorem rowNames_sorted (rs : List Row) : (rowNames rs).Pairwise (fun a b => Path.lexLe a b = true) := by
  unfold rowNames
  exact List.pairwise_insertionSort _ _

theorem names_total (rs : List Row) : ((rowNames rs).map (fun n => rowSum (ofName n rs))).sum = rowSum rs := by
  have key : ∀ (l : List Str) (rs : List Row), l.Nodup → (∀ r ∈ rs, r.element ∈ l) → (l.map (fun n => rowSum (ofName n rs))).sum = rowSum rs := by
    intro l rs hl
    induction rs with
    | nil => intro _; simp [ofName, rowSum]
    | cons r rs ih =>
      intro h
      have := ih (fun r hr => h r (List.mem_cons_of_mem _ hr))
      have hsplit : ∀ n, rowSum (ofName n (r :: rs)) = (if r.element = n then r.fraction else 0) + rowSum (ofName n rs) := by
        intro n
        rw [ofName_sum, ofName_sum, sumOf_cons]
      rw [List.map_congr_left (fun n _ => hsplit n), List.sum_map_add, this]
      have h1 : (l.map (fun n => if r.element = n then r.fraction else 0)).sum = r.fraction := by
        have hm := h r (by simp)
        clear ih this hsplit h
        induction l with
        | nil => simp at hm
        | cons a l ih2 =>
          rw [List.nodup_cons] at hl
          rw [List.map_cons, List.sum_cons]
          by_cases ha : r.element = a
          · rw [if_pos ha]
            have : (l.map (fun n => if r.element = n then r.fraction else 0)).sum = 0 := by
              apply List.sum_eq_zero
              intro x hx
              obtain ⟨n, hn, rfl⟩ := List.mem_map.1 hx
              rw [if_neg]
              rintro rfl
              exact hl.1 (ha ▸ hn)
            rw [this, add_zero]
          · rw [if_neg ha, zero_add]
            exact ih2 hl.2 (by rcases List.mem_cons.1 hm with h | h; exact absurd h ha; exact h)
      rw [h1]
      unfold rowSum
      simp
  exact key _ rs (rowNames_nodup rs) (fun r hr => (mem_rowNames rs r.element).2 (List.mem_map_of_mem hr))

/-- **C170.** The table of elements of `get_info`: each row is an element of a submaterial (numbered from one), with the sum of the fractions of its
zaids, its share in the submaterial and its share in the material; every zaid is counted in a row; each element has one row per
submaterial; the rows are in the order of the submaterials and of the names. The option `zaids` makes no difference. -/
theorem info_elements {m : Material} {lm : LibMan} {zaids : Bool} (hc : ∀ z ∈ m.zaids, Canon z) (hcons : m.tot = 0 → Consistent m)
    {c : List CRow} {e : List ERow} (h : getInfo m lm zaids = .ok (c, e)) :
    (∀ r ∈ e, r.material = m.name ∧ ∃ (i : ℕ) (s : SubMat), r.sub = i + 1 ∧ m.subs[i]? = some s ∧ (∃ z ∈ s.zaids, Shown lm z r.element) ∧
      r.fraction = shownSum lm r.element Zaid.fraction s.zaids ∧
      r.subShare = (if total s.zaids = 0 then none else some (r.fraction / total s.zaids)) ∧
      r.matShare = (if m.tot = 0 then none else some (r.fraction / m.tot))) ∧
    (∀ (i : ℕ) s z, m.subs[i]? = some s → z ∈ s.zaids → ∃ n, Shown lm z n ∧ ∃ r ∈ e, r.sub = i + 1 ∧ r.element = n) ∧
    e.Pairwise (fun a b => a.sub < b.sub ∨ (a.sub = b.sub ∧ a.element ≠ b.element ∧ Path.lexLe a.element b.element = true)) := by
  obtain ⟨-, hf, -, he⟩ := getInfo_ok hc hcons h
  have htot : ((m.subs.zipIdx.map (fun p => (p.2 + 1, rowsOf lm zaids p.1.zaids))).map (fun u => rowSum u.2)).sum = m.tot := by
    rw [List.map_map]
    have h1 : (m.subs.zipIdx.map ((fun u : ℕ × List Row => rowSum u.2) ∘ fun p : SubMat × ℕ => (p.2 + 1, rowsOf lm zaids p.1.zaids))) =
        m.subs.map (fun s => total s.zaids) := by
      have h2 : m.subs.zipIdx.map ((fun u : ℕ × List Row => rowSum u.2) ∘ fun p : SubMat × ℕ => (p.2 + 1, rowsOf lm zaids p.1.zaids)) =
          m.subs.zipIdx.map (fun p => total p.1.zaids) := by
        apply List.map_congr_left
        intro p hp
        have : p.1 ∈ m.subs := (List.mem_iff_getElem?).2 ⟨_, (List.mem_zipIdx_iff_getElem?.1 hp)⟩
        simp only [Function.comp]
        exact (hf p.1 this).2.1
      rw [h2]
      have : (fun p : SubMat × ℕ => total p.1.zaids) = (fun s : SubMat => total s.zaids) ∘ Prod.fst := rfl
      rw [this, ← List.map_map, List.zipIdx_map_fst]
    rw [h1, tot_eq_sumOf]
    unfold Material.zaids
    rw [sumOf_flatMap]
    rfl
  refine ⟨?_, ?_, ?_⟩
  · intro r hr
    rw [he] at hr
    unfold elementTable at hr
    rw [htot] at hr
    obtain ⟨t, ht, hr⟩ := List.mem_flatMap.1 hr
    obtain ⟨n, hn, rfl⟩ := List.mem_map.1 hr
    obtain ⟨p, hp, rfl⟩ := List.mem_map.1 ht
    have hp' := List.mem_zipIdx_iff_getElem?.1 hp
    have hmem : p.1 ∈ m.subs := List.mem_iff_getElem?.2 ⟨_, hp'⟩
    obtain ⟨f1, f2, f3, f4⟩ := hf p.1 hmem
    refine ⟨rfl, p.2, p.1, rfl, hp', ?_, ?_, ?_, ?_⟩
    · obtain ⟨z, hz, hzn⟩ := (f3 n).1 ((mem_rowNames _ _).1 hn)
      exact ⟨z, hz, (shown_iff lm z n).2 hzn⟩
    · simp only
      rw [f1 n, shownSum_eq]
    · simp only [share, f2]
    · simp only [share]
  · intro i s z hs hz
    have hmem : s ∈ m.subs := List.mem_iff_getElem?.2 ⟨_, hs⟩
    obtain ⟨f1, f2, f3, f4⟩ := hf s hmem
    obtain ⟨n, hn⟩ := f4 z hz
    refine ⟨n, (shown_iff lm z n).2 hn, ?_⟩
    rw [he]
    unfold elementTable
    refine ⟨_, List.mem_flatMap.2 ⟨(i + 1, rowsOf lm zaids s.zaids), List.mem_map.2 ⟨(s, i), List.mem_zipIdx_iff_getElem?.2 hs, rfl⟩,
      List.mem_map.2 ⟨n, (mem_rowNames _ _).2 ((f3 n).2 ⟨z, hz, hn⟩), rfl⟩⟩, rfl, rfl⟩
  · rw [he]
    unfold elementTable
    rw [List.pairwise_flatMap]
    constructor
    · intro t _
      rw [List.pairwise_map]
      have h1 := rowNames_sorted t.2
      have h2 := rowNames_nodup t.2
      exact (h2.and h1).imp (fun h => Or.inr ⟨rfl, h.1, h.2⟩)
    · rw [List.pairwise_map]
      have : m.subs.zipIdx.Pairwise (fun p q => p.2 < q.2) := by
        have h3 := List.pairwise_lt_range (n := m.subs.length)
        rw [← List.pairwise_map (f := Prod.snd) (R := (· < ·)), List.zipIdx_map_snd]
        have := List.pairwise_lt_range' (s := 0) (n := m.subs.length)
        simpa using this
      refine this.imp ?_
      intro p q hpq a ha b hb
      obtain ⟨n, -, rfl⟩ := List.mem_map.1 ha
      obtain ⟨n', -, rfl⟩ := List.mem_map.1 hb
      left
      simp only
      omega

end F4Enix.MatInfo
