import Verif.Mat.InfoZaids
/-!
# Totals of the columns of `get_info` (C171) and the in-line comments of the zaids (C172)
-/
namespace F4Enix.MatInfo
open F4Enix F4Enix.Mat

/-! ### totals of the columns -/

theorem rowSum_rowsOf {lm : LibMan} {zaids : Bool} {zs : List Zaid} (hc : ∀ z ∈ zs, Canon z) : rowSum (rowsOf lm zaids zs) = total zs := by
  unfold rowsOf rowSum
  cases zaids with
  | true =>
    simp only [if_true, List.map_map]
    exact collapse_total hc
  | false =>
    simp only [Bool.false_eq_true, if_false, List.map_map]
    rw [← collapse_total hc]
    have := sumOf_flatMap (collapse zs) Element.zaids Zaid.fraction
    unfold total
    rw [show (((collapse zs).flatMap Element.zaids).map Zaid.fraction).sum = sumOf ((collapse zs).flatMap Element.zaids) Zaid.fraction from rfl, this]
    rfl

theorem rowsOf_length {lm : LibMan} {zaids : Bool} {zs : List Zaid} (hc : ∀ z ∈ zs, Canon z) (g : Zaid → ℚ) :
    (rowsOf lm zaids (withF g zs)).length = (rowsOf lm zaids zs).length := by
  unfold rowsOf
  cases zaids with
  | true =>
    have := congrArg List.length (collapse_names_withF hc g)
    simpa using this
  | false =>
    have hn : (collapse (withF g zs)).map Element.z = (collapse zs).map Element.z := by
      rw [collapse_elements, collapse_elements, elements_withF]
    have := congrArg List.length hn
    simpa using this

theorem column_eq {l l' : List Row} (h : l'.length = l.length) :
    l.zipIdx.map (fun p => ((l'[p.2]?).map Row.fraction).getD 0) = l'.map Row.fraction := by
  apply List.ext_getElem?
  intro j
  rw [List.getElem?_map, List.getElem?_map, List.getElem?_zipIdx]
  by_cases hj : j < l.length
  · rw [List.getElem?_eq_getElem hj]
    simp only [Option.map_some, Nat.zero_add]
    rw [List.getElem?_eq_getElem (by omega)]
    rfl
  · rw [List.getElem?_eq_none (by omega), List.getElem?_eq_none (by omega)]
    rfl

theorem sumOf_fst {α β : Type} (l : List (α × β)) (g : α → ℚ) : sumOf l (fun p => g p.1) = sumOf (l.map Prod.fst) g := by
  rw [sumOf_map]

/-- the sums of the columns of the complete table -/
theorem columns_sum {m : Material} {lm : LibMan} {zaids : Bool} (hc : ∀ z ∈ m.zaids, Canon z) (hcons : m.tot = 0 → Consistent m)
    {c : List CRow} {e : List ERow} (h : getInfo m lm zaids = .ok (c, e)) :
    (c.map (fun r => r.atom.getD 0)).sum = sumOf m.zaids (atomFrac m lm) ∧ (c.map (fun r => r.mass.getD 0)).sum = sumOf m.zaids (massFrac m lm) := by
  obtain ⟨-, -, hcc, -⟩ := getInfo_ok hc hcons h
  have hsub : ∀ s ∈ m.subs, ∀ z ∈ s.zaids, Canon z := fun s hs z hz => hc z (List.mem_flatMap.2 ⟨s, hs, hz⟩)
  have hw : ∀ (g : Zaid → ℚ) (s : SubMat), s ∈ m.subs → rowSum (rowsOf lm zaids (withF g s.zaids)) = sumOf s.zaids g := by
    intro g s hs
    rw [rowSum_rowsOf (withF_canon (hsub s hs))]
    unfold total withF sumOf
    rw [List.map_map]
    rfl
  have hfin : ∀ g : Zaid → ℚ, sumOf m.subs.zipIdx (fun p => sumOf p.1.zaids g) = sumOf m.zaids g := by
    intro g
    rw [sumOf_fst m.subs.zipIdx (fun s : SubMat => sumOf s.zaids g), List.zipIdx_map_fst]
    unfold Material.zaids
    rw [sumOf_flatMap]
  constructor
  · rw [← hfin]
    rw [show (c.map (fun r => r.atom.getD 0)).sum = sumOf c (fun r => r.atom.getD 0) from rfl, hcc, sumOf_flatMap]
    apply sumOf_congr
    intro p hp
    have hmem : p.1 ∈ m.subs := List.mem_iff_getElem?.2 ⟨_, List.mem_zipIdx_iff_getElem?.1 hp⟩
    rw [← hw _ p.1 hmem]
    unfold completeRows
    rw [sumOf_map]
    unfold sumOf rowSum
    rw [← column_eq (rowsOf_length (hsub p.1 hmem) (atomFrac m lm))]
  · rw [← hfin]
    rw [show (c.map (fun r => r.mass.getD 0)).sum = sumOf c (fun r => r.mass.getD 0) from rfl, hcc, sumOf_flatMap]
    apply sumOf_congr
    intro p hp
    have hmem : p.1 ∈ m.subs := List.mem_iff_getElem?.2 ⟨_, List.mem_zipIdx_iff_getElem?.1 hp⟩
    rw [← hw _ p.1 hmem]
    unfold completeRows
    rw [sumOf_map]
    unfold sumOf rowSum
    rw [← column_eq (rowsOf_length (hsub p.1 hmem) (massFrac m lm))]

/-- **C171.** The totals of the columns: the one that is converted adds up to one (atoms) or minus one (mass), the other one to the total of
the material as it was given. -/
theorem columns_total {m : Material} {lm : LibMan} {zaids : Bool} (hc : ∀ z ∈ m.zaids, Canon z) (hcons : m.tot = 0 → Consistent m)
    {c : List CRow} {e : List ERow} (h : getInfo m lm zaids = .ok (c, e)) :
    (c.map (fun r => r.atom.getD 0)).sum = (if m.tot < 0 then 1 else m.tot) ∧ (c.map (fun r => r.mass.getD 0)).sum = (if 0 < m.tot then -1 else m.tot) := by
  obtain ⟨h1, h2⟩ := columns_sum hc hcons h
  rw [h1, h2]
  unfold getInfo at h
  cases ha : atomSubs m lm with
  | error e => simp [ha] at h
  | ok sa =>
    cases hm : massSubs m lm with
    | error e => simp [ha, hm] at h
    | ok sm =>
      constructor
      · by_cases ht : m.tot < 0
        · rw [if_pos ht]
          unfold atomSubs at ha
          rw [if_pos ht] at ha
          unfold Material.switched at ha
          cases hs : m.switch "atom".toList lm with
          | error e => rw [hs] at ha; cases ha
          | ok m' =>
            obtain ⟨hz, htot⟩ := switch_atom m lm hs ht
            unfold Material.tot at htot
            rw [hz, List.map_map] at htot
            rw [← htot]
            unfold sumOf
            congr 1
            apply List.map_congr_left
            intro z _
            unfold atomFrac
            rw [if_pos ht]
            rfl
        · rw [if_neg ht]
          unfold Material.tot sumOf
          congr 1
          apply List.map_congr_left
          intro z _
          unfold atomFrac
          rw [if_neg ht]
      · by_cases ht : 0 < m.tot
        · rw [if_pos ht]
          unfold massSubs at hm
          rw [if_pos (show m.tot > 0 from ht)] at hm
          unfold Material.switched at hm
          cases hs : m.switch "mass".toList lm with
          | error e => rw [hs] at hm; cases hm
          | ok m' =>
            obtain ⟨hz, htot⟩ := switch_mass m lm hs ht
            unfold Material.tot at htot
            rw [hz, List.map_map] at htot
            rw [← htot]
            unfold sumOf
            congr 1
            apply List.map_congr_left
            intro z _
            unfold massFrac
            rw [if_pos ht]
            rfl
        · rw [if_neg ht]
          unfold Material.tot sumOf
          congr 1
          apply List.map_congr_left
          intro z _
          unfold massFrac
          rw [if_neg ht]

/-! ### in-line comments -/

/-- the mass of a zaid, up to a common factor: for materials by atoms the amount times the atomic mass, else the amount (specification) -/
def relMass (m : Material) (lm : LibMan) (z : Zaid) : ℚ := if 0 < m.tot then z.fraction * lm.massOf z else z.fraction

/-- the sum of a quantity over zaids (specification) -/
def sumZ (g : Zaid → ℚ) (zs : List Zaid) : ℚ := (zs.map g).sum

theorem withFractions_congr {m : Material} {g g' : Zaid → ℚ} (h : ∀ z ∈ m.zaids, g z = g' z) : m.withFractions g = m.withFractions g' := by
  unfold Material.withFractions
  congr 1
  apply List.map_congr_left
  intro s hs
  unfold SubMat.withFractions
  have : s.zaids.map (fun z => { z with fraction := g z }) = s.zaids.map (fun z => { z with fraction := g' z }) := by
    apply List.map_congr_left
    intro z hz
    rw [h z (List.mem_flatMap.2 ⟨s, hs, hz⟩)]
  simp only [this]

theorem withFractions_twice (m : Material) (g g' : Zaid → ℚ) :
    (m.withFractions g).withFractions g' = m.withFractions (fun z => g' { z with fraction := g z }) := by
  unfold Material.withFractions
  simp only [List.map_map]
  congr 1
  apply List.map_congr_left
  intro s _
  unfold SubMat.withFractions
  simp only [Function.comp, List.map_map]
  rfl

theorem withFractions_self {m : Material} (hcons : Consistent m) : m.withFractions Zaid.fraction = m := by
  unfold Material.withFractions
  have : m.subs.map (fun s => s.withFractions Zaid.fraction) = m.subs := by
    conv_rhs => rw [← List.map_id m.subs]
    apply List.map_congr_left
    intro s hs
    unfold SubMat.withFractions
    have h1 : s.zaids.map (fun z => { z with fraction := z.fraction }) = s.zaids := withF_self s.zaids
    simp only [h1]
    rw [← hcons s hs]
    rfl
  rw [this]

/-- the material of which the shares are taken: the masses up to a factor -/
theorem fake_ok {m m1 m2 : Material} {lm : LibMan} (hcons : m.tot = 0 → Consistent m) (hm : ∀ z ∈ m.zaids, lm.massOf z ≠ 0)
    (h1 : m.switch "atom".toList lm = .ok m1) (h2 : m1.switch "mass".toList lm = .ok m2) :
    ∃ k : ℚ, k ≠ 0 ∧ m2 = m.withFractions (fun z => relMass m lm z * k) := by
  rcases lt_trichotomy m.tot 0 with ht | ht | ht
  · have hr := switch_round_mass m lm ht hm h1 h2
    have ht1 : 0 < m1.tot := by rw [(switch_atom m lm h1 ht).2]; norm_num
    obtain ⟨-, -, e1⟩ := switch_atom_eq h1 ht
    obtain ⟨-, -, e2⟩ := switch_mass_eq h2 ht1
    have ha : |m.tot| ≠ 0 := by rw [abs_ne_zero]; exact ne_of_lt ht
    refine ⟨1 / |m.tot|, one_div_ne_zero ha, ?_⟩
    rw [e2]
    conv_lhs => rw [e1]
    rw [withFractions_twice]
    apply withFractions_congr
    rw [e2] at hr
    rw [withFractions_zaids] at hr
    conv_lhs at hr => rw [e1]
    rw [withFractions_zaids, List.map_map] at hr
    intro z hz
    have := List.map_inj_left.1 hr z hz
    have hf := congrArg Zaid.fraction this
    simp only [Function.comp] at hf
    rw [withFractions_zaids]
    rw [hf]
    unfold relMass
    rw [if_neg (not_lt.2 (le_of_lt ht))]
    ring
  · have e1 : m1 = m := by
      have := (switch_noop m lm).1 (le_of_eq ht.symm)
      rw [this] at h1; cases h1; rfl
    subst e1
    have e2 : m2 = m1 := by
      have := (switch_noop m1 lm).2 (le_of_eq ht)
      rw [this] at h2; cases h2; rfl
    subst e2
    refine ⟨1, one_ne_zero, ?_⟩
    conv_lhs => rw [← withFractions_self (hcons ht)]
    apply withFractions_congr
    intro z _
    unfold relMass
    rw [if_neg (by rw [ht]; exact lt_irrefl 0), mul_one]
  · have e1 : m1 = m := by
      have := (switch_noop m lm).1 (le_of_lt ht)
      rw [this] at h1; cases h1; rfl
    subst e1
    obtain ⟨-, h0, e2⟩ := switch_mass_eq h2 ht
    refine ⟨-1 / sumOf m1.zaids (fun z => z.fraction * lm.massOf z), div_ne_zero (by norm_num) h0, ?_⟩
    rw [e2]
    apply withFractions_congr
    intro z _
    unfold relMass
    rw [if_pos ht]
    ring

theorem noteElement_ok {lm : LibMan} {w : Option ℚ} {e : Element} {l : List Note} (h : noteElement lm w e = .ok l) :
    l.map Note.zaid = e.zaids ∧ ∀ n ∈ l, fullName lm n.zaid = .ok n.name ∧ n.ab = n.zaid.fraction / e.fraction * 100 ∧ e.fraction ≠ 0 ∧ n.weight = w := by
  unfold noteElement at h
  have hf := mapE_ok h
  clear h
  generalize e.zaids = zs at hf
  induction hf with
  | nil => simp
  | @cons z n zs l h1 _ ih =>
    cases hn : fullName lm z with
    | error x => simp [hn] at h1
    | ok t =>
      simp only [hn] at h1
      split_ifs at h1 with h0
      simp only [Except.ok.injEq] at h1
      subst h1
      refine ⟨by rw [List.map_cons, ih.1], ?_⟩
      intro n' hn'
      rcases List.mem_cons.1 hn' with rfl | hn'
      · exact ⟨hn, rfl, h0, rfl⟩
      · exact ih.2 n' hn'

theorem noteSub_ok {lm : LibMan} {rows : List ERow} {s : SubMat} {ns : List (List Note)} (hc : ∀ z ∈ s.zaids, Canon z)
    (h : noteSub lm rows s = .ok ns) :
    ns.flatten.map Note.zaid = (collapse s.zaids).flatMap Element.zaids ∧
    (∀ n ∈ ns.flatten, ∃ e ∈ collapse s.zaids, n.zaid ∈ e.zaids ∧ fullName lm n.zaid = .ok n.name ∧ n.ab = n.zaid.fraction / e.fraction * 100 ∧
      e.fraction ≠ 0 ∧ ∃ r ∈ rows, symName lm e.z = some r.element ∧ n.weight = r.subShare) := by
  unfold noteSub at h
  have hf := mapE_ok h
  clear h
  have hdot : ∀ e ∈ collapse s.zaids, '.' ∉ e.z := by
    intro e he
    have hg := collapse_good hc e he
    obtain ⟨y, hy⟩ := List.exists_mem_of_ne_nil _ hg.1
    rw [← hg.2 y hy]
    exact (collapse_canon hc y (List.mem_flatMap.2 ⟨e, he, hy⟩)).elementDot
  generalize collapse s.zaids = es at hf hdot
  induction hf with
  | nil => simp
  | @cons e l es ns h1 _ ih =>
    have ih' := ih (fun e he => hdot e (List.mem_cons_of_mem _ he))
    have he := hdot e (by simp)
    cases hn : fullName lm (fromString (e.z ++ "000".toList) (-1)) with
    | error x => rw [hn] at h1; cases h1
    | ok n =>
      rw [hn] at h1
      simp only at h1
      cases hr : rows.find? (fun r => decide (r.element = beforeDash n)) with
      | none => simp [hr] at h1
      | some r =>
        simp only [hr] at h1
        obtain ⟨g1, g2⟩ := noteElement_ok h1
        have hs := fullName_sym hn
        have hel : (fromString (e.z ++ "000".toList) (-1)).element = e.z := by
          have := fromString_name (z := ⟨-1, e.z, "000".toList, none⟩) ⟨he, (by decide : '.' ∉ "000".toList), (by intro l hl; cases hl), Or.inl rfl⟩ (-1)
          have hnm : (⟨-1, e.z, "000".toList, none⟩ : Zaid).name = e.z ++ "000".toList := rfl
          rw [hnm] at this
          rw [this]
        rw [hel] at hs
        have hre : r.element = beforeDash n := by
          have := List.find?_some hr
          simpa using this
        have hrm := List.mem_of_find?_eq_some hr
        refine ⟨?_, ?_⟩
        · rw [List.flatten_cons, List.map_append, List.flatMap_cons, g1, ih'.1]
        · intro n' hn'
          rw [List.flatten_cons, List.mem_append] at hn'
          rcases hn' with hn' | hn'
          · obtain ⟨a1, a2, a3, a4⟩ := g2 n' hn'
            refine ⟨e, by simp, ?_, a1, a2, a3, r, hrm, ?_, a4⟩
            · rw [← g1]; exact List.mem_map_of_mem hn'
            · rw [hre]; exact hs
          · obtain ⟨e', he', rest⟩ := ih'.2 n' hn'
            exact ⟨e', List.mem_cons_of_mem _ he', rest⟩

theorem noteSubs_ok {lm : LibMan} {table : List ERow} (ss : List SubMat) (i : ℕ) {nss : List (List (List Note))}
    (h : noteSubs lm table i ss = .ok nss) :
    nss.length = ss.length ∧ ∀ (j : ℕ) s, ss[j]? = some s → ∃ ns, nss[j]? = some ns ∧ noteSub lm (table.filter (fun r => decide (r.sub = i + j + 1))) s = .ok ns := by
  induction ss generalizing i nss with
  | nil =>
    simp only [noteSubs, Except.ok.injEq] at h
    subst h
    simp
  | cons s ss ih =>
    rw [noteSubs.eq_def] at h
    simp only at h
    cases hr : table.filter (fun r => decide (r.sub = i + 1)) with
    | nil => simp [hr] at h
    | cons r rows =>
      simp only [hr] at h
      cases hn : noteSub lm (r :: rows) s with
      | error e => simp [hn] at h
      | ok ns =>
        simp only [hn] at h
        cases hl : noteSubs lm table (i + 1) ss with
        | error e => simp [hl] at h
        | ok nss' =>
          simp only [hl, Except.ok.injEq] at h
          subst h
          obtain ⟨g1, g2⟩ := ih (i + 1) hl
          refine ⟨by simp [g1], ?_⟩
          intro j s' hs'
          cases j with
          | zero =>
            simp only [List.getElem?_cons_zero, Option.some.injEq] at hs'
            subst hs'
            refine ⟨ns, by simp, ?_⟩
            rw [Nat.add_zero, hr]
            exact hn
          | succ j =>
            rw [List.getElem?_cons_succ] at hs'
            obtain ⟨ns', h1, h2⟩ := g2 j s' hs'
            refine ⟨ns', by simpa using h1, ?_⟩
            rw [show i + (j + 1) + 1 = i + 1 + j + 1 by omega]
            exact h2

theorem shownSum_withF (lm : LibMan) (n : Str) (g : Zaid → ℚ) (zs : List Zaid) : shownSum lm n Zaid.fraction (withF g zs) = shownSum lm n g zs := by
  rw [shownSum_eq, shownSum_eq]
  unfold withF
  rw [sumOf_map]

/-- **C172.** The in-line comments: each written zaid has one, in the same order, with the name of the zaid, its percentage in its element and the
share of the mass of the submaterial that the zaids shown under the same symbol have. -/
theorem notes_ok {m : Material} {lm : LibMan} (hc : ∀ z ∈ m.zaids, Canon z) (hcons : m.tot = 0 → Consistent m)
    (hm : ∀ z ∈ m.zaids, lm.massOf z ≠ 0) {nss : List (List (List Note))} (h : notes m lm = .ok nss) :
    nss.length = m.subs.length ∧ ∀ (i : ℕ) (s : SubMat), m.subs[i]? = some s → ∃ ns, nss[i]? = some ns ∧
      ns.flatten.map Note.zaid = (collapse s.zaids).flatMap Element.zaids ∧
      ∀ n ∈ ns.flatten, fullName lm n.zaid = .ok n.name ∧
        elemSum n.zaid.element Zaid.fraction s.zaids ≠ 0 ∧
        n.ab = 100 * n.zaid.fraction / elemSum n.zaid.element Zaid.fraction s.zaids ∧
        ∃ t, Shown lm n.zaid t ∧
          n.weight = (if sumZ (relMass m lm) s.zaids = 0 then none else some (shownSum lm t (relMass m lm) s.zaids / sumZ (relMass m lm) s.zaids)) := by
  unfold notes at h
  cases h1 : m.switch "atom".toList lm with
  | error e => rw [h1] at h; cases h
  | ok m1 =>
    rw [h1] at h
    simp only at h
    cases h2 : m1.switch "mass".toList lm with
    | error e => rw [h2] at h; cases h
    | ok m2 =>
      rw [h2] at h
      simp only at h
      cases h3 : getInfo m2 lm false with
      | error e => rw [h3] at h; cases h
      | ok p =>
        obtain ⟨c, table⟩ := p
        rw [h3] at h
        simp only at h
        obtain ⟨k, hk, e2⟩ := fake_ok hcons hm h1 h2
        obtain ⟨g1, g2⟩ := noteSubs_ok m.subs 0 h
        have hc2 : ∀ z ∈ m2.zaids, Canon z := by
          rw [e2, withFractions_zaids]
          exact withF_canon hc
        have hcons2 : m2.tot = 0 → Consistent m2 := by
          intro _
          rw [e2]
          exact consistent_withFractions m _
        obtain ⟨t1, -, -⟩ := info_elements hc2 hcons2 h3
        refine ⟨g1, ?_⟩
        intro i s hs
        have hsm : s ∈ m.subs := List.mem_iff_getElem?.2 ⟨_, hs⟩
        have hcs : ∀ z ∈ s.zaids, Canon z := fun z hz => hc z (List.mem_flatMap.2 ⟨s, hsm, hz⟩)
        obtain ⟨ns, hns, hn⟩ := g2 i s hs
        obtain ⟨a1, a2⟩ := noteSub_ok hcs hn
        refine ⟨ns, hns, a1, ?_⟩
        intro n hnn
        obtain ⟨e, he, hze, hname, hab, h0, r, hr, hsym, hw⟩ := a2 n hnn
        have hzel : n.zaid.element = e.z := (collapse_good hcs e he).2 _ hze
        have hef := el_fraction hcs he
        refine ⟨hname, ?_, ?_, r.element, ?_, ?_⟩
        · rw [hzel, ← hef]; exact h0
        · rw [hab, hzel, ← hef]; ring
        · rw [shown_iff, hzel]; exact hsym
        · obtain ⟨hr1, hr2⟩ := List.mem_filter.1 hr
          obtain ⟨-, i', s', hi', hs', -, hfr, hshare, -⟩ := t1 r hr1
          have hii : i' = i := by
            have := of_decide_eq_true hr2
            omega
          subst hii
          have hs2 : s' = s.withFractions (fun z => relMass m lm z * k) := by
            rw [e2] at hs'
            unfold Material.withFractions at hs'
            simp only [List.getElem?_map, hs, Option.map_some, Option.some.injEq] at hs'
            exact hs'.symm
          have hz2 : s'.zaids = withF (fun z => relMass m lm z * k) s.zaids := by rw [hs2]; rfl
          have htot : total s'.zaids = sumZ (relMass m lm) s.zaids * k := by
            rw [hz2]
            unfold total withF sumZ
            rw [List.map_map]
            exact sumOf_mul _ _ _
          have hsh : r.fraction = shownSum lm r.element (relMass m lm) s.zaids * k := by
            rw [hfr, hz2, shownSum_withF, shownSum_eq, shownSum_eq, ← sumOf_mul]
            apply sumOf_congr
            intro z _
            by_cases hq : symName lm z.element = some r.element <;> simp [hq]
          rw [hw, hshare, htot, hsh]
          by_cases hq : sumZ (relMass m lm) s.zaids = 0
          · simp [hq]
          · rw [if_neg (mul_ne_zero hq hk), if_neg hq, mul_div_mul_right _ _ hk]

/-- **C172.** The percentages of the zaids of an element of a submaterial add up to one hundred. -/
theorem notes_percent {m : Material} {lm : LibMan} (hc : ∀ z ∈ m.zaids, Canon z) (hcons : m.tot = 0 → Consistent m)
    (hm : ∀ z ∈ m.zaids, lm.massOf z ≠ 0) {nss : List (List (List Note))} (h : notes m lm = .ok nss) {i : ℕ} {s : SubMat} {ns : List (List Note)}
    (hs : m.subs[i]? = some s) (hns : nss[i]? = some ns) {el : Str} (hel : el ∈ s.zaids.map Zaid.element) :
    ((ns.flatten.filter (fun n => decide (n.zaid.element = el))).map Note.ab).sum = 100 := by
  obtain ⟨-, h2⟩ := notes_ok hc hcons hm h
  obtain ⟨ns', hns', hz, hn⟩ := h2 i s hs
  rw [hns] at hns'
  cases hns'
  have hsm : s ∈ m.subs := List.mem_iff_getElem?.2 ⟨_, hs⟩
  have hcs : ∀ z ∈ s.zaids, Canon z := fun z hz => hc z (List.mem_flatMap.2 ⟨s, hsm, hz⟩)
  have h1 : (ns.flatten.filter (fun n => decide (n.zaid.element = el))).map Note.ab =
      (ns.flatten.filter (fun n => decide (n.zaid.element = el))).map (fun n => n.zaid.fraction * (100 / elemSum el Zaid.fraction s.zaids)) := by
    apply List.map_congr_left
    intro n hnm
    obtain ⟨h3, h4⟩ := List.mem_filter.1 hnm
    have h5 : n.zaid.element = el := by simpa using h4
    rw [(hn n h3).2.2.1, h5]
    ring
  have h6 : ((ns.flatten.filter (fun n => decide (n.zaid.element = el))).map Note.zaid) =
      ((collapse s.zaids).flatMap Element.zaids).filter (fun z => decide (z.element = el)) := by
    rw [← hz, List.filter_map]
    rfl
  have hwritten : sumOf (((collapse s.zaids).flatMap Element.zaids).filter (fun z => decide (z.element = el))) Zaid.fraction =
      elemSum el Zaid.fraction s.zaids := by
    have hk := collapse_el hcs (fun x => if x = el then 1 else 0)
    have e1 := total_filter ((collapse s.zaids).flatMap Element.zaids) (fun z => decide (z.element = el))
    have e2 := total_filter s.zaids (fun z => decide (z.element = el))
    unfold total at e1 e2
    unfold elemSum
    rw [e2]
    rw [show sumOf (((collapse s.zaids).flatMap Element.zaids).filter (fun z => decide (z.element = el))) Zaid.fraction =
      ((((collapse s.zaids).flatMap Element.zaids).filter (fun z => decide (z.element = el))).map Zaid.fraction).sum from rfl, e1]
    rw [sumOf_congr (h' := fun z => (if z.element = el then (1 : ℚ) else 0) * z.fraction) (fun z _ => by simp), hk]
    apply sumOf_congr
    intro z _
    simp
  rw [h1]
  have h7 := sumOf_mul (ns.flatten.filter (fun n => decide (n.zaid.element = el))) (fun n => n.zaid.fraction) (100 / elemSum el Zaid.fraction s.zaids)
  have h8 : sumOf (ns.flatten.filter (fun n => decide (n.zaid.element = el))) (fun n => n.zaid.fraction) = elemSum el Zaid.fraction s.zaids := by
    rw [← hwritten, ← h6, sumOf_map]
  rw [h8] at h7
  rw [show ((ns.flatten.filter (fun n => decide (n.zaid.element = el))).map (fun n => n.zaid.fraction * (100 / elemSum el Zaid.fraction s.zaids))).sum =
    sumOf (ns.flatten.filter (fun n => decide (n.zaid.element = el))) (fun n => n.zaid.fraction * (100 / elemSum el Zaid.fraction s.zaids)) from rfl, h7]
  have hne : elemSum el Zaid.fraction s.zaids ≠ 0 := by
    have hmem : el ∈ (collapse s.zaids).map Element.z := by
      rw [collapse_elements, mem_firstOccurrences]
      exact hel
    obtain ⟨e, he, rfl⟩ := List.mem_map.1 hmem
    have hg := collapse_good hcs e he
    obtain ⟨y, hy⟩ := List.exists_mem_of_ne_nil _ hg.1
    have hy2 : y ∈ ns.flatten.map Note.zaid := by
      rw [hz]
      exact List.mem_flatMap.2 ⟨e, he, hy⟩
    obtain ⟨n, hnm, hny⟩ := List.mem_map.1 hy2
    have := (hn n hnm).2.1
    rw [hny, hg.2 y hy] at this
    exact this
  rw [mul_div_cancel₀ _ hne]

/-- When the comments can be made, the simpler model of `_update_info` that the other properties of materials use agrees that it succeeds. -/
theorem notes_updateInfo {m : Material} {lm : LibMan} (hc : ∀ z ∈ m.zaids, Canon z) (hcons : m.tot = 0 → Consistent m)
    (hm : ∀ z ∈ m.zaids, lm.massOf z ≠ 0) {nss : List (List (List Note))} (h : notes m lm = .ok nss) (hne : ∀ s ∈ m.subs, s.zaids ≠ []) :
    ∃ m', m.updateInfo lm = .ok m' := by
  obtain ⟨-, h2⟩ := notes_ok hc hcons hm h
  unfold Material.updateInfo
  rw [if_pos]
  · exact ⟨_, rfl⟩
  · rw [List.all_eq_true]
    intro s hsm
    obtain ⟨i, hs⟩ := List.mem_iff_getElem?.1 hsm
    obtain ⟨ns, hns, hz, hn⟩ := h2 i s hs
    have hcs : ∀ z ∈ s.zaids, Canon z := fun z hz => hc z (List.mem_flatMap.2 ⟨s, hsm, hz⟩)
    have key : ∀ e ∈ collapse s.zaids, e.fraction ≠ 0 ∧ ∃ t, symName lm e.z = some t := by
      intro e he
      have hg := collapse_good hcs e he
      obtain ⟨y, hy⟩ := List.exists_mem_of_ne_nil _ hg.1
      have hy2 : y ∈ ns.flatten.map Note.zaid := by
        rw [hz]
        exact List.mem_flatMap.2 ⟨e, he, hy⟩
      obtain ⟨n, hnm, hny⟩ := List.mem_map.1 hy2
      obtain ⟨-, h3, -, t, ht, -⟩ := hn n hnm
      rw [hny, hg.2 y hy] at h3
      rw [shown_iff, hny, hg.2 y hy] at ht
      exact ⟨by rw [el_fraction hcs he]; exact h3, t, ht⟩
    simp only [Bool.and_eq_true]
    refine ⟨⟨?_, ?_⟩, ?_⟩
    · have := hne s hsm
      cases hzz : s.zaids with
      | nil => exact absurd hzz this
      | cons _ _ => rfl
    · rw [List.all_eq_true]
      intro z hzm
      have hmem : z.element ∈ (collapse s.zaids).map Element.z := by
        rw [collapse_elements, mem_firstOccurrences]
        exact List.mem_map_of_mem hzm
      obtain ⟨e, he, hez⟩ := List.mem_map.1 hmem
      obtain ⟨-, t, ht⟩ := key e he
      rw [hez] at ht
      unfold symName at ht
      unfold LibMan.knows
      cases hp : parseInt z.element with
      | none => simp [hp] at ht
      | some k =>
        simp only [hp, Option.bind_some, Option.map_eq_some_iff] at ht ⊢
        obtain ⟨sym, hsym, -⟩ := ht
        unfold LibMan.symbolOf at hsym
        simp only [Option.map_eq_some_iff] at hsym
        obtain ⟨r, hr, -⟩ := hsym
        rw [List.any_eq_true]
        have hf := List.find?_some hr
        exact ⟨r, List.mem_of_find?_eq_some hr, by simpa using hf⟩
    · rw [List.all_eq_true]
      intro e he
      simpa using (key e he).1

end F4Enix.MatInfo
