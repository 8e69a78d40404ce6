import Verif.Mat.ConvertProps
/-!
# C29-C31, C55-C57: fraction switching, densities, mixtures
-/
namespace F4Enix.Mat
open F4Enix

/-! ### helpers -/

theorem mapE_ok {α β ε : Type} {f : α → Except ε β} {l : List α} {l' : List β}
    (h : mapE f l = .ok l') : List.Forall₂ (fun a b => f a = .ok b) l l' := by
  induction l generalizing l' with
  | nil => simp only [mapE, Except.ok.injEq] at h; subst h; exact .nil
  | cons a l ih =>
    cases hf : f a with
    | error e => simp only [mapE, hf] at h; cases h
    | ok b =>
      cases hr : mapE f l with
      | error e => simp only [mapE, hf, hr] at h; cases h
      | ok bs =>
        simp only [mapE, hf, hr, Except.ok.injEq] at h
        subst h
        exact .cons hf (ih hr)

theorem mapE_all {α β ε : Type} {f : α → Except ε β} {g : α → β} {l : List α}
    (h : ∀ a ∈ l, f a = .ok (g a)) : mapE f l = .ok (l.map g) := by
  induction l with
  | nil => rfl
  | cons a l ih =>
    simp only [mapE, h a (by simp), ih (fun b hb => h b (List.mem_cons_of_mem _ hb)), List.map_cons]

/-- mass of a zaid, 0 when the query fails (specification) -/
def LibMan.massOf (lm : LibMan) (z : Zaid) : ℚ :=
  match lm.mass z with
  | .ok a => a
  | .error _ => 0

theorem norm_ok {lm : LibMan} {g : ℚ → ℚ → ℚ} {zs : List Zaid} {n : ℚ}
    (h : lm.norm g zs = .ok n) :
    (∀ z ∈ zs, lm.mass z = .ok (lm.massOf z)) ∧
    n = sumOf zs (fun z => g (lm.massOf z) z.fraction) := by
  unfold LibMan.norm at h
  cases hm : mapE (lm.massTerm g) zs with
  | error e => simp only [hm] at h; cases h
  | ok l =>
    simp only [hm, Except.ok.injEq] at h
    subst h
    have hf := mapE_ok hm
    clear hm
    induction hf with
    | nil => simp
    | cons h1 _ ih =>
      rename_i a b l₁ l₂ _
      have hma : lm.mass a = .ok (lm.massOf a) := by
        unfold LibMan.massOf
        cases hx : lm.mass a with
        | ok v => rfl
        | error e => simp only [LibMan.massTerm, hx] at h1; cases h1
      constructor
      · intro z hz
        simp only [List.mem_cons] at hz
        rcases hz with rfl | hz
        · exact hma
        · exact ih.1 z hz
      · simp only [LibMan.massTerm, hma, Except.ok.injEq] at h1
        rw [List.sum_cons, sumOf_cons, ih.2, h1]

/-- a submaterial with every fraction replaced (proof) -/
def SubMat.withFractions (s : SubMat) (g : Zaid → ℚ) : SubMat :=
  let zs := s.zaids.map (fun z => { z with fraction := g z })
  { s with zaids := zs, elements := collapse zs }

/-- a material with every fraction replaced (proof) -/
def Material.withFractions (m : Material) (g : Zaid → ℚ) : Material :=
  { m with subs := m.subs.map (fun s => s.withFractions g) }

theorem withFractions_zaids (m : Material) (g : Zaid → ℚ) :
    (m.withFractions g).zaids = m.zaids.map (fun z => { z with fraction := g z }) := by
  simp only [Material.zaids, Material.withFractions]
  generalize m.subs = l
  induction l with
  | nil => rfl
  | cons s l ih =>
    simp only [List.map_cons, List.flatMap_cons, List.map_append, ← ih, SubMat.withFractions]

theorem withFractions_tot (m : Material) (g : Zaid → ℚ) :
    (m.withFractions g).tot = sumOf m.zaids g := by
  simp only [Material.tot, withFractions_zaids, List.map_map]; rfl

theorem mapSub_ok {lm : LibMan} {g : ℚ → ℚ → ℚ} {s : SubMat}
    (hm : ∀ z ∈ s.zaids, lm.mass z = .ok (lm.massOf z)) :
    lm.mapSub g s = .ok (s.withFractions (fun z => g (lm.massOf z) z.fraction)) := by
  unfold LibMan.mapSub
  rw [mapE_all (g := fun z : Zaid => { z with fraction := g (lm.massOf z) z.fraction })]
  · rfl
  · intro z hz
    simp [LibMan.massZaid, hm z hz]

theorem mapSubs_ok {lm : LibMan} {g : ℚ → ℚ → ℚ} {m : Material}
    (hm : ∀ z ∈ m.zaids, lm.mass z = .ok (lm.massOf z)) :
    mapE (lm.mapSub g) m.subs =
      .ok (m.withFractions (fun z => g (lm.massOf z) z.fraction)).subs := by
  unfold Material.withFractions
  apply mapE_all
  intro s hs
  apply mapSub_ok
  intro z hz
  exact hm z (List.mem_flatMap.mpr ⟨s, hs, hz⟩)

/-! ### C29 -/

theorem atom_ne_mass : "atom".toList ≠ "mass".toList := by decide

/-- What switching to mass fractions does to a material in atom fractions. -/
theorem switch_mass_eq {m m' : Material} {lm : LibMan} (h : m.switch "mass".toList lm = .ok m')
    (ht : 0 < m.tot) :
    (∀ z ∈ m.zaids, lm.mass z = .ok (lm.massOf z)) ∧
    sumOf m.zaids (fun z => z.fraction * lm.massOf z) ≠ 0 ∧
    m' = m.withFractions (fun z =>
      (-1 * z.fraction * lm.massOf z) / sumOf m.zaids (fun z => z.fraction * lm.massOf z)) := by
  unfold Material.switch at h
  rw [if_neg (Ne.symm atom_ne_mass), if_pos rfl, if_pos ht] at h
  cases hn : lm.norm (fun a f => f * a) m.zaids with
  | error e => rw [hn] at h; cases h
  | ok n =>
    simp only [hn] at h
    obtain ⟨h1, h2⟩ := norm_ok hn
    by_cases h0 : n = 0
    · rw [if_pos h0] at h; cases h
    · rw [if_neg h0, mapSubs_ok h1] at h
      simp only [Except.ok.injEq] at h
      rw [h2] at h h0
      exact ⟨h1, h0, h.symm⟩

/-- What switching to atom fractions does to a material in mass fractions. -/
theorem switch_atom_eq {m m' : Material} {lm : LibMan} (h : m.switch "atom".toList lm = .ok m')
    (ht : m.tot < 0) :
    (∀ z ∈ m.zaids, lm.mass z = .ok (lm.massOf z)) ∧
    sumOf m.zaids (fun z => -1 * z.fraction / lm.massOf z) ≠ 0 ∧
    m' = m.withFractions (fun z =>
      (-1 * z.fraction / lm.massOf z) / sumOf m.zaids (fun z => -1 * z.fraction / lm.massOf z)) := by
  unfold Material.switch at h
  rw [if_pos rfl, if_pos ht] at h
  cases hn : lm.norm (fun a f => -1 * f / a) m.zaids with
  | error e => rw [hn] at h; cases h
  | ok n =>
    simp only [hn] at h
    obtain ⟨h1, h2⟩ := norm_ok hn
    by_cases h0 : n = 0
    · rw [if_pos h0] at h; cases h
    · rw [if_neg h0, mapSubs_ok h1] at h
      simp only [Except.ok.injEq] at h
      rw [h2] at h h0
      exact ⟨h1, h0, h.symm⟩

theorem sumOf_div {α : Type} (l : List α) (g : α → ℚ) (c : ℚ) :
    sumOf l (fun a => g a / c) = sumOf l g / c := by
  induction l with
  | nil => simp
  | cons a l ih => rw [sumOf_cons, sumOf_cons, ih]; ring

theorem sumOf_mul {α : Type} (l : List α) (g : α → ℚ) (c : ℚ) :
    sumOf l (fun a => g a * c) = sumOf l g * c := by
  induction l with
  | nil => simp
  | cons a l ih => rw [sumOf_cons, sumOf_cons, ih]; ring

theorem tot_eq_sumOf (m : Material) : m.tot = sumOf m.zaids Zaid.fraction := rfl

/-- **C29.** Switching atom fractions to mass fractions: each zaid gets minus its share of the total
`fraction × mass`, and the material totals −1. -/
theorem switch_mass (m : Material) (lm : LibMan) {m' : Material}
    (h : m.switch "mass".toList lm = .ok m') (ht : 0 < m.tot) :
    m'.zaids = m.zaids.map (fun z => { z with
      fraction := -(z.fraction * lm.massOf z / (m.zaids.map (fun y => y.fraction * lm.massOf y)).sum) }) ∧
    m'.tot = -1 := by
  obtain ⟨-, h0, rfl⟩ := switch_mass_eq h ht
  constructor
  · rw [withFractions_zaids]
    apply List.map_congr_left
    intro z _
    simp only [Zaid.mk.injEq, and_self, and_true]
    rw [show (m.zaids.map (fun y => y.fraction * lm.massOf y)).sum =
      sumOf m.zaids (fun z => z.fraction * lm.massOf z) from rfl]
    ring
  · rw [withFractions_tot, sumOf_div]
    have : sumOf m.zaids (fun z => -1 * z.fraction * lm.massOf z) =
        sumOf m.zaids (fun z => (z.fraction * lm.massOf z) * (-1)) :=
      sumOf_congr (fun z _ => by ring)
    rw [this, sumOf_mul]; field_simp

/-- **C29.** Switching mass fractions to atom fractions: each zaid gets its share of the total
`fraction / mass`, and the material totals 1. -/
theorem switch_atom (m : Material) (lm : LibMan) {m' : Material}
    (h : m.switch "atom".toList lm = .ok m') (ht : m.tot < 0) :
    m'.zaids = m.zaids.map (fun z => { z with
      fraction := z.fraction / lm.massOf z / (m.zaids.map (fun y => y.fraction / lm.massOf y)).sum }) ∧
    m'.tot = 1 := by
  obtain ⟨-, h0, rfl⟩ := switch_atom_eq h ht
  have h1 : sumOf m.zaids (fun z => -1 * z.fraction / lm.massOf z) =
      -sumOf m.zaids (fun z => z.fraction / lm.massOf z) := by
    have : sumOf m.zaids (fun z => -1 * z.fraction / lm.massOf z) =
        sumOf m.zaids (fun z => (z.fraction / lm.massOf z) * (-1)) :=
      sumOf_congr (fun z _ => by ring)
    rw [this, sumOf_mul]; ring
  constructor
  · rw [withFractions_zaids]
    apply List.map_congr_left
    intro z _
    simp only [Zaid.mk.injEq, and_self, and_true]
    rw [show (m.zaids.map (fun y => y.fraction / lm.massOf y)).sum =
      sumOf m.zaids (fun z => z.fraction / lm.massOf z) from rfl, h1]
    rw [show -1 * z.fraction / lm.massOf z = -(z.fraction / lm.massOf z) by ring, neg_div_neg_eq]
  · rw [withFractions_tot, sumOf_div]; exact div_self h0

/-- **C29.** Switching to the type the material already has changes nothing. -/
theorem switch_noop (m : Material) (lm : LibMan) :
    (0 ≤ m.tot → m.switch "atom".toList lm = .ok m) ∧
    (m.tot ≤ 0 → m.switch "mass".toList lm = .ok m) := by
  constructor
  · intro h
    unfold Material.switch
    rw [if_pos rfl, if_neg (not_lt.mpr h)]
  · intro h
    unfold Material.switch
    rw [if_neg (Ne.symm atom_ne_mass), if_pos rfl, if_neg (not_lt.mpr h)]

/-- **C29.** Any other type is refused. -/
theorem switch_refuses (m : Material) (lm : LibMan) {t : Str} (h1 : t ≠ "atom".toList)
    (h2 : t ≠ "mass".toList) : m.switch t lm = .error .keyError := by
  unfold Material.switch
  rw [if_neg h1, if_neg h2]

theorem massOf_withFraction (lm : LibMan) (z : Zaid) (f : ℚ) :
    lm.massOf { z with fraction := f } = lm.massOf z := rfl

/-- **C29.** Atom → mass → atom gives the original divided by its total. -/
theorem switch_round_atom (m : Material) (lm : LibMan) {m1 m2 : Material} (ht : 0 < m.tot)
    (hm : ∀ z ∈ m.zaids, lm.massOf z ≠ 0)
    (h1 : m.switch "mass".toList lm = .ok m1) (h2 : m1.switch "atom".toList lm = .ok m2) :
    m2.zaids = m.zaids.map (fun z => { z with fraction := z.fraction / m.tot }) := by
  have ht1 : m1.tot < 0 := by rw [(switch_mass m lm h1 ht).2]; norm_num
  obtain ⟨hz1, -⟩ := switch_mass m lm h1 ht
  obtain ⟨hz2, -⟩ := switch_atom m1 lm h2 ht1
  obtain ⟨-, h0, -⟩ := switch_mass_eq h1 ht
  rw [hz2, hz1, List.map_map, List.map_map]
  apply List.map_congr_left
  intro z hz
  simp only [Function.comp, massOf_withFraction, Zaid.mk.injEq, and_self, and_true]
  set N := (m.zaids.map (fun y => y.fraction * lm.massOf y)).sum with hN
  have hN0 : N ≠ 0 := h0
  have hsum : (m.zaids.map ((fun y : Zaid => y.fraction / lm.massOf y) ∘
      fun z : Zaid => ({ z with fraction := -(z.fraction * lm.massOf z / N) } : Zaid))).sum =
      -(m.tot / N) := by
    have : (m.zaids.map ((fun y : Zaid => y.fraction / lm.massOf y) ∘
      fun z : Zaid => ({ z with fraction := -(z.fraction * lm.massOf z / N) } : Zaid))) =
      m.zaids.map (fun z => z.fraction * (-(1 / N))) := by
      apply List.map_congr_left
      intro y hy
      simp only [Function.comp, massOf_withFraction]
      have := hm y hy
      field_simp
    rw [this]
    have := sumOf_mul m.zaids Zaid.fraction (-(1 / N))
    rw [tot_eq_sumOf]
    simp only [sumOf] at this ⊢
    rw [this]; ring
  rw [hsum]
  have ha := hm z hz
  have htn : m.tot ≠ 0 := ne_of_gt ht
  field_simp

/-- **C29.** Mass → atom → mass gives the original divided by the absolute value of its total. -/
theorem switch_round_mass (m : Material) (lm : LibMan) {m1 m2 : Material} (ht : m.tot < 0)
    (hm : ∀ z ∈ m.zaids, lm.massOf z ≠ 0)
    (h1 : m.switch "atom".toList lm = .ok m1) (h2 : m1.switch "mass".toList lm = .ok m2) :
    m2.zaids = m.zaids.map (fun z => { z with fraction := z.fraction / |m.tot| }) := by
  have ht1 : 0 < m1.tot := by rw [(switch_atom m lm h1 ht).2]; norm_num
  obtain ⟨hz1, -⟩ := switch_atom m lm h1 ht
  obtain ⟨hz2, -⟩ := switch_mass m1 lm h2 ht1
  obtain ⟨-, h0, -⟩ := switch_atom_eq h1 ht
  rw [hz2, hz1, List.map_map, List.map_map, abs_of_neg ht]
  apply List.map_congr_left
  intro z hz
  simp only [Function.comp, massOf_withFraction, Zaid.mk.injEq, and_self, and_true]
  set N := (m.zaids.map (fun y => y.fraction / lm.massOf y)).sum with hN
  have hN0 : N ≠ 0 := by
    intro hc
    apply h0
    have : sumOf m.zaids (fun z => -1 * z.fraction / lm.massOf z) =
        sumOf m.zaids (fun z => (z.fraction / lm.massOf z) * (-1)) :=
      sumOf_congr (fun z _ => by ring)
    rw [this, sumOf_mul, show sumOf m.zaids (fun z => z.fraction / lm.massOf z) = N from rfl, hc]
    ring
  have hsum : (m.zaids.map ((fun y : Zaid => y.fraction * lm.massOf y) ∘
      fun z : Zaid => ({ z with fraction := z.fraction / lm.massOf z / N } : Zaid))).sum =
      m.tot / N := by
    have : (m.zaids.map ((fun y : Zaid => y.fraction * lm.massOf y) ∘
      fun z : Zaid => ({ z with fraction := z.fraction / lm.massOf z / N } : Zaid))) =
      m.zaids.map (fun z => z.fraction / N) := by
      apply List.map_congr_left
      intro y hy
      simp only [Function.comp, massOf_withFraction]
      have := hm y hy
      field_simp
    rw [this]
    have := sumOf_div m.zaids Zaid.fraction N
    rw [tot_eq_sumOf]
    simp only [sumOf] at this ⊢
    rw [this]
  rw [hsum]
  have ha := hm z hz
  have htn : m.tot ≠ 0 := ne_of_lt ht
  field_simp

/-- **C56.** With `inplace=True`, the submaterials *returned* by a switch that is actually made carry
no zaids at all. -/
theorem switch_inplace_returns_empty (m : Material) (lm : LibMan) {l : List SubMat}
    (ht : 0 < m.tot) (h : m.switchReturned "mass".toList lm = .ok l) :
    l.length = m.subs.length ∧ ∀ s ∈ l, s.zaids = [] ∧ s.elements = [] := by
  unfold Material.switchReturned at h
  cases hs : m.switch "mass".toList lm with
  | error e => rw [hs] at h; cases h
  | ok m' =>
    simp only [hs] at h
    rw [if_pos (by simp [ht])] at h
    simp only [Except.ok.injEq] at h
    subst h
    refine ⟨by simp, ?_⟩
    intro s hs'
    simp only [List.mem_map] at hs'
    obtain ⟨a, -, rfl⟩ := hs'
    exact ⟨rfl, rfl⟩

/-! ### C30 -/

/-- mean atomic mass of a material, from atom fractions or from mass fractions (specification) -/
def Material.meanMass (m : Material) (lm : LibMan) : ℚ :=
  if 0 < m.tot then (m.zaids.map (fun z => z.fraction * lm.massOf z)).sum / m.tot
  else m.tot / (m.zaids.map (fun z => z.fraction / lm.massOf z)).sum

theorem tableMass_massOf {lm : LibMan} {z : Zaid} {a : ℚ} (h : lm.tableMass z = .ok a) :
    lm.massOf z = a := by
  unfold LibMan.tableMass at h
  unfold LibMan.massOf LibMan.mass
  cases hf : lm.isos.find? (fun r => decide (r.idx = z.num)) with
  | none => rw [hf] at h; cases h
  | some r => rw [hf] at h; cases h; simp

theorem wsum_ok {lm : LibMan} {g : ℚ → ℚ → ℚ} {zs : List Zaid} {n : ℚ}
    (h : lm.wsum g zs = .ok n) :
    n = sumOf zs (fun z => g (lm.massOf z) z.fraction) := by
  unfold LibMan.wsum at h
  cases hm : mapE (lm.tableTerm g) zs with
  | error e => simp only [hm] at h; cases h
  | ok l =>
    simp only [hm, Except.ok.injEq] at h
    subst h
    have hf := mapE_ok hm
    clear hm
    induction hf with
    | nil => simp
    | cons h1 _ ih =>
      rename_i a b l₁ l₂ _
      cases hx : lm.tableMass a with
      | error e => simp only [LibMan.tableTerm, hx] at h1; cases h1
      | ok v =>
        simp only [LibMan.tableTerm, hx, Except.ok.injEq] at h1
        rw [List.sum_cons, sumOf_cons, ih, tableMass_massOf hx, h1]

/-- switching does not change the mean atomic mass -/
theorem switch_meanMass {m m' : Material} {lm : LibMan} {t : Str} (h : m.switch t lm = .ok m')
    (hm : ∀ z ∈ m.zaids, lm.massOf z ≠ 0) :
    m'.meanMass lm = m.meanMass lm ∧ (∀ z ∈ m'.zaids, lm.massOf z ≠ 0) ∧
      (m.tot ≠ 0 → m'.tot ≠ 0 ∧ (t = "atom".toList → 0 < m'.tot) ∧
        (t = "mass".toList → m'.tot < 0)) := by
  by_cases h1 : t = "atom".toList
  · subst h1
    by_cases ht : m.tot < 0
    · obtain ⟨hz, htot⟩ := switch_atom m lm h ht
      obtain ⟨-, h0, -⟩ := switch_atom_eq h ht
      set N := (m.zaids.map (fun y => y.fraction / lm.massOf y)).sum with hN
      have hN0 : N ≠ 0 := by
        intro hc
        apply h0
        have : sumOf m.zaids (fun z => -1 * z.fraction / lm.massOf z) =
            sumOf m.zaids (fun z => (z.fraction / lm.massOf z) * (-1)) :=
          sumOf_congr (fun z _ => by ring)
        rw [this, sumOf_mul,
          show sumOf m.zaids (fun z => z.fraction / lm.massOf z) = N from rfl, hc]
        ring
      refine ⟨?_, ?_, ?_⟩
      · unfold Material.meanMass
        rw [htot, if_pos (by norm_num), if_neg (not_lt.mpr (le_of_lt ht)), hz, List.map_map]
        have : (m.zaids.map ((fun z : Zaid => z.fraction * lm.massOf z) ∘
            fun z : Zaid => ({ z with fraction := z.fraction / lm.massOf z / N } : Zaid))) =
            m.zaids.map (fun z => z.fraction / N) := by
          apply List.map_congr_left
          intro y hy
          simp only [Function.comp, massOf_withFraction]
          have := hm y hy
          field_simp
        rw [this]
        have := sumOf_div m.zaids Zaid.fraction N
        rw [tot_eq_sumOf]
        simp only [sumOf] at this ⊢
        rw [this, ← hN]; simp
      · rw [hz]
        intro z hz'
        simp only [List.mem_map] at hz'
        obtain ⟨y, hy, rfl⟩ := hz'
        exact hm y hy
      · intro _
        rw [htot]
        exact ⟨by norm_num, fun _ => by norm_num, fun hc => absurd hc atom_ne_mass⟩
    · have := (switch_noop m lm).1 (not_lt.mp ht)
      rw [this] at h
      cases h
      refine ⟨rfl, hm, fun hne => ⟨hne, fun _ => lt_of_le_of_ne (not_lt.mp ht) (Ne.symm hne),
        fun hc => absurd hc atom_ne_mass⟩⟩
  by_cases h2 : t = "mass".toList
  · subst h2
    by_cases ht : 0 < m.tot
    · obtain ⟨hz, htot⟩ := switch_mass m lm h ht
      obtain ⟨-, h0, -⟩ := switch_mass_eq h ht
      set N := (m.zaids.map (fun y => y.fraction * lm.massOf y)).sum with hN
      have hN0 : N ≠ 0 := h0
      refine ⟨?_, ?_, ?_⟩
      · unfold Material.meanMass
        rw [htot, if_neg (by norm_num), if_pos ht, hz, List.map_map]
        have : (m.zaids.map ((fun z : Zaid => z.fraction / lm.massOf z) ∘
            fun z : Zaid => ({ z with fraction := -(z.fraction * lm.massOf z / N) } : Zaid))) =
            m.zaids.map (fun z => z.fraction * (-(1 / N))) := by
          apply List.map_congr_left
          intro y hy
          simp only [Function.comp, massOf_withFraction]
          have := hm y hy
          field_simp
        rw [this]
        have := sumOf_mul m.zaids Zaid.fraction (-(1 / N))
        have htn : sumOf m.zaids Zaid.fraction ≠ 0 := by rw [← tot_eq_sumOf]; exact ne_of_gt ht
        rw [tot_eq_sumOf]
        simp only [sumOf] at this htn ⊢
        rw [this]
        rw [← hN]
        field_simp
      · rw [hz]
        intro z hz'
        simp only [List.mem_map] at hz'
        obtain ⟨y, hy, rfl⟩ := hz'
        exact hm y hy
      · intro _
        rw [htot]
        exact ⟨by norm_num, fun hc => absurd hc.symm atom_ne_mass, fun _ => by norm_num⟩
    · have := (switch_noop m lm).2 (not_lt.mp ht)
      rw [this] at h
      cases h
      refine ⟨rfl, hm, fun hne => ⟨hne, fun hc => absurd hc.symm atom_ne_mass,
        fun _ => lt_of_le_of_ne (not_lt.mp ht) hne⟩⟩
  · rw [switch_refuses m lm h1 h2] at h; cases h

/-- factor between mass and atom densities (specification) -/
def unitFactor : ℚ := avogadro * (1 / 10 ^ 24)

theorem unitFactor_ne : unitFactor ≠ 0 := by
  unfold unitFactor avogadro; norm_num

/-- `get_tad` in closed form; the mean atomic mass is not affected by the query. -/
theorem tad_eq {m m' : Material} {lm : LibMan} {d r : ℚ} (h : m.tad d lm = .ok (r, m'))
    (hm : ∀ z ∈ m.zaids, lm.massOf z ≠ 0) (htot : m.tot ≠ 0) :
    r = d / m.meanMass lm * unitFactor ∧ m.meanMass lm ≠ 0 ∧ m'.meanMass lm = m.meanMass lm ∧
      (∀ z ∈ m'.zaids, lm.massOf z ≠ 0) ∧ 0 < m'.tot ∧ m.switch "atom".toList lm = .ok m' := by
  unfold Material.tad at h
  cases hs : m.switch "atom".toList lm with
  | error e => rw [hs] at h; cases h
  | ok m1 =>
    simp only [hs] at h
    obtain ⟨h1, h2, h3⟩ := switch_meanMass hs hm
    obtain ⟨h4, h5, -⟩ := h3 htot
    have hpos := h5 rfl
    rw [if_neg h4] at h
    cases hw : lm.wsum (fun a f => f / m1.tot * a) m1.zaids with
    | error e => simp only [hw] at h; cases h
    | ok mn =>
      simp only [hw] at h
      have hmn := wsum_ok hw
      have hmean : mn = m1.meanMass lm := by
        rw [hmn, Material.meanMass, if_pos hpos]
        have : sumOf m1.zaids (fun z => z.fraction / m1.tot * lm.massOf z) =
            sumOf m1.zaids (fun z => (z.fraction * lm.massOf z) / m1.tot) :=
          sumOf_congr (fun z _ => by ring)
        rw [this, sumOf_div]; rfl
      by_cases h0 : mn = 0
      · rw [if_pos h0] at h; cases h
      · rw [if_neg h0] at h
        simp only [Except.ok.injEq, Prod.mk.injEq] at h
        obtain ⟨hr, rfl⟩ := h
        rw [hmean, h1] at hr h0
        exact ⟨by rw [← hr, unitFactor]; ring, h0, h1, h2, hpos, rfl⟩

/-- `get_density` in closed form. -/
theorem density_eq {m m' : Material} {lm : LibMan} {t r : ℚ} (h : m.density t lm = .ok (r, m'))
    (hm : ∀ z ∈ m.zaids, lm.massOf z ≠ 0) (htot : m.tot ≠ 0) :
    r = t / unitFactor * m.meanMass lm ∧ m.meanMass lm ≠ 0 ∧ m'.meanMass lm = m.meanMass lm ∧
      (∀ z ∈ m'.zaids, lm.massOf z ≠ 0) ∧ m'.tot < 0 ∧ m.switch "mass".toList lm = .ok m' := by
  unfold Material.density at h
  cases hs : m.switch "mass".toList lm with
  | error e => rw [hs] at h; cases h
  | ok m1 =>
    simp only [hs] at h
    obtain ⟨h1, h2, h3⟩ := switch_meanMass hs hm
    obtain ⟨h4, -, h5⟩ := h3 htot
    have hneg := h5 rfl
    rw [if_neg h4] at h
    cases hw : lm.wsum (fun a f => f / m1.tot / a) m1.zaids with
    | error e => simp only [hw] at h; cases h
    | ok mr =>
      simp only [hw] at h
      have hmr := wsum_ok hw
      have hmean : 1 / mr = m1.meanMass lm := by
        rw [hmr, Material.meanMass, if_neg (not_lt.mpr (le_of_lt hneg))]
        have : sumOf m1.zaids (fun z => z.fraction / m1.tot / lm.massOf z) =
            sumOf m1.zaids (fun z => (z.fraction / lm.massOf z) / m1.tot) :=
          sumOf_congr (fun z _ => by ring)
        rw [this, sumOf_div, one_div_div]; rfl
      by_cases h0 : mr = 0
      · rw [if_pos h0] at h; cases h
      · rw [if_neg h0] at h
        simp only [Except.ok.injEq, Prod.mk.injEq] at h
        obtain ⟨hr, rfl⟩ := h
        have h0' : m1.meanMass lm ≠ 0 := by rw [← hmean]; exact one_div_ne_zero h0
        rw [hmean, h1] at hr
        rw [h1] at h0'
        refine ⟨?_, h0', h1, h2, hneg, rfl⟩
        rw [← hr, unitFactor]
        have : avogadro ≠ 0 := by unfold avogadro; norm_num
        field_simp

/-- **C30.** The density computed back from the total atom density is the density one started from,
both on the same material and on the material left behind by the first query. -/
theorem density_of_tad {m m1 m2 m3 : Material} {lm : LibMan} {d t d2 d3 : ℚ}
    (hm : ∀ z ∈ m.zaids, lm.massOf z ≠ 0) (htot : m.tot ≠ 0)
    (h1 : m.tad d lm = .ok (t, m1)) (h2 : m.density t lm = .ok (d2, m2))
    (h3 : m1.density t lm = .ok (d3, m3)) : d2 = d ∧ d3 = d := by
  obtain ⟨ht, hM, hmm, hm1, hp1, -⟩ := tad_eq h1 hm htot
  obtain ⟨hd2, -⟩ := density_eq h2 hm htot
  obtain ⟨hd3, -⟩ := density_eq h3 hm1 (ne_of_gt hp1)
  have hu := unitFactor_ne
  refine ⟨?_, ?_⟩
  · rw [hd2, ht]; field_simp
  · rw [hd3, hmm, ht]; field_simp

/-- **C30.** … and the other way round. -/
theorem tad_of_density {m m1 m2 m3 : Material} {lm : LibMan} {d t t2 t3 : ℚ}
    (hm : ∀ z ∈ m.zaids, lm.massOf z ≠ 0) (htot : m.tot ≠ 0)
    (h1 : m.density t lm = .ok (d, m1)) (h2 : m.tad d lm = .ok (t2, m2))
    (h3 : m1.tad d lm = .ok (t3, m3)) : t2 = t ∧ t3 = t := by
  obtain ⟨ht, hM, hmm, hm1, hp1, -⟩ := density_eq h1 hm htot
  obtain ⟨hd2, -⟩ := tad_eq h2 hm htot
  obtain ⟨hd3, -⟩ := tad_eq h3 hm1 (ne_of_lt hp1)
  have hu := unitFactor_ne
  refine ⟨?_, ?_⟩
  · rw [hd2, ht]; field_simp
  · rw [hd3, hmm, ht]; field_simp

/-- **C30.** Both queries are proportional to their argument. -/
theorem tad_proportional {m m1 m2 : Material} {lm : LibMan} {d c t t2 : ℚ}
    (hm : ∀ z ∈ m.zaids, lm.massOf z ≠ 0) (htot : m.tot ≠ 0)
    (h1 : m.tad d lm = .ok (t, m1)) (h2 : m.tad (c * d) lm = .ok (t2, m2)) : t2 = c * t := by
  rw [(tad_eq h1 hm htot).1, (tad_eq h2 hm htot).1]; ring

theorem density_proportional {m m1 m2 : Material} {lm : LibMan} {d c t t2 : ℚ}
    (hm : ∀ z ∈ m.zaids, lm.massOf z ≠ 0) (htot : m.tot ≠ 0)
    (h1 : m.density d lm = .ok (t, m1)) (h2 : m.density (c * d) lm = .ok (t2, m2)) : t2 = c * t := by
  rw [(density_eq h1 hm htot).1, (density_eq h2 hm htot).1]; ring

theorem mass_of_table {lm : LibMan} {z : Zaid} {a : ℚ} (h : lm.tableMass z = .ok a) :
    lm.mass z = .ok a := by
  unfold LibMan.tableMass at h
  unfold LibMan.mass
  cases hf : lm.isos.find? (fun r => decide (r.idx = z.num)) with
  | none => rw [hf] at h; cases h
  | some r => rw [hf] at h; cases h; rfl

/-- **C30.** Both queries succeed for every non-empty material of isotopes of the table in atom
fractions (the hypotheses above are met). -/
theorem queries_succeed (m : Material) (lm : LibMan) (hne : m.zaids ≠ [])
    (hpos : ∀ z ∈ m.zaids, 0 < z.fraction)
    (htab : ∀ z ∈ m.zaids, ∃ a, lm.tableMass z = .ok a ∧ 0 < a) (x : ℚ) :
    (∃ t, m.tad x lm = .ok (t, m)) ∧ ∃ d m', m.density x lm = .ok (d, m') := by
  have htot : 0 < m.tot := by rw [tot_eq_sumOf]; exact sumOf_pos hne hpos
  have hmo : ∀ z ∈ m.zaids, lm.tableMass z = .ok (lm.massOf z) ∧ 0 < lm.massOf z := by
    intro z hz
    obtain ⟨a, ha, hp⟩ := htab z hz
    rw [tableMass_massOf ha]; exact ⟨ha, hp⟩
  have hw : ∀ (g : ℚ → ℚ → ℚ) (l : List Zaid),
      (∀ z ∈ l, lm.tableMass z = .ok (lm.massOf z)) →
      lm.wsum g l = .ok (sumOf l (fun z => g (lm.massOf z) z.fraction)) := by
    intro g l hl
    unfold LibMan.wsum
    rw [mapE_all (g := fun z => g (lm.massOf z) z.fraction)]
    · rfl
    · intro z hz; simp only [LibMan.tableTerm, hl z hz]
  constructor
  · unfold Material.tad
    rw [(switch_noop m lm).1 (le_of_lt htot)]
    simp only
    rw [if_neg (ne_of_gt htot), hw _ _ (fun z hz => (hmo z hz).1)]
    simp only
    rw [if_neg]
    · exact ⟨_, rfl⟩
    · refine ne_of_gt (sumOf_pos hne ?_)
      intro z hz
      exact mul_pos (div_pos (hpos z hz) htot) (hmo z hz).2
  · have hnorm : lm.norm (fun a f => f * a) m.zaids =
        .ok (sumOf m.zaids (fun z => z.fraction * lm.massOf z)) := by
      unfold LibMan.norm
      rw [mapE_all (g := fun z => z.fraction * lm.massOf z)]
      · rfl
      · intro z hz; simp only [LibMan.massTerm, mass_of_table (hmo z hz).1]
    have hN : 0 < sumOf m.zaids (fun z => z.fraction * lm.massOf z) :=
      sumOf_pos hne (fun z hz => mul_pos (hpos z hz) (hmo z hz).2)
    have hsw : ∃ m', m.switch "mass".toList lm = .ok m' := by
      unfold Material.switch
      rw [if_neg (Ne.symm atom_ne_mass), if_pos rfl, if_pos htot, hnorm]
      simp only
      rw [if_neg (ne_of_gt hN), mapSubs_ok (fun z hz => mass_of_table (hmo z hz).1)]
      exact ⟨_, rfl⟩
    obtain ⟨m', hs⟩ := hsw
    obtain ⟨hz', htot'⟩ := switch_mass m lm hs htot
    have htab' : ∀ z ∈ m'.zaids, lm.tableMass z = .ok (lm.massOf z) := by
      rw [hz']
      intro z hz
      simp only [List.mem_map] at hz
      obtain ⟨y, hy, rfl⟩ := hz
      exact (hmo y hy).1
    unfold Material.density
    rw [hs]
    simp only
    rw [if_neg (by rw [htot']; norm_num), hw _ _ htab']
    simp only
    rw [if_neg]
    · exact ⟨_, _, rfl⟩
    · refine ne_of_gt (sumOf_pos ?_ ?_)
      · rw [hz']; simpa using hne
      · rw [htot', hz']
        intro z hz
        simp only [List.mem_map] at hz
        obtain ⟨y, hy, rfl⟩ := hz
        simp only [massOf_withFraction]
        have h1 := hpos y hy
        have h2 := (hmo y hy).2
        have h3 : 0 < y.fraction * lm.massOf y / (m.zaids.map (fun y => y.fraction * lm.massOf y)).sum :=
          div_pos (mul_pos h1 h2) hN
        apply div_pos _ h2
        rw [neg_div_neg_eq, div_one]; exact h3

/-- **C30 (limit).** A material with a natural zaid has no density query: `KeyError`, although
`switch_fraction` accepts it. -/
theorem tad_natural_fails {m : Material} {lm : LibMan} {d : ℚ} (hpos : 0 < m.tot)
    (h : ∃ z ∈ m.zaids, lm.tableMass z = .error .keyError) : m.tad d lm = .error .keyError := by
  unfold Material.tad
  rw [(switch_noop m lm).1 (le_of_lt hpos)]
  simp only
  rw [if_neg (ne_of_gt hpos)]
  have hterr : ∀ (z : Zaid) (e : PyErr), lm.tableMass z = .error e → e = .keyError := by
    intro z e he
    unfold LibMan.tableMass at he
    split at he <;> cases he
    rfl
  have : ∀ l : List Zaid, (∃ z ∈ l, lm.tableMass z = .error .keyError) →
      mapE (lm.tableTerm (fun a f => f / m.tot * a)) l = .error .keyError := by
    intro l
    induction l with
    | nil => rintro ⟨z, hz, -⟩; simp at hz
    | cons y l ih =>
      rintro ⟨z, hz, hze⟩
      cases hy : lm.tableMass y with
      | error e =>
        have := hterr y e hy
        subst this
        simp [mapE, LibMan.tableTerm, hy]
      | ok a =>
        have : z ∈ l := by
          simp only [List.mem_cons] at hz
          rcases hz with rfl | hz
          · rw [hy] at hze; cases hze
          · exact hz
        simp only [mapE, LibMan.tableTerm, hy]
        rw [ih ⟨z, this, hze⟩]
  unfold LibMan.wsum
  rw [this m.zaids h]

end F4Enix.Mat
