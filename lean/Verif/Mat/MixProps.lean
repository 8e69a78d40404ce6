import Verif.Mat.SwitchProps
/-!
# C31, C55, C57, C58: mixtures, queries that change the material, consistency of what is written
-/
namespace F4Enix.Mat
open F4Enix

/-! ### C31 -/

/-- all zaids of a list of submaterials (specification) -/
def subZaids (l : List SubMat) : List Zaid := l.flatMap SubMat.zaids

theorem scale_total (l : List SubMat) (k : ℚ) :
    subZaids (l.map (fun s => { s.scale k with keys := [] })) =
      (subZaids l).map (fun z => { z with fraction := z.fraction * k }) := by
  simp only [subZaids]
  induction l with
  | nil => rfl
  | cons s l ih => simp only [List.map_cons, List.flatMap_cons, List.map_append, ← ih, SubMat.scale]

theorem total_scaled (zs : List Zaid) (k : ℚ) :
    total (zs.map (fun z => { z with fraction := z.fraction * k })) = total zs * k := by
  have := sumOf_mul zs Zaid.fraction k
  simp only [total, List.map_map, sumOf] at this ⊢
  rw [← this]; rfl

/-- **C31 (one source).** The submaterials taken from one source total the requested percentage,
negative for mass fractions, and keep the proportions of the source in the requested fraction type. -/
theorem source_share {m : Material} {p : ℚ} {ftype : Str} {lm : LibMan} {l : List SubMat}
    (h : sourceSubs m p ftype lm = .ok l) :
    total (subZaids l) = (if ftype = "mass".toList then -p else p) ∧
    (ftype = "atom".toList ∨ ftype = "mass".toList) ∧
    ∃ m' k, m.switch ftype lm = .ok m' ∧
      subZaids l = m'.zaids.map (fun z => { z with fraction := z.fraction * k }) := by
  unfold sourceSubs at h
  cases hs : m.switch ftype lm with
  | error e => rw [hs] at h; cases h
  | ok m' =>
    simp only [hs] at h
    by_cases h1 : m'.subs = []
    · rw [if_pos h1] at h; cases h
    rw [if_neg h1] at h
    by_cases h2 : m'.tot = 0
    · rw [if_pos h2] at h; cases h
    rw [if_neg h2] at h
    simp only [Except.ok.injEq] at h
    subst h
    refine ⟨?_, ?_, ?_⟩
    · rw [scale_total, total_scaled]
      have : total (subZaids m'.subs) = m'.tot := rfl
      rw [this]
      by_cases hf : ftype = "mass".toList
      · simp only [if_pos hf]; field_simp
      · simp only [if_neg hf]; field_simp
    · by_contra hc
      rw [not_or] at hc
      rw [switch_refuses m lm hc.1 hc.2] at hs; cases hs
    · exact ⟨m', _, rfl, scale_total _ _⟩

theorem mix_parts {ms : List Material} {ftype : Str} {lm : LibMan} {req : List (Str × ℚ)}
    {subs : List SubMat} (h : mixSubs ms ftype lm req = .ok subs) :
    ∃ parts : List (List SubMat), subs = parts.flatten ∧
      List.Forall₂ (fun q part => ∃ m, lookup ms q.1 = some m ∧
        sourceSubs m q.2 ftype lm = .ok part) req parts := by
  induction req generalizing subs with
  | nil => simp only [mixSubs, Except.ok.injEq] at h; subst h; exact ⟨[], rfl, .nil⟩
  | cons q req ih =>
    obtain ⟨name, p⟩ := q
    cases hl : lookup ms name with
    | none => simp only [mixSubs, hl] at h; cases h
    | some m =>
      cases hs : sourceSubs m p ftype lm with
      | error e => simp only [mixSubs, hl, hs] at h; cases h
      | ok l =>
        cases hr : mixSubs ms ftype lm req with
        | error e => simp only [mixSubs, hl, hs, hr] at h; cases h
        | ok l' =>
          simp only [mixSubs, hl, hs, hr, Except.ok.injEq] at h
          obtain ⟨parts, rfl, hf⟩ := ih hr
          exact ⟨l :: parts, by rw [← h]; rfl, .cons ⟨m, hl, hs⟩ hf⟩

theorem updateInfo_ok {m m' : Material} {lm : LibMan} (h : m.updateInfo lm = .ok m') :
    m'.subs.map SubMat.zaids = m.subs.map SubMat.zaids ∧
    (∀ s ∈ m'.subs, s.elements = collapse s.zaids ∧ s.zaids ≠ []) ∧ m'.name = m.name := by
  unfold Material.updateInfo at h
  split at h
  · rename_i hc
    simp only [Except.ok.injEq] at h
    subst h
    refine ⟨?_, ?_, rfl⟩
    · simp only [List.map_map]; rfl
    · intro s hs
      simp only [List.mem_map] at hs
      obtain ⟨a, ha, rfl⟩ := hs
      refine ⟨rfl, ?_⟩
      have := (List.all_eq_true.mp hc) a ha
      simp only [Bool.and_eq_true, Bool.not_eq_true', List.isEmpty_eq_false_iff] at this
      exact this.1.1
  · cases h

theorem subZaids_congr {l l' : List SubMat} (h : l.map SubMat.zaids = l'.map SubMat.zaids) :
    subZaids l = subZaids l' := by
  simp only [subZaids, List.flatMap_def, h]

theorem subZaids_flatten (parts : List (List SubMat)) :
    subZaids parts.flatten = parts.flatMap subZaids := by
  induction parts with
  | nil => rfl
  | cons a parts ih =>
    rw [List.flatten_cons, List.flatMap_cons, ← ih]
    simp [subZaids]

/-- **C31.** A generated mixture consists of one group of submaterials per requested source, in order,
and the zaids of each group total the requested percentage (negative for mass fractions). -/
theorem generate_shares {ms ms' : List Material} {names : List Str} {ps : List ℚ} {newlib : Str}
    {lm : LibMan} {ftype name : Str} {m : Material}
    (h : generate ms names ps newlib lm ftype name = .ok (m, ms')) :
    ∃ parts : List (List SubMat),
      m.zaids = parts.flatMap subZaids ∧
      List.Forall₂ (fun q part =>
        (∃ src, lookup ms' q.1 = some src) ∧
        total (subZaids part) = (if ftype = "mass".toList then -q.2 else q.2)) (names.zip ps) parts := by
  unfold generate at h
  cases ht : translateAll ms (.one newlib) lm with
  | error e => rw [ht] at h; cases h
  | ok ms1 =>
    simp only [ht] at h
    cases hm : mixSubs ms1 ftype lm (names.zip ps) with
    | error e => rw [hm] at h; cases h
    | ok subs =>
      simp only [hm] at h
      cases hu : Material.updateInfo ⟨name, subs⟩ lm with
      | error e => rw [hu] at h; cases h
      | ok m1 =>
        simp only [hu, Except.ok.injEq, Prod.mk.injEq] at h
        obtain ⟨rfl, rfl⟩ := h
        obtain ⟨parts, hp, hf⟩ := mix_parts hm
        refine ⟨parts, ?_, ?_⟩
        · have := subZaids_congr (updateInfo_ok hu).1
          rw [show m1.zaids = subZaids m1.subs from rfl, this]
          show subZaids subs = _
          rw [hp]
          exact subZaids_flatten parts
        · refine hf.imp ?_
          rintro q part ⟨src, hl, hs⟩
          exact ⟨⟨src, hl⟩, (source_share hs).1⟩

/-- **C31.** The mixture totals the sum of the percentages, when there is one per material. -/
theorem generate_total {ms ms' : List Material} {names : List Str} {ps : List ℚ} {newlib : Str}
    {lm : LibMan} {ftype name : Str} {m : Material} (hlen : names.length = ps.length)
    (h : generate ms names ps newlib lm ftype name = .ok (m, ms')) :
    m.tot = (if ftype = "mass".toList then -ps.sum else ps.sum) := by
  obtain ⟨parts, hz, hf⟩ := generate_shares h
  have key : ∀ (req : List (Str × ℚ)) (parts : List (List SubMat)),
      List.Forall₂ (fun q part => (∃ src, lookup ms' q.1 = some src) ∧
        total (subZaids part) = (if ftype = "mass".toList then -q.2 else q.2)) req parts →
      total (parts.flatMap subZaids) =
        (if ftype = "mass".toList then -(req.map Prod.snd).sum else (req.map Prod.snd).sum) := by
    intro req parts hf
    induction hf with
    | nil => simp [total]
    | cons h1 _ ih =>
      rw [List.flatMap_cons, total, List.map_append, List.sum_append]
      have h2 : (List.map Zaid.fraction (subZaids _)).sum = _ := h1.2
      have h3 : (List.map Zaid.fraction (List.flatMap subZaids _)).sum = _ := ih
      rw [h2, h3, List.map_cons, List.sum_cons]
      split <;> ring
  have h1 := key _ _ hf
  rw [Material.tot, hz]
  unfold total at h1
  rw [h1, List.map_snd_zip (le_of_eq hlen.symm)]

/-- **C31 (limit).** With fewer percentages than materials the remaining materials are silently left
out. -/
theorem generate_truncates (ms : List Material) (names : List Str) (ps : List ℚ) (newlib : Str)
    (lm : LibMan) (ftype name : Str) :
    generate ms names ps newlib lm ftype name =
      generate ms (names.take ps.length) (ps.take names.length) newlib lm ftype name := by
  have : names.zip ps = (names.take ps.length).zip (ps.take names.length) := by
    induction names generalizing ps with
    | nil => simp
    | cons a names ih =>
      cases ps with
      | nil => simp
      | cons b ps => simp only [List.zip_cons_cons, List.length_cons, List.take_succ_cons, ← ih]
  unfold generate
  rw [this]

/-! ### C57: what is written agrees with the zaid list -/

/-- The elements, which are what is written, are those of the zaid list. (specification) -/
def Consistent (m : Material) : Prop := ∀ s ∈ m.subs, s.elements = collapse s.zaids

/-- The operations that change a material. (specification) -/
inductive Op where
  | translate (nl : NewLib) | switch (t : Str) | getTad (d : ℚ) | getDensity (t : ℚ)
  | toAtomDensities (d : ℚ) | scale (i : ℕ) (k : ℚ) | updateInfo

/-- scaling the i-th submaterial (specification) -/
def scaleAt (i : ℕ) (k : ℚ) : List SubMat → List SubMat
  | [] => []
  | s :: l => match i with
    | 0 => s.scale k :: l
    | j + 1 => s :: scaleAt j k l

/-- effect of a successful operation (specification) -/
def Op.run (lm : LibMan) (m : Material) : Op → Except PyErr Material
  | .translate nl => m.translate nl lm
  | .switch t => m.switch t lm
  | .getTad d => (m.tad d lm).map Prod.snd
  | .getDensity t => (m.density t lm).map Prod.snd
  | .toAtomDensities d => m.toAtomDensities lm d
  | .scale i k => .ok { m with subs := scaleAt i k m.subs }
  | .updateInfo => m.updateInfo lm

/-- a history of successful operations (specification) -/
def runOps (lm : LibMan) (m : Material) : List Op → Except PyErr Material
  | [] => .ok m
  | o :: os =>
    match o.run lm m with
    | .error e => .error e
    | .ok m' => runOps lm m' os

theorem consistent_withFractions (m : Material) (g : Zaid → ℚ) : Consistent (m.withFractions g) := by
  intro s hs
  simp only [Material.withFractions, List.mem_map] at hs
  obtain ⟨a, -, rfl⟩ := hs
  rfl

theorem consistent_switch {m m' : Material} {lm : LibMan} {t : Str} (hc : Consistent m)
    (h : m.switch t lm = .ok m') : Consistent m' := by
  by_cases h1 : t = "atom".toList
  · subst h1
    by_cases ht : m.tot < 0
    · obtain ⟨-, -, rfl⟩ := switch_atom_eq h ht
      exact consistent_withFractions _ _
    · rw [(switch_noop m lm).1 (not_lt.mp ht)] at h; cases h; exact hc
  · by_cases h2 : t = "mass".toList
    · subst h2
      by_cases ht : 0 < m.tot
      · obtain ⟨-, -, rfl⟩ := switch_mass_eq h ht
        exact consistent_withFractions _ _
      · rw [(switch_noop m lm).2 (not_lt.mp ht)] at h; cases h; exact hc
    · rw [switch_refuses m lm h1 h2] at h; cases h

theorem tad_switch {m m' : Material} {lm : LibMan} {d r : ℚ} (h : m.tad d lm = .ok (r, m')) :
    m.switch "atom".toList lm = .ok m' := by
  unfold Material.tad at h
  cases hs : m.switch "atom".toList lm with
  | error e => rw [hs] at h; cases h
  | ok m1 =>
    simp only [hs] at h
    split at h
    · cases h
    split at h
    · cases h
    split at h
    · cases h
    · simp only [Except.ok.injEq, Prod.mk.injEq] at h
      rw [h.2]

theorem density_switch {m m' : Material} {lm : LibMan} {d r : ℚ} (h : m.density d lm = .ok (r, m')) :
    m.switch "mass".toList lm = .ok m' := by
  unfold Material.density at h
  cases hs : m.switch "mass".toList lm with
  | error e => rw [hs] at h; cases h
  | ok m1 =>
    simp only [hs] at h
    split at h
    · cases h
    split at h
    · cases h
    split at h
    · cases h
    · simp only [Except.ok.injEq, Prod.mk.injEq] at h
      rw [h.2]

theorem consistent_scaleAt {l : List SubMat} (h : ∀ s ∈ l, s.elements = collapse s.zaids) (i : ℕ)
    (k : ℚ) : ∀ s ∈ scaleAt i k l, s.elements = collapse s.zaids := by
  induction l generalizing i with
  | nil => simp [scaleAt]
  | cons a l ih =>
    cases i with
    | zero =>
      intro s hs
      simp only [scaleAt, List.mem_cons] at hs
      rcases hs with rfl | hs
      · rfl
      · exact h s (List.mem_cons_of_mem _ hs)
    | succ j =>
      intro s hs
      simp only [scaleAt, List.mem_cons] at hs
      rcases hs with rfl | hs
      · exact h s (by simp)
      · exact ih (fun x hx => h x (List.mem_cons_of_mem _ hx)) j s hs

theorem consistent_updateInfo {m m' : Material} {lm : LibMan} (h : m.updateInfo lm = .ok m') :
    Consistent m' := fun s hs => ((updateInfo_ok h).2.1 s hs).1

theorem consistent_run {m m' : Material} {lm : LibMan} {o : Op} (hc : Consistent m)
    (h : o.run lm m = .ok m') : Consistent m' := by
  cases o with
  | translate nl =>
    simp only [Op.run, Material.translate] at h
    split at h
    · cases h
    · exact consistent_updateInfo h
  | switch t => exact consistent_switch hc h
  | getTad d =>
    simp only [Op.run] at h
    cases ht : m.tad d lm with
    | error e => rw [ht] at h; cases h
    | ok r =>
      obtain ⟨r, m1⟩ := r
      rw [ht] at h
      simp only [Except.map, Except.ok.injEq] at h
      subst h
      exact consistent_switch hc (tad_switch ht)
  | getDensity d =>
    simp only [Op.run] at h
    cases ht : m.density d lm with
    | error e => rw [ht] at h; cases h
    | ok r =>
      obtain ⟨r, m1⟩ := r
      rw [ht] at h
      simp only [Except.map, Except.ok.injEq] at h
      subst h
      exact consistent_switch hc (density_switch ht)
  | toAtomDensities d =>
    simp only [Op.run, Material.toAtomDensities] at h
    split at h
    · cases h
    split at h
    · cases h
    split at h
    · cases h
    · exact consistent_updateInfo h
  | scale i k =>
    simp only [Op.run, Except.ok.injEq] at h
    subst h
    exact consistent_scaleAt hc i k
  | updateInfo => exact consistent_updateInfo h

/-- **C57.** After any history of successful operations, what would be written agrees with the zaid
list: per name the same total, each name once. -/
theorem history_consistent (lm : LibMan) (os : List Op) {m m' : Material} (hc : Consistent m)
    (h : runOps lm m os = .ok m') : Consistent m' := by
  induction os generalizing m with
  | nil => simp only [runOps, Except.ok.injEq] at h; subst h; exact hc
  | cons o os ih =>
    cases ho : o.run lm m with
    | error e => simp only [runOps, ho] at h; cases h
    | ok m1 =>
      simp only [runOps, ho] at h
      exact ih (consistent_run hc ho) h

/-- **C57.** Materials as read start consistent (`mkSub`). -/
theorem mkSub_consistent (name : Str) (l : List (List Zaid × Option Str × List Str)) :
    Consistent ⟨name, l.map (fun p => mkSub p.1 p.2.1 p.2.2)⟩ := by
  intro s hs
  simp only [List.mem_map] at hs
  obtain ⟨p, -, rfl⟩ := hs
  rfl

/-- **C57.** The written amounts of a consistent material. -/
theorem consistent_written {m : Material} (hc : Consistent m) (hcan : ∀ z ∈ m.zaids, Canon z) :
    ∀ s ∈ m.subs, (∀ n, amount n s.written = amount n s.zaids) ∧ (s.written.map Zaid.name).Nodup := by
  intro s hs
  have h1 : ∀ z ∈ s.zaids, Canon z := fun z hz => hcan z (List.mem_flatMap.mpr ⟨s, hs, hz⟩)
  unfold SubMat.written
  rw [hc s hs]
  exact ⟨fun n => collapse_amount h1 n, collapse_names_nodup h1⟩

/-! ### C58: atom densities -/

/-- **C58.** `fractions_to_atom_densities` gives every zaid its share of the atoms times the total atom
density of the material: the material then totals that density. -/
theorem toAtomDensities_spec {m m' : Material} {lm : LibMan} {d : ℚ}
    (hm : ∀ z ∈ m.zaids, lm.massOf z ≠ 0) (htot : m.tot ≠ 0)
    (h : m.toAtomDensities lm d = .ok m') :
    m'.tot = d / m.meanMass lm * unitFactor ∧
    (0 < m.tot → m'.zaids = m.zaids.map (fun z =>
      { z with fraction := z.fraction / m.tot * (d / m.meanMass lm * unitFactor) })) := by
  unfold Material.toAtomDensities at h
  cases h1 : m.switch "mass".toList lm with
  | error e => rw [h1] at h; cases h
  | ok m1 =>
    simp only [h1] at h
    cases h2 : m1.switch "atom".toList lm with
    | error e => rw [h2] at h; cases h
    | ok m2 =>
      simp only [h2] at h
      cases h3 : m2.tad d lm with
      | error e => rw [h3] at h; cases h
      | ok r =>
        obtain ⟨t, m3⟩ := r
        simp only [h3] at h
        obtain ⟨e1, e2, e3⟩ := switch_meanMass h1 hm
        obtain ⟨e4, -, e5⟩ := e3 htot
        have hneg := e5 rfl
        obtain ⟨e6, e7, -⟩ := switch_meanMass h2 e2
        have htot2 : m2.tot = 1 := (switch_atom m1 lm h2 hneg).2
        obtain ⟨e8, -, -, -, -, e9⟩ := tad_eq h3 e7 (by rw [htot2]; norm_num)
        have h32 : m3 = m2 := by
          rw [(switch_noop m2 lm).1 (by rw [htot2]; norm_num)] at e9
          exact (Except.ok.inj e9).symm
        subst h32
        have hz := subZaids_congr (updateInfo_ok h).1
        have hz' : m'.zaids = m3.zaids.map (fun z => { z with fraction := z.fraction * t }) := by
          rw [show m'.zaids = subZaids m'.subs from rfl, hz]
          simp only [subZaids, Material.zaids]
          generalize m3.subs = l
          induction l with
          | nil => rfl
          | cons s l ih =>
            simp only [List.map_cons, List.flatMap_cons, List.map_append, ← ih, SubMat.scale]
        rw [e6, e1] at e8
        constructor
        · rw [Material.tot, hz']
          have := total_scaled m3.zaids t
          unfold total at this
          rw [this, show (m3.zaids.map Zaid.fraction).sum = m3.tot from rfl, htot2, e8]; ring
        · intro hp
          rw [hz', switch_round_atom m lm hp hm h1 h2, List.map_map, e8]
          rfl

/-! ### C55: density queries change the material -/

/-- **C55.** Asking a material in atom fractions for its mass density rewrites all its fractions: it
totals −1 afterwards. -/
theorem getDensity_changes {m m' : Material} {lm : LibMan} {t d : ℚ} (ht : 0 < m.tot)
    (h : m.density t lm = .ok (d, m')) : m'.tot = -1 ∧ m' ≠ m := by
  have h1 := (switch_mass m lm (density_switch h) ht).2
  refine ⟨h1, ?_⟩
  rintro rfl
  rw [h1] at ht
  norm_num at ht

/-- **C55.** … and asking a material in mass fractions for its atom density makes it total 1. -/
theorem getTad_changes {m m' : Material} {lm : LibMan} {t d : ℚ} (ht : m.tot < 0)
    (h : m.tad t lm = .ok (d, m')) : m'.tot = 1 ∧ m' ≠ m := by
  have h1 := (switch_atom m lm (tad_switch h) ht).2
  refine ⟨h1, ?_⟩
  rintro rfl
  rw [h1] at ht
  norm_num at ht

/-- sane materials: masses known and not zero, total not zero (specification) -/
def Sane (lm : LibMan) (m : Material) : Prop := (∀ z ∈ m.zaids, lm.massOf z ≠ 0) ∧ m.tot ≠ 0

/-- **C59.** The densities listed by `get_densities_range` are, for every non-void cell in order, the
mass density of the cell, or the atom density times the mean atomic mass of its material — also when
several cells share a material, although each query rewrites it. -/
theorem densitiesRange_values (lm : LibMan) {ms ms' : Dict Str Material} {cells l : List (Str × ℚ)}
    (hs : ∀ n m, Dict.get? ms n = some m → Sane lm m)
    (h : densitiesRange lm ms cells = .ok (l, ms')) :
    List.Forall₂ (fun c r => r.1 = c.1 ∧
      ((c.2 < 0 ∧ r.2 = -c.2) ∨
       (0 ≤ c.2 ∧ ∃ m, Dict.get? ms c.1 = some m ∧ r.2 = c.2 / unitFactor * m.meanMass lm))) cells l := by
  have key : ∀ (cells l : List (Str × ℚ)) (cur : Dict Str Material),
      (∀ n m, Dict.get? cur n = some m → Sane lm m ∧
        ∃ m0, Dict.get? ms n = some m0 ∧ m.meanMass lm = m0.meanMass lm) →
      densitiesRange lm cur cells = .ok (l, ms') →
      List.Forall₂ (fun c r => r.1 = c.1 ∧
        ((c.2 < 0 ∧ r.2 = -c.2) ∨
         (0 ≤ c.2 ∧ ∃ m, Dict.get? ms c.1 = some m ∧ r.2 = c.2 / unitFactor * m.meanMass lm)))
        cells l := by
    intro cells
    induction cells with
    | nil =>
      intro l cur _ h
      simp only [densitiesRange, Except.ok.injEq, Prod.mk.injEq] at h
      rw [← h.1]; exact .nil
    | cons c cells ih =>
      intro l cur hcur h
      obtain ⟨name, dens⟩ := c
      by_cases hd : dens < 0
      · simp only [densitiesRange, if_pos hd] at h
        cases hr : densitiesRange lm cur cells with
        | error e => simp only [hr] at h; cases h
        | ok p =>
          obtain ⟨l1, ms1⟩ := p
          simp only [hr, Except.ok.injEq, Prod.mk.injEq] at h
          obtain ⟨rfl, rfl⟩ := h
          exact .cons ⟨rfl, Or.inl ⟨hd, abs_of_neg hd⟩⟩ (ih l1 cur hcur hr)
      · simp only [densitiesRange, if_neg hd] at h
        cases hg : Dict.get? cur name with
        | none => simp only [hg] at h; cases h
        | some m =>
          simp only [hg] at h
          cases hq : m.density dens lm with
          | error e => simp only [hq] at h; cases h
          | ok q =>
            obtain ⟨d, m1⟩ := q
            simp only [hq] at h
            cases hr : densitiesRange lm (Dict.set cur name m1) cells with
            | error e => simp only [hr] at h; cases h
            | ok p =>
              obtain ⟨l1, ms1⟩ := p
              simp only [hr, Except.ok.injEq, Prod.mk.injEq] at h
              obtain ⟨rfl, rfl⟩ := h
              obtain ⟨hsane, m0, hm0, hmean⟩ := hcur name m hg
              obtain ⟨hval, -, hmm, hmass, htot, -⟩ := density_eq hq hsane.1 hsane.2
              refine .cons ⟨rfl, Or.inr ⟨not_lt.mp hd, m0, hm0, by rw [hval, hmean]⟩⟩
                (ih l1 _ ?_ hr)
              intro n mm hn
              rw [Dict.get?_set] at hn
              by_cases hnn : name = n
              · rw [if_pos hnn] at hn
                cases hn
                exact ⟨⟨hmass, ne_of_lt htot⟩, m0, hnn ▸ hm0, by rw [hmm, hmean]⟩
              · rw [if_neg hnn] at hn
                exact hcur n mm hn
  exact key cells l ms (fun n m hn => ⟨hs n m hn, m, hn, rfl⟩) h

/-- **C55.** A mere listing of the densities of a model leaves every material that some cell uses with
an atom density in mass fractions. -/
theorem densitiesRange_changes (lm : LibMan) {ms ms' : Dict Str Material} {cells l : List (Str × ℚ)}
    (h : densitiesRange lm ms cells = .ok (l, ms')) :
    ∀ c ∈ cells, 0 ≤ c.2 → ∃ m', Dict.get? ms' c.1 = some m' ∧ m'.tot ≤ 0 := by
  -- a material in mass fractions stays in mass fractions
  have stay : ∀ (m m1 : Material) (x d : ℚ), m.density x lm = .ok (d, m1) → m1.tot ≤ 0 := by
    intro m m1 x d hq
    have hsw := density_switch hq
    by_cases ht : 0 < m.tot
    · rw [(switch_mass m lm hsw ht).2]; norm_num
    · rw [(switch_noop m lm).2 (not_lt.mp ht)] at hsw
      cases hsw; exact not_lt.mp ht
  have keep : ∀ (cells l : List (Str × ℚ)) (cur : Dict Str Material) (n : Str) (m : Material),
      Dict.get? cur n = some m → m.tot ≤ 0 → densitiesRange lm cur cells = .ok (l, ms') →
      ∃ m', Dict.get? ms' n = some m' ∧ m'.tot ≤ 0 := by
    intro cells
    induction cells with
    | nil =>
      intro l cur n m hn ht h
      simp only [densitiesRange, Except.ok.injEq, Prod.mk.injEq] at h
      exact ⟨m, h.2 ▸ hn, ht⟩
    | cons c cells ih =>
      intro l cur n m hn ht h
      obtain ⟨name, dens⟩ := c
      by_cases hd : dens < 0
      · simp only [densitiesRange, if_pos hd] at h
        cases hr : densitiesRange lm cur cells with
        | error e => simp only [hr] at h; cases h
        | ok p =>
          obtain ⟨l1, ms1⟩ := p
          simp only [hr, Except.ok.injEq, Prod.mk.injEq] at h
          obtain ⟨-, rfl⟩ := h
          exact ih l1 cur n m hn ht hr
      · simp only [densitiesRange, if_neg hd] at h
        cases hg : Dict.get? cur name with
        | none => simp only [hg] at h; cases h
        | some mm =>
          simp only [hg] at h
          cases hq : mm.density dens lm with
          | error e => simp only [hq] at h; cases h
          | ok q =>
            obtain ⟨d, m1⟩ := q
            simp only [hq] at h
            cases hr : densitiesRange lm (Dict.set cur name m1) cells with
            | error e => simp only [hr] at h; cases h
            | ok p =>
              obtain ⟨l1, ms1⟩ := p
              simp only [hr, Except.ok.injEq, Prod.mk.injEq] at h
              obtain ⟨-, rfl⟩ := h
              by_cases hnn : name = n
              · exact ih l1 _ n m1 (by rw [Dict.get?_set, if_pos hnn]) (stay _ _ _ _ hq) hr
              · exact ih l1 _ n m (by rw [Dict.get?_set, if_neg hnn]; exact hn) ht hr
  revert ms l h
  induction cells with
  | nil => intro ms l _ c hc; simp at hc
  | cons c cells ih =>
    intro ms l h
    obtain ⟨name, dens⟩ := c
    by_cases hd : dens < 0
    · simp only [densitiesRange, if_pos hd] at h
      cases hr : densitiesRange lm ms cells with
      | error e => simp only [hr] at h; cases h
      | ok p =>
        obtain ⟨l1, ms1⟩ := p
        simp only [hr, Except.ok.injEq, Prod.mk.injEq] at h
        obtain ⟨-, rfl⟩ := h
        intro c hc h0
        simp only [List.mem_cons] at hc
        rcases hc with rfl | hc
        · exact absurd hd (not_lt.mpr h0)
        · exact ih hr c hc h0
    · simp only [densitiesRange, if_neg hd] at h
      cases hg : Dict.get? ms name with
      | none => simp only [hg] at h; cases h
      | some mm =>
        simp only [hg] at h
        cases hq : mm.density dens lm with
        | error e => simp only [hq] at h; cases h
        | ok q =>
          obtain ⟨d, m1⟩ := q
          simp only [hq] at h
          cases hr : densitiesRange lm (Dict.set ms name m1) cells with
          | error e => simp only [hr] at h; cases h
          | ok p =>
            obtain ⟨l1, ms1⟩ := p
            simp only [hr, Except.ok.injEq, Prod.mk.injEq] at h
            obtain ⟨-, rfl⟩ := h
            intro c hc h0
            simp only [List.mem_cons] at hc
            rcases hc with rfl | hc
            · exact keep cells l1 _ name m1 (Dict.get?_set_self _ _ _) (stay _ _ _ _ hq) hr
            · exact ih hr c hc h0

/-! ### concrete cases -/

/-- Water-like material in atom fractions, two submaterials. (example) -/
def sampleMat : Material := ⟨"M1".toList,
  [mkSub [⟨2, "1".toList, "001".toList, some "31c".toList⟩] none [],
   mkSub [⟨1, "8".toList, "016".toList, some "31c".toList⟩] none []]⟩

theorem sampleMat_switch : (sampleMat.switch "mass".toList sampleLib).map Material.zaids =
    .ok [⟨-1 / 9, "1".toList, "001".toList, some "31c".toList⟩,
         ⟨-8 / 9, "8".toList, "016".toList, some "31c".toList⟩] := by decide +kernel

theorem sampleMat_tad : (sampleMat.tad 6 sampleLib).map Prod.fst = .ok unitFactor := by
  decide +kernel

theorem sampleMat_roundtrip :
    (sampleMat.density unitFactor sampleLib).map Prod.fst = .ok 6 := by decide +kernel

/-- **C55 (witness).** The text that would be written changes by the query. -/
theorem sampleMat_query_changes :
    (sampleMat.density 1 sampleLib).map (fun r => r.2.subs.flatMap SubMat.written) ≠
      .ok (sampleMat.subs.flatMap SubMat.written) := by decide +kernel

theorem sampleMat_generate :
    (generate [sampleMat] ["M1".toList] [1 / 2] "31c".toList sampleLib "mass".toList
      "M5".toList).map (fun r => r.1.zaids) =
    .ok [⟨-1 / 18, "1".toList, "001".toList, some "31c".toList⟩,
         ⟨-4 / 9, "8".toList, "016".toList, some "31c".toList⟩] := by decide +kernel

theorem sampleMat_densitiesRange :
    (densitiesRange sampleLib [("M1".toList, sampleMat)]
      [("M1".toList, unitFactor), ("M1".toList, -3), ("M1".toList, unitFactor)]).map Prod.fst =
    .ok [("M1".toList, 6), ("M1".toList, 3), ("M1".toList, 6)] := by decide +kernel

theorem sampleMat_toAtomDensities :
    (sampleMat.toAtomDensities sampleLib 6).map (fun m => m.tot) = .ok unitFactor := by
  decide +kernel

end F4Enix.Mat
