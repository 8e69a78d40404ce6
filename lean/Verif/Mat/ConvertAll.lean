import Verif.Mat.MixProps
/-!
# Converting all materials of a deck to atom densities (materials.py:1764-1782)

The materials are objects: `objs` holds them, the list of materials holds references to them. The same object may be
in the list twice (`append`).
-/
namespace F4Enix.Mat
open F4Enix

/-- the loop of `MatCardsList.fractions_to_atom_densities` (materials.py:1781-1782): the objects after it, and the exception if there was
one. Simplification: the object at which it stops is left as it was (the code may have switched its fractions). -/
def convertAll (lm : LibMan) (d : ℚ) : List ℕ → List Material → List Material × Option PyErr
  | [], o => (o, none)
  | r :: rs, o =>
    match o[r]? with
    | none => (o, some .indexError)
    | some m =>
      match m.toAtomDensities lm d with
      | .error e => (o, some e)
      | .ok m' => convertAll lm d rs (o.set r m')

theorem mean_scaled {lm : LibMan} {m m' : Material} {k : ℚ} (hk : 0 < k) (ht : 0 < m.tot)
    (hz : m'.zaids = m.zaids.map (fun z => { z with fraction := z.fraction * k })) :
    m'.meanMass lm = m.meanMass lm ∧ m'.tot = m.tot * k := by
  have e1 : m'.tot = m.tot * k := by
    rw [Material.tot, hz]
    exact total_scaled m.zaids k
  have e2 : (m'.zaids.map (fun z => z.fraction * lm.massOf z)).sum = (m.zaids.map (fun z => z.fraction * lm.massOf z)).sum * k := by
    rw [hz]
    generalize m.zaids = l
    induction l with
    | nil => simp
    | cons z l ih =>
      simp only [List.map_cons, List.sum_cons, ih]
      have : lm.massOf { z with fraction := z.fraction * k } = lm.massOf z := rfl
      rw [this]; ring
  refine ⟨?_, e1⟩
  unfold Material.meanMass
  rw [if_pos ht, if_pos (by rw [e1]; positivity), e1, e2]
  field_simp

/-- after the conversion, the mean mass is what it was and the total is the atom density -/
theorem toAtomDensities_mean {m m' : Material} {lm : LibMan} {d : ℚ}
    (hm : ∀ z ∈ m.zaids, lm.massOf z ≠ 0) (htot : m.tot ≠ 0) (hd : 0 < d / m.meanMass lm * unitFactor)
    (h : m.toAtomDensities lm d = .ok m') :
    m'.meanMass lm = m.meanMass lm ∧ m'.tot = d / m.meanMass lm * unitFactor ∧ ∀ z ∈ m'.zaids, lm.massOf z ≠ 0 := by
  have htotal := (toAtomDensities_spec hm htot h).1
  unfold Material.toAtomDensities at h
  cases h1 : m.switch "mass".toList lm with
  | error e => rw [h1] at h; cases h
  | ok m1 =>
    simp only [h1] at h
    cases h2 : m1.switch "atom".toList lm with
    | error e => rw [h2] at h; cases h
    | ok m2 =>
      simp only [h2] at h
      cases h3 : m2.tad d lm with
      | error e => rw [h3] at h; cases h
      | ok r =>
        obtain ⟨t, m3⟩ := r
        simp only [h3] at h
        obtain ⟨e1, e2, e3⟩ := switch_meanMass h1 hm
        obtain ⟨e4, -, e5⟩ := e3 htot
        have hneg := e5 rfl
        obtain ⟨e6, e7, -⟩ := switch_meanMass h2 e2
        have htot2 : m2.tot = 1 := (switch_atom m1 lm h2 hneg).2
        obtain ⟨e8, -, -, e10, e11, e9⟩ := tad_eq h3 e7 (by rw [htot2]; norm_num)
        have h32 : m3 = m2 := by
          rw [(switch_noop m2 lm).1 (by rw [htot2]; norm_num)] at e9
          exact (Except.ok.inj e9).symm
        subst h32
        have hz := subZaids_congr (updateInfo_ok h).1
        have hz' : m'.zaids = m3.zaids.map (fun z => { z with fraction := z.fraction * t }) := by
          rw [show m'.zaids = subZaids m'.subs from rfl, hz]
          simp only [subZaids, Material.zaids]
          generalize m3.subs = l
          induction l with
          | nil => rfl
          | cons s l ih =>
            simp only [List.map_cons, List.flatMap_cons, List.map_append, ← ih, SubMat.scale]
        rw [e6, e1] at e8
        obtain ⟨f1, _⟩ := mean_scaled (lm := lm) (by rw [e8]; exact hd : 0 < t) e11 hz'
        refine ⟨by rw [f1, e6, e1], htotal, ?_⟩
        intro z hz2
        rw [hz'] at hz2
        obtain ⟨y, hy, rfl⟩ := List.mem_map.1 hz2
        exact e7 y hy

/-- a material that can be converted: its masses are known, and its total and its atom density are not zero (specification) -/
def Convertible (lm : LibMan) (d : ℚ) (m : Material) : Prop :=
  (∀ z ∈ m.zaids, lm.massOf z ≠ 0) ∧ m.tot ≠ 0 ∧ 0 < d / m.meanMass lm * unitFactor

/-- **C227 (again).** Converting a converted material changes nothing. -/
theorem toAtomDensities_again {m m1 m2 : Material} {lm : LibMan} {d : ℚ} (hc : Convertible lm d m)
    (h1 : m.toAtomDensities lm d = .ok m1) (h2 : m1.toAtomDensities lm d = .ok m2) :
    m2.zaids = m1.zaids ∧ Convertible lm d m1 := by
  obtain ⟨hm, ht, hd⟩ := hc
  obtain ⟨f1, f2, f3⟩ := toAtomDensities_mean hm ht hd h1
  have hp : 0 < m1.tot := by rw [f2]; exact hd
  refine ⟨?_, f3, hp.ne', by rw [f1]; exact hd⟩
  rw [(toAtomDensities_spec f3 hp.ne' h2).2 hp, f1, f2]
  have : ∀ z : Zaid, z.fraction / (d / m.meanMass lm * unitFactor) * (d / m.meanMass lm * unitFactor) = z.fraction :=
    fun z => div_mul_cancel₀ _ hd.ne'
  simp only [this]
  simp

theorem convertible_ok {m m1 : Material} {lm : LibMan} {d : ℚ} (hc : Convertible lm d m) (h1 : m.toAtomDensities lm d = .ok m1) :
    Convertible lm d m1 := by
  obtain ⟨f1, f2, f3⟩ := toAtomDensities_mean hc.1 hc.2.1 hc.2.2 h1
  exact ⟨f3, by rw [f2]; exact hc.2.2.ne', by rw [f1]; exact hc.2.2⟩

/-- **C227.** If the conversion of all the materials ends, every material of the list, also one that is in it twice, has
the fractions that its own conversion gives it, and no other object is changed. -/
theorem convertAll_exact {lm : LibMan} {d : ℚ} : ∀ (rs : List ℕ) {o o' : List Material},
    convertAll lm d rs o = (o', none) →
    o'.length = o.length ∧ (∀ r, r ∉ rs → o'[r]? = o[r]?) ∧
    ∀ r ∈ rs, ∀ m, o[r]? = some m → Convertible lm d m →
      ∃ m1 m', m.toAtomDensities lm d = .ok m1 ∧ o'[r]? = some m' ∧ m'.zaids = m1.zaids
  | [], o, o', h => by
    simp only [convertAll, Prod.mk.injEq, and_true] at h
    subst h
    simp
  | r :: rs, o, o', h => by
    simp only [convertAll] at h
    cases hr : o[r]? with
    | none => rw [hr] at h; simp at h
    | some m =>
      rw [hr] at h
      simp only at h
      cases hm : m.toAtomDensities lm d with
      | error e => rw [hm] at h; simp at h
      | ok m1 =>
        rw [hm] at h
        simp only at h
        obtain ⟨g0, g1, g2⟩ := convertAll_exact rs h
        have hlt : r < o.length := (List.getElem?_eq_some_iff.1 hr).1
        refine ⟨by rw [g0, List.length_set], ?_, ?_⟩
        · intro k hk
          simp only [List.mem_cons, not_or] at hk
          rw [g1 k hk.2, List.getElem?_set_ne (Ne.symm hk.1)]
        · intro k hk mk hmk hc
          by_cases e : k = r
          · subst e
            rw [hr, Option.some.injEq] at hmk
            subst hmk
            have hs : (o.set k m1)[k]? = some m1 := List.getElem?_set_self hlt
            by_cases hin : k ∈ rs
            · obtain ⟨m2, m', q1, q2, q3⟩ := g2 k hin m1 hs (convertible_ok hc hm)
              exact ⟨m1, m', hm, q2, q3.trans (toAtomDensities_again hc hm q1).1⟩
            · exact ⟨m1, m1, hm, by rw [g1 k hin, hs], rfl⟩
          · have hin : k ∈ rs := by
              rcases List.mem_cons.1 hk with h | h
              · exact absurd h e
              · exact h
            exact g2 k hin mk (by rw [List.getElem?_set_ne (Ne.symm e)]; exact hmk) hc

/-- **C227 (stopped).** If it stops, the materials before the one that cannot be converted stay converted. -/
theorem convertAll_stopped {lm : LibMan} {d : ℚ} : ∀ (rs : List ℕ) {o o' : List Material} {e : PyErr},
    convertAll lm d rs o = (o', some e) → ∃ pre r post, rs = pre ++ r :: post ∧ convertAll lm d pre o = (o', none) ∧
      ∀ m, o'[r]? = some m → m.toAtomDensities lm d = .error e
  | [], o, o', e, h => by simp [convertAll] at h
  | r :: rs, o, o', e, h => by
    simp only [convertAll] at h
    cases hr : o[r]? with
    | none =>
      rw [hr] at h
      simp only [Prod.mk.injEq, Option.some.injEq] at h
      refine ⟨[], r, rs, rfl, by rw [← h.1]; rfl, ?_⟩
      intro m hm
      rw [← h.1, hr] at hm
      cases hm
    | some m =>
      rw [hr] at h
      simp only at h
      cases hm : m.toAtomDensities lm d with
      | error x =>
        rw [hm] at h
        simp only [Prod.mk.injEq, Option.some.injEq] at h
        refine ⟨[], r, rs, rfl, by rw [← h.1]; rfl, ?_⟩
        intro m2 hm2
        rw [← h.1, hr, Option.some.injEq] at hm2
        subst hm2
        rw [hm, h.2]
      | ok m1 =>
        rw [hm] at h
        simp only at h
        obtain ⟨pre, k, post, rfl, q1, q2⟩ := convertAll_stopped rs h
        exact ⟨r :: pre, k, post, rfl, by simp only [convertAll, hr, hm, q1], q2⟩

/-- the density that gives the sample a total atom density of one (example) -/
def sampleDensity : ℚ := 6 / unitFactor

/-- a material with a nuclide that is not in the tables (example) -/
def unknownMat : Material := ⟨"M2".toList, [mkSub [⟨1, "99".toList, "001".toList, some "31c".toList⟩] none []]⟩

/-- **All or nothing is false**: the first material stays converted when the second is refused. -/
theorem convertAll_half : ∃ m1, sampleMat.toAtomDensities sampleLib sampleDensity = .ok m1 ∧ m1 ≠ sampleMat ∧
    (convertAll sampleLib sampleDensity [0, 1] [sampleMat, unknownMat]).1 = [m1, unknownMat] ∧
    (convertAll sampleLib sampleDensity [0, 1] [sampleMat, unknownMat]).2.isSome = true := by
  cases h : sampleMat.toAtomDensities sampleLib sampleDensity with
  | error e =>
    have : (sampleMat.toAtomDensities sampleLib sampleDensity).toOption.isSome = true := by decide +kernel
    rw [h] at this
    cases this
  | ok m1 =>
    refine ⟨m1, rfl, ?_, ?_, ?_⟩
    · rintro rfl
      have : (sampleMat.toAtomDensities sampleLib sampleDensity).toOption ≠ some sampleMat := by decide +kernel
      rw [h] at this
      exact this rfl
    · have hu : ∃ e, unknownMat.toAtomDensities sampleLib sampleDensity = .error e := by
        cases g : unknownMat.toAtomDensities sampleLib sampleDensity with
        | error e => exact ⟨e, rfl⟩
        | ok m2 =>
          have : (unknownMat.toAtomDensities sampleLib sampleDensity).toOption = none := by decide +kernel
          rw [g] at this
          cases this
      obtain ⟨e, hu⟩ := hu
      simp [convertAll, h, hu]
    · decide +kernel

/-- the hypotheses of `convertAll_exact` are met, also with the material twice in the list -/
example : Convertible sampleLib sampleDensity sampleMat ∧ (convertAll sampleLib sampleDensity [0, 0] [sampleMat]).2 = none := by
  refine ⟨⟨by decide +kernel, by decide +kernel, by decide +kernel⟩, by decide +kernel⟩

end F4Enix.Mat
