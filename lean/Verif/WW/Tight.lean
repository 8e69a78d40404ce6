import Verif.WW.StateProps
import Verif.WW.VectorsProps
/-!
# Further theorems about weight windows

Sharper statements, written after edits of the model had survived the first theorems: the label
rounding, the 20 sectors of the cylindrical grid, the values put in each map by the loader, the
softening of a window made from a flux map, and the errors of malformed vectors.
-/
namespace F4Enix.WW
open F4Enix

/-! ## C01, C02: malformed vectors -/

/-- **C01/C02** An empty vector is refused by all three conversions. -/
theorem c01_empty_refused (fine : List ℤ) :
    decompose [] = .error .indexError ∧ compose [] fine = .error .indexError ∧
      build1d [] fine = .error .indexError := ⟨rfl, rfl, rfl⟩

/-- **C01** Too few fine counts are refused: `IndexError`. -/
theorem c01_short_refused (coarse : List ℚ) (fine : List ℤ) (h : fine.length + 1 < coarse.length) :
    compose coarse fine = .error .indexError := by
  have key : composeLoop coarse fine = .error .indexError := by
    induction coarse generalizing fine with
    | nil => simp at h
    | cons c cs ih =>
      cases cs with
      | nil => simp at h
      | cons c' cs =>
        cases fine with
        | nil => rfl
        | cons f fs =>
          have := ih fs (by simp only [List.length_cons] at h ⊢; omega)
          simp only [composeLoop, this]
  simp only [compose, key]

example : compose [0, 5, 9] [2] = .error .indexError := c01_short_refused _ _ (by decide)

/-! ## C46: the energy printed in a label -/

/-- **C46** The two printed decimals are those of the nearest hundredth; halfway, of the even one.
This determines the number printed. -/
theorem c46_cents (e : ℚ) :
    |e * 100 - cents e| ≤ 1 / 2 ∧ (|e * 100 - cents e| = 1 / 2 → cents e % 2 = 0) := by
  have h1 := Int.floor_le (e * 100)
  have h2 := Int.lt_floor_add_one (e * 100)
  unfold cents
  simp only
  split
  · rename_i h
    rw [abs_of_nonneg (by linarith)]
    exact ⟨by linarith, fun h' => by linarith⟩
  · split
    · rename_i h
      split
      · rename_i hp
        rw [h]
        exact ⟨by norm_num, fun _ => hp⟩
      · rename_i hp
        push_cast
        have : e * 100 - (⌊e * 100⌋ + 1 : ℚ) = -(1 / 2) := by linarith
        rw [this]
        exact ⟨by norm_num, fun _ => by omega⟩
    · rename_i h h'
      push_cast
      have hlt : (1 : ℚ) / 2 < e * 100 - ⌊e * 100⌋ := lt_of_le_of_ne (not_lt.mp h) (Ne.symm h')
      rw [abs_of_nonpos (by linarith)]
      exact ⟨by linarith, fun h' => by linarith⟩

/-- **C46** Energies that differ by more than a hundredth of a MeV have different labels. -/
theorem c46_labels_differ (e e' : ℚ) (h : 1 / 100 < |e - e'|) : cents e ≠ cents e' := by
  intro hc
  have h1 := abs_le.mp (c46_cents e).1
  have h2 := abs_le.mp (c46_cents e').1
  rw [hc] at h1
  have : |e - e'| ≤ 1 / 100 := abs_le.mpr ⟨by linarith, by linarith⟩
  linarith

example : cents (1/1000) = 0 ∧ cents 2 = 200 ∧ cents (3/200) = 2 := by decide +kernel

/-! ## C48: sectors of the cylindrical grid -/

/-- **C48** (one sector) The single sector is shown 20 times. -/
theorem c48_one_sector (a : Arr3) (hk : a.nk = 1) (hj : 0 < a.nj) (hi : 0 < a.ni) (j t i : Nat)
    (hj' : j < a.nj) (ht : t < 20) (hi' : i < a.ni) (v : ℚ) (hv : a.get 0 j i = some v) :
    (gridData true a)[(j * 20 + t) * a.ni + i]? = some v := by
  have e : thetaInts a.nk = 20 := by rw [hk]; rfl
  have := c48_cyl_grid a (by omega) hj hi j t i hj' (by omega) hi' v
    (by rw [e, hk, Nat.div_one, Nat.div_eq_of_lt ht]; exact hv)
  rwa [e] at this

/-- **C48** (two sectors) Each of the two sectors is shown 10 times. -/
theorem c48_two_sectors (a : Arr3) (hk : a.nk = 2) (hj : 0 < a.nj) (hi : 0 < a.ni) (j t i : Nat)
    (hj' : j < a.nj) (ht : t < 20) (hi' : i < a.ni) (v : ℚ) (hv : a.get (t / 10) j i = some v) :
    (gridData true a)[(j * 20 + t) * a.ni + i]? = some v := by
  have e : thetaInts a.nk = 20 := by rw [hk]; rfl
  have := c48_cyl_grid a (by omega) hj hi j t i hj' (by omega) hi' v
    (by rw [e, hk]; exact hv)
  rwa [e] at this

/-- **C48** (three sectors and more) Every sector is shown once. -/
theorem c48_many_sectors (a : Arr3) (hk : 3 ≤ a.nk) (hj : 0 < a.nj) (hi : 0 < a.ni) (j t i : Nat)
    (hj' : j < a.nj) (ht : t < a.nk) (hi' : i < a.ni) (v : ℚ) (hv : a.get t j i = some v) :
    (gridData true a)[(j * a.nk + t) * a.ni + i]? = some v := by
  have e : thetaInts a.nk = a.nk := by unfold thetaInts; rw [if_neg (by omega)]
  have := c48_cyl_grid a (by omega) hj hi j t i hj' (by omega) hi' v
    (by rw [e, Nat.div_self (by omega), Nat.div_one]; exact hv)
  rwa [e] at this

/-- **C48** (length) The array has one number per cell of the grid shown. -/
theorem c48_length (a : Arr3) (hk : 0 < a.nk) (hj : 0 < a.nj) (hi : 0 < a.ni) :
    (gridData true a).length = a.nj * (if a.nk ≤ 2 then 20 else a.nk) * a.ni := by
  have hdiv : a.ni * thetaInts a.nk * a.nj / (a.ni * a.nj * a.nk) = thetaInts a.nk / a.nk := by
    rw [show a.ni * thetaInts a.nk * a.nj = (a.ni * a.nj) * thetaInts a.nk by ring]
    rw [Nat.mul_div_mul_left _ _ (Nat.mul_pos hi hj)]
  simp only [gridData, if_true, prepareCyl, hdiv]
  have hw : ∀ nk nj ni (f : Nat → Nat → Nat → ℚ),
      (Arr3.tab nk nj ni f).data.length = nk * nj * ni := fun nk nj ni f => tab_wf nk nj ni f
  split
  · rename_i h
    unfold swap01
    rw [hw]
    simp only [repeatK, Arr3.tab]
    by_cases h2 : a.nk ≤ 2
    · have : a.nk = 1 ∨ a.nk = 2 := by omega
      rcases this with h' | h' <;> rw [h'] <;> rfl
    · exfalso
      have e : thetaInts a.nk = a.nk := by unfold thetaInts; rw [if_neg (by omega)]
      rw [e, Nat.div_self hk] at h
      omega
  · rename_i h
    unfold swap01
    rw [hw]
    by_cases h2 : a.nk ≤ 2
    · exfalso
      have : a.nk = 1 ∨ a.nk = 2 := by omega
      rcases this with h' | h' <;> rw [h'] at h <;> exact h (by decide)
    · rw [if_neg h2]

example : gridData true ⟨1, 2, 1, [5, 7]⟩ = List.replicate 20 5 ++ List.replicate 20 7 := by
  decide +kernel

/-! ## C07: which numbers go where when a file is loaded -/

theorem fillEnergies_get (nfz nfy nfx : Nat) (vals : List ℚ) (es : List ℚ) (hn : es.Nodup) (j : Nat)
    (d : Dict ℚ Arr3) :
    (∀ e, e ∉ es → (fillEnergies nfz nfy nfx vals j es d).get? e = d.get? e) ∧
    ∀ m e, es[m]? = some e →
      (fillEnergies nfz nfy nfx vals j es d).get? e = some (blockOf nfz nfy nfx vals (j + m)) := by
  induction es generalizing j d with
  | nil => exact ⟨fun _ _ => rfl, fun m e h => by simp at h⟩
  | cons x xs ih =>
    obtain ⟨i1, i2⟩ := ih (List.nodup_cons.mp hn).2 (j + 1) (d.set x (blockOf nfz nfy nfx vals j))
    refine ⟨?_, ?_⟩
    · intro e he
      rw [List.mem_cons, not_or] at he
      simp only [fillEnergies]
      rw [i1 e he.2, Dict.get?_set, if_neg (Ne.symm he.1)]
    · intro m e h
      simp only [fillEnergies]
      cases m with
      | zero =>
        obtain rfl : x = e := by simpa using h
        rw [i1 x (List.nodup_cons.mp hn).1, Dict.get?_set_self]; rfl
      | succ m =>
        rw [i2 m e (by simpa using h)]
        congr 2; omega

/-- the number of voxel `(k, j, i)` of energy `m` in the stream of numbers of a particle (specification) -/
def inStream (nfz nfy nfx : Nat) (vals : List ℚ) (m k j i : Nat) : Option ℚ :=
  vals[((m * nfz + k) * nfy + j) * nfx + i]?

theorem blockOf_get (nfz nfy nfx : Nat) (vals : List ℚ) (m k j i : Nat) (hk : k < nfz)
    (hj : j < nfy) (hi : i < nfx) :
    (blockOf nfz nfy nfx vals m).get k j i = inStream nfz nfy nfx vals m k j i := by
  have hlt : (k * nfy + j) * nfx + i < nfz * nfy * nfx := idx_lt nfz nfy nfx k j i hk hj hi
  unfold Arr3.get inStream
  rw [if_pos (show k < (blockOf nfz nfy nfx vals m).nk ∧ j < (blockOf nfz nfy nfx vals m).nj ∧
    i < (blockOf nfz nfy nfx vals m).ni from ⟨hk, hj, hi⟩)]
  simp only [blockOf, Arr3.idx]
  rw [List.getElem?_take, if_pos hlt, List.getElem?_drop]
  congr 1
  ring

/-- **C07** (loading, the numbers). The neutron map of the `m`-th energy holds at voxel `(k, j, i)`
the number at that place of the first particle's stream; with two particles the photon maps hold the
second particle's numbers, with one there are none. -/
theorem c07_load_values (ni : ℤ) (nfz nfy nfx : Nat) (es vs : List (List ℚ)) (v : Values)
    (hd : ∀ x ∈ es, x.Nodup) (h : nested ni nfz nfy nfx es vs = .ok v) :
    ∃ e0 v0, es[0]? = some e0 ∧ vs[0]? = some v0 ∧ v0.length = e0.length * nfz * nfy * nfx ∧
      (∀ m e k j i, e0[m]? = some e → k < nfz → j < nfy → i < nfx →
        (look v .neutron e).bind (·.get k j i) = inStream nfz nfy nfx v0 m k j i) ∧
      (ni ≤ 1 → v.keys = [.neutron]) ∧
      (1 < ni → v.keys = [.neutron, .photon] ∧ ∃ e1 v1, es[1]? = some e1 ∧ vs[1]? = some v1 ∧
        v1.length = e1.length * nfz * nfy * nfx ∧
        ∀ m e k j i, e1[m]? = some e → k < nfz → j < nfy → i < nfx →
          (look v .photon e).bind (·.get k j i) = inStream nfz nfy nfx v1 m k j i) := by
  have one : ∀ (e0 v0 : List ℚ) (d0 : Dict ℚ Arr3), e0.Nodup → nested1 nfz nfy nfx e0 v0 = .ok d0 →
      v0.length = e0.length * nfz * nfy * nfx ∧
      ∀ m e k j i, e0[m]? = some e → k < nfz → j < nfy → i < nfx →
        (d0.get? e).bind (·.get k j i) = inStream nfz nfy nfx v0 m k j i := by
    intro e0 v0 d0 hn h0
    unfold nested1 at h0
    split at h0
    · rename_i hl
      obtain rfl := Except.ok.inj h0
      refine ⟨hl, ?_⟩
      intro m e k j i hm hk hj hi
      rw [(fillEnergies_get nfz nfy nfx v0 e0 hn 0 []).2 m e hm, Option.bind_some, Nat.zero_add]
      exact blockOf_get nfz nfy nfx v0 m k j i hk hj hi
    · cases h0
  unfold nested at h
  cases he0 : es[0]? with
  | none => rw [he0] at h; cases h
  | some e0 =>
    cases hv0 : vs[0]? with
    | none => rw [he0, hv0] at h; cases h
    | some v0 =>
      rw [he0, hv0] at h
      simp only at h
      cases h0 : nested1 nfz nfy nfx e0 v0 with
      | error x => rw [h0] at h; cases h
      | ok d0 =>
        rw [h0] at h
        simp only at h
        obtain ⟨l0, g0⟩ := one e0 v0 d0 (hd e0 (List.mem_of_getElem? he0)) h0
        refine ⟨e0, v0, rfl, rfl, l0, ?_⟩
        split at h
        · rename_i hni
          cases he1 : es[1]? with
          | none => rw [he1] at h; cases h
          | some e1 =>
            cases hv1 : vs[1]? with
            | none => rw [he1, hv1] at h; cases h
            | some v1 =>
              rw [he1, hv1] at h
              simp only at h
              cases h1 : nested1 nfz nfy nfx e1 v1 with
              | error x => rw [h1] at h; cases h
              | ok d1 =>
                rw [h1] at h
                simp only at h
                obtain rfl := Except.ok.inj h
                obtain ⟨l1, g1⟩ := one e1 v1 d1 (hd e1 (List.mem_of_getElem? he1)) h1
                exact ⟨g0, fun h => absurd h (by omega),
                  fun _ => ⟨rfl, e1, v1, rfl, rfl, l1, g1⟩⟩
        · rename_i hni
          obtain rfl := Except.ok.inj h
          exact ⟨g0, fun _ => rfl, fun h => absurd h hni⟩

example : ∃ v, nested 2 1 1 2 [[1, 2], [3]] [[10, 11, 12, 13], [20, 21]] = .ok v ∧
    look v .neutron 2 = some ⟨1, 1, 2, [12, 13]⟩ ∧ look v .photon 3 = some ⟨1, 1, 2, [20, 21]⟩ := by
  refine ⟨_, rfl, ?_, ?_⟩ <;> decide +kernel

/-- **C07** Values without neutrons are refused by the constructor: `KeyError`. -/
theorem c07_no_neutrons (cyl : Bool) (v : Values) (h : Particle.neutron ∉ v.keys) :
    newWW cyl v = .error .keyError := by
  have hn : v.get? .neutron = none := (Dict.get?_eq_none_iff _ _).mpr h
  have hc : calcRatios v (particlesOf v) = .error .keyError := by
    unfold particlesOf
    split <;> simp only [calcRatios, hn]
  simp only [newWW, setValues, hc]

/-! ## C08: softening of a window made from a flux map -/

/-- **C08** (softening) The window made from a flux map has at every voxel the flux scaled by
`2 / ((r + 1) * max)`, raised to the softening factor, which is 1 when none is asked for. -/
theorem c08_gvr_softened {sh} (pw : ℚ → ℚ → ℚ) (hpw : ∀ x, pw x 1 = x) (cyl : Bool)
    (d : Dict ℚ Arr3) (hd : Good sh [(.neutron, d)]) (r m soft : ℚ)
    (hm : m ∈ (d.map (fun ea => ea.2.data)).flatten)
    (hmax : ∀ x ∈ (d.map (fun ea => ea.2.data)).flatten, x ≤ m) (hpos : 0 < m) (hr : -1 < r) :
    ∃ s, createGvr pw cyl d r soft = .ok s ∧ Inv sh s ∧ s.values.keys = [.neutron] ∧
      ∀ e, look s.values .neutron e =
        (d.get? e).map (Arr3.map (fun x => pw (x * (2 / ((r + 1) * m))) soft)) := by
  have hr1 : 0 < r + 1 := by linarith
  have hml : maxList ((d.map (fun ea => ea.2.data)).flatten) = some m := by
    cases hl : maxList ((d.map (fun ea => ea.2.data)).flatten) with
    | none =>
      cases hdd : (d.map (fun ea => ea.2.data)).flatten with
      | nil => rw [hdd] at hm; simp at hm
      | cons x xs => rw [hdd] at hl; simp [maxList] at hl
    | some m' =>
      obtain ⟨h1, h2⟩ := maxList_spec hl
      exact congrArg some (le_antisymm (hmax m' h1) (h2 m hm))
  have hfun : ∀ a : Arr3,
      (a.map (· / m)).map (· * (2 / (r + 1))) = a.map (· * (2 / ((r + 1) * m))) := by
    intro a
    simp only [Arr3.map, List.map_map]
    congr 1
    apply List.map_congr_left
    intro x _
    simp only [Function.comp]
    field_simp
  have hg : toGvr d r = .ok (d.map (fun ea => (ea.1, ea.2.map (· * (2 / ((r + 1) * m)))))) := by
    unfold toGvr
    rw [hml]
    simp only
    rw [if_neg (ne_of_gt hpos), if_neg (ne_of_gt hr1)]
    simp only [hfun]
  have hgood : Good sh [(Particle.neutron, d.map (fun ea => (ea.1, ea.2.map (· * (2 / ((r + 1) * m))))))] := by
    have := good_map hd (· * (2 / ((r + 1) * m)))
    simpa using this
  obtain ⟨s, s1, s2, s3, s4⟩ := inv_set { values := [], ratios := [], grid := [], cyl := cyl } hgood
  have hlook : ∀ e, look s.values .neutron e = (d.get? e).map (Arr3.map (· * (2 / ((r + 1) * m)))) := by
    intro e
    rw [s2]
    have := look_mapArrays [(Particle.neutron, d)] (Arr3.map (· * (2 / ((r + 1) * m)))) .neutron e
    simpa [look, Dict.get?] using this
  unfold createGvr
  rw [hg]
  simp only [newWW, s1]
  by_cases hs : soft = 1
  · subst hs
    rw [if_neg (by simp)]
    refine ⟨s, rfl, s4, by rw [s2]; rfl, ?_⟩
    intro e
    rw [hlook e]
    simp only [hpw]
  · rw [if_pos hs]
    obtain ⟨t, t1, t2, t3, t4⟩ := c06_soften pw hpw s s4 soft
    refine ⟨t, t1, t2, by rw [t3, s2]; rfl, ?_⟩
    intro e
    rw [t4, hlook e, Option.map_map]
    congr 1
    funext a
    simp [Arr3.map, Function.comp_def]

example : ((createGvr (fun x y => if y = 2 then x * x else x) false
    [(1, ⟨1, 1, 2, [4, 2]⟩)] 1 2).toOption.bind (fun s => look s.values .neutron 1)) =
      some ⟨1, 1, 2, [1, 1/4]⟩ := by
  decide +kernel

end F4Enix.WW
