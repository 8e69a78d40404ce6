import Verif.Inp.AceProps
import Verif.Mat.SwitchProps
/-!
# Cross sections of a material (`get_xs`, ace.py:333-394)

The fractions of the material are switched to mass and then to atom fractions, in place, and the nuclides are mixed (`_get_xs_zaid_list`).
-/
namespace F4Enix.Ace
open F4Enix

/-! ## The model -/

/-- a zaid as `_get_xs_zaid_list` uses it (ace.py:266-330) -/
def zaidOf (z : Mat.Zaid) : Zaid ℚ := ⟨z.num, z.fraction⟩

/-- `get_xs` of a material without a group structure: the material after the call, and the result (ace.py:333-394). When a switch fails no fraction has been
changed: the masses of all zaids are asked for first. -/
def getXs {T : Type} (lm : Mat.LibMan) (load : Str → Except PyErr (List T)) (eval : T → ℕ → ℚ) (unity : List Bool) (m : Mat.Material) :
    Mat.Material × Except PyErr (List (ℕ → ℚ)) :=
  match m.switch "mass".toList lm with
  | .error e => (m, .error e)
  | .ok m1 =>
    match m1.switch "atom".toList lm with
    | .error e => (m1, .error e)
    | .ok m2 => (m2, mixture load eval unity (m2.zaids.map zaidOf))

/-! ## Specification -/

/-- a material as MCNP knows it: all masses are known and positive, all fractions positive (atom) or all negative (mass) (specification) -/
structure Sound (lm : Mat.LibMan) (m : Mat.Material) : Prop where
  some_zaid : m.zaids ≠ []
  mass : ∀ z ∈ m.zaids, ∃ a, lm.mass z = .ok a ∧ 0 < a
  sign : (∀ z ∈ m.zaids, 0 < z.fraction) ∨ (∀ z ∈ m.zaids, z.fraction < 0)

/-- the amount of atoms of a zaid, in some unit: its fraction, or for mass fractions the fraction over the atomic mass (specification) -/
def atoms (lm : Mat.LibMan) (z : Mat.Zaid) : ℚ := if 0 < z.fraction then z.fraction else -z.fraction / lm.massOf z

/-- the share of a zaid in the atoms of the material (specification) -/
def atomShare (lm : Mat.LibMan) (m : Mat.Material) (z : Mat.Zaid) : ℚ := atoms lm z / (m.zaids.map (atoms lm)).sum

/-! ## Switching -/

theorem massOf_eq {lm : Mat.LibMan} {z : Mat.Zaid} {a : ℚ} (h : lm.mass z = .ok a) : lm.massOf z = a := by
  unfold Mat.LibMan.massOf
  rw [h]

theorem norm_of {lm : Mat.LibMan} {g : ℚ → ℚ → ℚ} {zs : List Mat.Zaid} (h : ∀ z ∈ zs, lm.mass z = .ok (lm.massOf z)) :
    lm.norm g zs = .ok (Mat.sumOf zs (fun z => g (lm.massOf z) z.fraction)) := by
  unfold Mat.LibMan.norm
  rw [Mat.mapE_all (g := fun z => g (lm.massOf z) z.fraction) (by
    intro z hz
    simp [Mat.LibMan.massTerm, h z hz])]
  rfl

theorem sum_neg (l : List ℚ) : (l.map (fun x => -x)).sum = -l.sum := by
  induction l with
  | nil => simp
  | cons a l ih => simp only [List.map_cons, List.sum_cons, ih]; ring

theorem sum_pos {l : List Mat.Zaid} {g : Mat.Zaid → ℚ} (hne : l ≠ []) (h : ∀ z ∈ l, 0 < g z) : 0 < (l.map g).sum := by
  have nonneg : ∀ l : List Mat.Zaid, (∀ z ∈ l, 0 < g z) → 0 ≤ (l.map g).sum := by
    intro l
    induction l with
    | nil => intro _; simp
    | cons a l ih =>
      intro h
      have := h a (by simp)
      have := ih (fun z hz => h z (List.mem_cons_of_mem _ hz))
      simp only [List.map_cons, List.sum_cons]
      linarith
  cases l with
  | nil => exact absurd rfl hne
  | cons a l =>
    have := nonneg l (fun z hz => h z (List.mem_cons_of_mem _ hz))
    have := h a (by simp)
    simp only [List.map_cons, List.sum_cons]
    linarith

theorem switch_mass_ok {m : Mat.Material} {lm : Mat.LibMan} (hm : ∀ z ∈ m.zaids, lm.mass z = .ok (lm.massOf z)) (ht : 0 < m.tot)
    (h0 : Mat.sumOf m.zaids (fun z => z.fraction * lm.massOf z) ≠ 0) : ∃ m', m.switch "mass".toList lm = .ok m' := by
  unfold Mat.Material.switch
  rw [if_neg (Ne.symm Mat.atom_ne_mass), if_pos rfl, if_pos ht, norm_of hm]
  simp only
  rw [if_neg h0, Mat.mapSubs_ok hm]
  exact ⟨_, rfl⟩

theorem switch_atom_ok {m : Mat.Material} {lm : Mat.LibMan} (hm : ∀ z ∈ m.zaids, lm.mass z = .ok (lm.massOf z)) (ht : m.tot < 0)
    (h0 : Mat.sumOf m.zaids (fun z => -1 * z.fraction / lm.massOf z) ≠ 0) : ∃ m', m.switch "atom".toList lm = .ok m' := by
  unfold Mat.Material.switch
  rw [if_pos rfl, if_pos ht, norm_of hm]
  simp only
  rw [if_neg h0, Mat.mapSubs_ok hm]
  exact ⟨_, rfl⟩

/-- the material after `get_xs`: atom fractions that add up to one -/
theorem getXs_material {T : Type} {lm : Mat.LibMan} (load : Str → Except PyErr (List T)) (eval : T → ℕ → ℚ) (unity : List Bool) {m : Mat.Material}
    (h : Sound lm m) :
    (getXs lm load eval unity m).1.zaids = m.zaids.map (fun z => { z with fraction := atomShare lm m z }) ∧
    (getXs lm load eval unity m).2 = mixture load eval unity (m.zaids.map (fun z => ⟨z.num, atomShare lm m z⟩)) := by
  have hmass : ∀ z ∈ m.zaids, lm.mass z = .ok (lm.massOf z) := by
    intro z hz
    obtain ⟨a, ha, -⟩ := h.mass z hz
    rw [massOf_eq ha, ha]
  have hpos : ∀ z ∈ m.zaids, 0 < lm.massOf z := by
    intro z hz
    obtain ⟨a, ha, hp⟩ := h.mass z hz
    rwa [massOf_eq ha]
  have key : ∀ m2 : Mat.Material, m2.zaids = m.zaids.map (fun z => { z with fraction := atomShare lm m z }) →
      mixture load eval unity (m2.zaids.map zaidOf) = mixture load eval unity (m.zaids.map (fun z => ⟨z.num, atomShare lm m z⟩)) := by
    intro m2 h2
    rw [h2, List.map_map]
    rfl
  rcases h.sign with hs | hs
  · have ht : 0 < m.tot := sum_pos h.some_zaid hs
    have h0 : Mat.sumOf m.zaids (fun z => z.fraction * lm.massOf z) ≠ 0 :=
      (sum_pos h.some_zaid (g := fun z => z.fraction * lm.massOf z) (fun z hz => mul_pos (hs z hz) (hpos z hz))).ne'
    obtain ⟨m1, h1⟩ := switch_mass_ok hmass ht h0
    obtain ⟨e1, e2⟩ := Mat.switch_mass m lm h1 ht
    have hm1 : ∀ z ∈ m1.zaids, lm.mass z = .ok (lm.massOf z) ∧ 0 < lm.massOf z ∧ z.fraction < 0 := by
      intro z hz
      rw [e1] at hz
      obtain ⟨y, hy, rfl⟩ := List.mem_map.1 hz
      refine ⟨hmass y hy, hpos y hy, ?_⟩
      have := div_pos (mul_pos (hs y hy) (hpos y hy))
        (sum_pos h.some_zaid (g := fun z => z.fraction * lm.massOf z) (fun z hz => mul_pos (hs z hz) (hpos z hz)))
      simp only
      linarith
    have hne1 : m1.zaids ≠ [] := by rw [e1]; simpa using h.some_zaid
    obtain ⟨m2, h2⟩ := switch_atom_ok (m := m1) (fun z hz => (hm1 z hz).1) (by rw [e2]; norm_num)
      (sum_pos hne1 (g := fun z => -1 * z.fraction / lm.massOf z) (fun z hz => div_pos (by have := (hm1 z hz).2.2; linarith) (hm1 z hz).2.1)).ne'
    have hz := Mat.switch_round_atom m lm ht (fun z hz => (hpos z hz).ne') h1 h2
    have hz' : m2.zaids = m.zaids.map (fun z => { z with fraction := atomShare lm m z }) := by
      rw [hz]
      refine List.map_congr_left (fun z hz => ?_)
      have : (m.zaids.map (atoms lm)).sum = m.tot := by
        unfold Mat.Material.tot
        refine congrArg _ (List.map_congr_left (fun y hy => ?_))
        exact if_pos (hs y hy)
      unfold atomShare
      rw [this]
      unfold atoms
      rw [if_pos (hs z hz)]
    unfold getXs
    simp only [h1, h2]
    exact ⟨hz', key m2 hz'⟩
  · have ht : m.tot < 0 := by
      have := sum_pos h.some_zaid (g := fun z => -z.fraction) (fun z hz => by have := hs z hz; linarith)
      have e : (m.zaids.map (fun z => -z.fraction)).sum = -m.tot := by
        have : (fun z : Mat.Zaid => -z.fraction) = (fun x : ℚ => -x) ∘ Mat.Zaid.fraction := rfl
        unfold Mat.Material.tot
        rw [this, ← List.map_map, sum_neg]
      linarith
    have h1 : m.switch "mass".toList lm = .ok m := (Mat.switch_noop m lm).2 ht.le
    obtain ⟨m2, h2⟩ := switch_atom_ok hmass ht
      (sum_pos h.some_zaid (g := fun z => -1 * z.fraction / lm.massOf z) (fun z hz => div_pos (by have := hs z hz; linarith) (hpos z hz))).ne'
    obtain ⟨e1, -⟩ := Mat.switch_atom m lm h2 ht
    have hz' : m2.zaids = m.zaids.map (fun z => { z with fraction := atomShare lm m z }) := by
      rw [e1]
      refine List.map_congr_left (fun z hz => ?_)
      have e : (m.zaids.map (atoms lm)).sum = -(m.zaids.map (fun y => y.fraction / lm.massOf y)).sum := by
        have : m.zaids.map (atoms lm) = (m.zaids.map (fun y => y.fraction / lm.massOf y)).map (fun x : ℚ => -x) := by
          rw [List.map_map]
          refine List.map_congr_left (fun y hy => ?_)
          unfold atoms
          rw [if_neg (by have := hs y hy; linarith)]
          simp only [Function.comp_apply]
          ring
        rw [this, sum_neg]
      unfold atomShare
      rw [e]
      unfold atoms
      rw [if_neg (by have := hs z hz; linarith)]
      congr 1
      rw [neg_div, neg_div_neg_eq]
    unfold getXs
    simp only [h1, h2]
    exact ⟨hz', key m2 hz'⟩

/-! ## C202 -/

/-- the same nuclides, with the atoms of all of them in the same proportion (specification) -/
def SameAtoms (lm : Mat.LibMan) (m m' : Mat.Material) : Prop :=
  ∃ c, 0 < c ∧ List.Forall₂ (fun z z' : Mat.Zaid => z.num = z'.num ∧ atoms lm z' = c * atoms lm z) m.zaids m'.zaids

/-- **C202.** The cross sections of a material depend only on the proportions of the atoms of its nuclides: neither on the type of the fractions, nor on
their sum, nor on how the nuclides are grouped into submaterials, nor on the libraries. -/
theorem xs_same {T : Type} {lm : Mat.LibMan} (load : Str → Except PyErr (List T)) (eval : T → ℕ → ℚ) (unity : List Bool) {m m' : Mat.Material}
    (h : Sound lm m) (h' : Sound lm m') (hs : SameAtoms lm m m') :
    (getXs lm load eval unity m').2 = (getXs lm load eval unity m).2 := by
  rw [(getXs_material load eval unity h).2, (getXs_material load eval unity h').2]
  obtain ⟨c, hc, hf⟩ := hs
  have hsum : (m'.zaids.map (atoms lm)).sum = c * (m.zaids.map (atoms lm)).sum := by
    clear h h'
    generalize m.zaids = l at hf
    generalize m'.zaids = l' at hf
    induction hf with
    | nil => simp
    | cons hd _ ih =>
      simp only [List.map_cons, List.sum_cons, ih, hd.2]
      ring
  congr 1
  have gen : ∀ {l l' : List Mat.Zaid}, List.Forall₂ (fun z z' : Mat.Zaid => z.num = z'.num ∧ atoms lm z' = c * atoms lm z) l l' →
      l'.map (fun z => (⟨z.num, atomShare lm m' z⟩ : Zaid ℚ)) = l.map (fun z => ⟨z.num, atomShare lm m z⟩) := by
    intro l l' hf
    induction hf with
    | nil => rfl
    | cons hd _ ih =>
      simp only [List.map_cons, ih]
      congr 2
      · exact hd.1.symm
      · unfold atomShare
        rw [hsum, hd.2, mul_div_mul_left _ _ hc.ne']
  exact gen hf

/-- the same material in mass fractions (after a switch) has the same proportions -/
theorem switch_sameAtoms {lm : Mat.LibMan} {m m' : Mat.Material} (h : Sound lm m) (hp : ∀ z ∈ m.zaids, 0 < z.fraction)
    (hs : m.switch "mass".toList lm = .ok m') : Sound lm m' ∧ SameAtoms lm m m' := by
  have hpos : ∀ z ∈ m.zaids, 0 < lm.massOf z := by
    intro z hz
    obtain ⟨a, ha, hp⟩ := h.mass z hz
    rwa [massOf_eq ha]
  have ht : 0 < m.tot := sum_pos h.some_zaid hp
  have hS := sum_pos h.some_zaid (g := fun z => z.fraction * lm.massOf z) (fun z hz => mul_pos (hp z hz) (hpos z hz))
  obtain ⟨e1, -⟩ := Mat.switch_mass m lm hs ht
  have hneg : ∀ z ∈ m.zaids, -(z.fraction * lm.massOf z / (m.zaids.map (fun y => y.fraction * lm.massOf y)).sum) < 0 := by
    intro z hz
    have := div_pos (mul_pos (hp z hz) (hpos z hz)) hS
    linarith
  refine ⟨⟨by rw [e1]; simpa using h.some_zaid, ?_, Or.inr ?_⟩, (m.zaids.map (fun y => y.fraction * lm.massOf y)).sum⁻¹, inv_pos.2 hS, ?_⟩
  · intro z hz
    rw [e1] at hz
    obtain ⟨y, hy, rfl⟩ := List.mem_map.1 hz
    exact h.mass y hy
  · intro z hz
    rw [e1] at hz
    obtain ⟨y, hy, rfl⟩ := List.mem_map.1 hz
    exact hneg y hy
  · rw [e1, List.forall₂_map_right_iff, List.forall₂_same]
    intro z hz
    refine ⟨rfl, ?_⟩
    have hn := hneg z hz
    have := (hpos z hz).ne'
    unfold atoms
    rw [if_pos (hp z hz), if_neg (by simpa using hn.le)]
    show -(-(z.fraction * lm.massOf z / _)) / lm.massOf z = _
    rw [neg_neg]
    field_simp

/-! ## C203 -/

/-- **C203 fails.** Asking for the cross sections of a material changes the material, whether or not they are found: its fractions become atom fractions
that add up to one. -/
theorem xs_changes {T : Type} {lm : Mat.LibMan} (load : Str → Except PyErr (List T)) (eval : T → ℕ → ℚ) (unity : List Bool) {m : Mat.Material}
    (h : Sound lm m) :
    (getXs lm load eval unity m).1.tot = 1 ∧ ∀ z ∈ (getXs lm load eval unity m).1.zaids, 0 < z.fraction := by
  have hpos : ∀ z ∈ m.zaids, 0 < atoms lm z := by
    intro z hz
    obtain ⟨a, ha, hp⟩ := h.mass z hz
    unfold atoms
    split
    · assumption
    · rename_i hn
      rcases h.sign with hs | hs
      · exact absurd (hs z hz) hn
      · rw [massOf_eq ha]
        exact div_pos (by have := hs z hz; linarith) hp
  have hS := sum_pos h.some_zaid hpos
  rw [(getXs_material load eval unity h).1]
  constructor
  · unfold Mat.Material.tot
    rw [(getXs_material load eval unity h).1, List.map_map]
    have : (Mat.Zaid.fraction ∘ fun z : Mat.Zaid => { z with fraction := atomShare lm m z }) = fun z => atoms lm z / (m.zaids.map (atoms lm)).sum := rfl
    rw [this]
    have e := Mat.sumOf_div m.zaids (atoms lm) (m.zaids.map (atoms lm)).sum
    unfold Mat.sumOf at e
    rw [e]
    exact div_self hS.ne'
  · intro z hz
    obtain ⟨y, hy, rfl⟩ := List.mem_map.1 hz
    exact div_pos (hpos y hy) hS

/-- **C203 (partial).** What is kept: the nuclides, their libraries and order, and the proportions of the atoms; a material whose fractions are atom
fractions that add up to one keeps its fractions too. -/
theorem xs_keeps_partial {T : Type} {lm : Mat.LibMan} (load : Str → Except PyErr (List T)) (eval : T → ℕ → ℚ) (unity : List Bool) {m : Mat.Material}
    (h : Sound lm m) :
    (getXs lm load eval unity m).1.zaids.map (fun z => (z.num, z.library)) = m.zaids.map (fun z => (z.num, z.library)) ∧
    SameAtoms lm m (getXs lm load eval unity m).1 ∧
    ((∀ z ∈ m.zaids, 0 < z.fraction) → m.tot = 1 → (getXs lm load eval unity m).1.zaids = m.zaids) := by
  have hpos : ∀ z ∈ m.zaids, 0 < atoms lm z := by
    intro z hz
    obtain ⟨a, ha, hp⟩ := h.mass z hz
    unfold atoms
    split
    · assumption
    · rename_i hn
      rcases h.sign with hs | hs
      · exact absurd (hs z hz) hn
      · rw [massOf_eq ha]
        exact div_pos (by have := hs z hz; linarith) hp
  have hS := sum_pos h.some_zaid hpos
  unfold SameAtoms
  rw [(getXs_material load eval unity h).1]
  refine ⟨by rw [List.map_map]; rfl, ⟨_, inv_pos.2 hS, ?_⟩, ?_⟩
  · rw [List.forall₂_map_right_iff, List.forall₂_same]
    intro z hz
    refine ⟨rfl, ?_⟩
    have : 0 < atomShare lm m z := div_pos (hpos z hz) hS
    conv_lhs => unfold atoms
    simp only
    rw [if_pos this]
    unfold atomShare
    rw [div_eq_inv_mul]
  · intro hp ht
    conv_rhs => rw [← List.map_id m.zaids]
    refine List.map_congr_left (fun z hz => ?_)
    have e : (m.zaids.map (atoms lm)).sum = m.tot := by
      unfold Mat.Material.tot
      refine congrArg _ (List.map_congr_left (fun y hy => ?_))
      exact if_pos (hp y hy)
    have : atomShare lm m z = z.fraction := by
      unfold atomShare
      rw [e, ht, div_one]
      exact if_pos (hp z hz)
    rw [this]
    rfl

/-! ## A concrete material -/

/-- two isotopes, masses 1 and 16 (example) -/
def exLm : Mat.LibMan :=
  { libs := ["31c".toList], tables := fun _ _ => true, default := "31c".toList, dosimetry := [],
    isos := [⟨"1001".toList, 1, "H".toList, 1, 1⟩, ⟨"8016".toList, 8, "O".toList, 1, 16⟩] }

/-- a material of the two, in the given fractions (example) -/
def exWater (h o : ℚ) : Mat.Material :=
  ⟨"M1".toList, [⟨[⟨h, "1".toList, "001".toList, some "31c".toList⟩, ⟨o, "8".toList, "016".toList, some "31c".toList⟩], [], none, []⟩]⟩

theorem exWater_sound {h o : ℚ} (hs : (0 < h ∧ 0 < o) ∨ (h < 0 ∧ o < 0)) : Sound exLm (exWater h o) := by
  have hz : (exWater h o).zaids = [⟨h, "1".toList, "001".toList, some "31c".toList⟩, ⟨o, "8".toList, "016".toList, some "31c".toList⟩] := rfl
  refine ⟨by rw [hz]; simp, ?_, ?_⟩
  · rw [hz]
    intro z hm
    simp only [List.mem_cons, List.not_mem_nil, or_false] at hm
    rcases hm with rfl | rfl
    · exact ⟨1, rfl, by norm_num⟩
    · exact ⟨16, rfl, by norm_num⟩
  · rw [hz]
    simpa using hs

/-- water in atoms and in masses has the same cross section ... -/
example : (getXs exLm exLoad (fun t _ => t) [false] (exWater (-2) (-16))).2 = (getXs exLm exLoad (fun t _ => t) [false] (exWater 4 2)).2 := by
  refine xs_same _ _ _ (exWater_sound (Or.inl ⟨by norm_num, by norm_num⟩)) (exWater_sound (Or.inr ⟨by norm_num, by norm_num⟩)) ⟨1 / 2, by norm_num, ?_⟩
  exact .cons ⟨rfl, by decide +kernel⟩ (.cons ⟨rfl, by decide +kernel⟩ .nil)

/-- ... and afterwards the material has other fractions -/
example : (getXs exLm exLoad (fun t _ => t) [false] (exWater (-2) (-16))).1.zaids.map Mat.Zaid.fraction = [2 / 3, 1 / 3] ∧
    (getXs exLm (fun _ => (.error .keyError : Except PyErr (List ℚ))) (fun t _ => t) [false] (exWater (-2) (-16))).1.zaids.map Mat.Zaid.fraction =
      [2 / 3, 1 / 3] := by decide +kernel

end F4Enix.Ace
