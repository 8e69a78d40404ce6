import Verif.WW.StateLemmas
import Mathlib.Algebra.Order.Ring.Pow
/-!
# Properties of the weight-window object (C05 – C09, C46 – C48)
-/
namespace F4Enix.WW
open F4Enix

/-! ## Specification -/

/-- `ww.values[p][e]` (specification) -/
def look (v : Values) (p : Particle) (e : ℚ) : Option Arr3 := (v.get? p).bind (·.get? e)

/-- A consistent window: well-formed values, the ratios are those of the values, and the arrays of
the grid that belong to present particles show them. (specification) -/
structure Inv (sh : Nat × Nat × Nat) (s : Window) : Prop where
  good : Good sh s.values
  rat : s.ratios = ratiosOf s.values
  grid : GridOk s

/-- every value of every map is non-negative (specification) -/
def AllNonNeg (v : Values) : Prop := ∀ p e a, look v p e = some a → NonNeg a

/-! ## Lemmas -/

theorem inv_set {sh} (s : Window) {v : Values} (h : Good sh v) :
    ∃ s', setValues s v = .ok s' ∧ s'.values = v ∧ s'.cyl = s.cyl ∧ Inv sh s' := by
  obtain ⟨s', h1, h2, h3, h4, h5, _⟩ := setValues_good s h
  exact ⟨s', h1, h2, h4, ⟨by rw [h2]; exact h, by rw [h3, h2], h5⟩⟩

theorem good_wf {sh} {v : Values} (h : Good sh v) : Dict.WF v := by
  rcases good_cases h with ⟨d, rfl⟩ | ⟨d, d', rfl⟩ <;> simp [Dict.WF, Dict.keys]

theorem look_mem {v : Values} {p e a} (h : look v p e = some a) : ∃ d, (p, d) ∈ v ∧ (e, a) ∈ d := by
  unfold look at h
  obtain ⟨d, h1, h2⟩ := Option.bind_eq_some_iff.mp h
  exact ⟨d, Dict.mem_of_get? h1, Dict.mem_of_get? h2⟩

theorem mem_look {sh} {v : Values} (h : Good sh v) {p d e a} (h1 : (p, d) ∈ v) (h2 : (e, a) ∈ d) :
    look v p e = some a := by
  unfold look
  rw [Dict.get?_of_mem (good_wf h) h1]
  exact Dict.get?_of_mem (h.each p d h1).2.1 h2

theorem keys_mapval {κ ν μ : Type} (d : Dict κ ν) (f : κ → ν → μ) :
    Dict.keys (d.map (fun x => (x.1, f x.1 x.2))) = Dict.keys d := by
  simp [Dict.keys, Function.comp_def]

theorem mapArrays_good_eq {sh} {v : Values} (h : Good sh v) (f : Arr3 → Arr3) :
    mapArrays f v = v.map (fun pd => (pd.1, pd.2.map (fun ea => (ea.1, f ea.2)))) := by
  rcases good_cases h with ⟨d, rfl⟩ | ⟨d, d', rfl⟩
  · rfl
  · rfl

theorem good_mapArrays {sh} {v : Values} (h : Good sh v) (f : Arr3 → Arr3)
    (hf : ∀ a : Arr3, a.WF → a.shape = sh → (f a).WF ∧ (f a).shape = sh) :
    Good sh (v.map (fun pd => (pd.1, pd.2.map (fun ea => (ea.1, f ea.2))))) := by
  constructor
  · have := keys_mapval v (fun _ (d : Dict ℚ Arr3) => (d.map (fun ea => (ea.1, f ea.2)) : Dict ℚ Arr3))
    rw [this]; exact h.keys
  · intro p d hp
    obtain ⟨⟨p', d'⟩, hm, he⟩ := List.mem_map.mp hp
    simp only [Prod.mk.injEq] at he
    obtain ⟨rfl, rfl⟩ := he
    obtain ⟨h1, h2, h3⟩ := h.each p' d' hm
    refine ⟨by simpa using h1, ?_, ?_⟩
    · unfold Dict.WF; rw [keys_mapval d' (fun _ a => f a)]; exact h2
    · intro e a hea
      obtain ⟨⟨e', a'⟩, hm', he⟩ := List.mem_map.mp hea
      simp only [Prod.mk.injEq] at he
      obtain ⟨rfl, rfl⟩ := he
      exact hf a' (h3 e' a' hm').1 (h3 e' a' hm').2

theorem look_mapArrays (v : Values) (f : Arr3 → Arr3) (p e) :
    look (v.map (fun pd => (pd.1, pd.2.map (fun ea => (ea.1, f ea.2))))) p e = (look v p e).map f := by
  unfold look
  rw [Dict.get?_map_val v (fun d : Dict ℚ Arr3 => (d.map (fun ea => (ea.1, f ea.2)) : Dict ℚ Arr3))]
  cases v.get? p with
  | none => rfl
  | some d => simp only [Option.map_some, Option.bind_some]; exact Dict.get?_map_val d f e

theorem look_ratiosOf (v : Values) (p e) :
    look (ratiosOf v) p e = (look v p e).map maxRatioArray := look_mapArrays v maxRatioArray p e

theorem mitigate1_good {sh} (M : ℚ) (d r : Dict ℚ Arr3)
    (hr : ∀ e a, (e, a) ∈ d → r.get? e = some (maxRatioArray a))
    (hs : ∀ e a, (e, a) ∈ d → a.shape = sh) :
    mitigate1 M r d = .ok (d.map (fun ea => (ea.1, mitA M ea.2))) := by
  induction d with
  | nil => rfl
  | cons ea d ih =>
    obtain ⟨e, a⟩ := ea
    simp only [mitigate1, hr e a (by simp), mitigateArr_ok M a _ (maxRatio_shape a)]
    rw [ih (fun e a h => hr e a (List.mem_cons_of_mem _ h)) (fun e a h => hs e a (List.mem_cons_of_mem _ h))]
    rfl

theorem mitigateAll_good {sh} (M : ℚ) (v r : Values)
    (hr : ∀ p d, (p, d) ∈ v → r.get? p = some (ratios1 d))
    (he : ∀ p d, (p, d) ∈ v → d ≠ [] ∧ Dict.WF d ∧ ∀ e a, (e, a) ∈ d → a.WF ∧ a.shape = sh) :
    mitigateAll M r v = .ok (v.map (fun pd => (pd.1, pd.2.map (fun ea => (ea.1, mitA M ea.2))))) := by
  induction v with
  | nil => rfl
  | cons pd v ih =>
    obtain ⟨p, d⟩ := pd
    have hd := he p d (by simp)
    have h1 : mitigate1 M (ratios1 d) d = .ok (d.map (fun ea => (ea.1, mitA M ea.2))) := by
      apply mitigate1_good (sh := sh)
      · intro e a hm
        unfold ratios1
        rw [Dict.get?_map_val d maxRatioArray, Dict.get?_of_mem hd.2.1 hm]; rfl
      · exact fun e a hm => (hd.2.2 e a hm).2
    simp only [mitigateAll, hr p d (by simp), h1]
    rw [ih (fun p d h => hr p d (List.mem_cons_of_mem _ h)) (fun p d h => he p d (List.mem_cons_of_mem _ h))]
    rfl

theorem mitigate_eq {sh} {s : Window} (h : Inv sh s) (M : ℚ) :
    mitigate s M = setValues s (s.values.map (fun pd => (pd.1, pd.2.map (fun ea => (ea.1, mitA M ea.2))))) := by
  unfold mitigate
  rw [mitigateAll_good (sh := sh) M s.values s.ratios ?_ h.good.each]
  intro p d hp
  rw [h.rat]
  unfold ratiosOf
  rw [Dict.get?_map_val s.values ratios1, Dict.get?_of_mem (good_wf h.good) hp]; rfl

theorem good_mitA {sh} {v : Values} (h : Good sh v) (M : ℚ) :
    Good sh (v.map (fun pd => (pd.1, pd.2.map (fun ea => (ea.1, mitA M ea.2))))) :=
  good_mapArrays h (mitA M) (fun _ h1 h2 => ⟨mitA_wf M h1, h2⟩)

theorem good_map {sh} {v : Values} (h : Good sh v) (f : ℚ → ℚ) :
    Good sh (v.map (fun pd => (pd.1, pd.2.map (fun ea => (ea.1, ea.2.map f))))) :=
  good_mapArrays h (Arr3.map f) (fun _ h1 h2 => ⟨map_wf f h1, h2⟩)

theorem particles_one {sh} {v : Values} (h : Good sh v) :
    (particlesOf v).length = 1 ↔ ∃ d, v = [(.neutron, d)] := by
  rcases good_cases h with ⟨d, rfl⟩ | ⟨d, d', rfl⟩ <;> simp [particlesOf]

theorem particles_two {sh} {v : Values} (h : Good sh v) :
    (particlesOf v).length = 2 ↔ ∃ d d', v = [(.neutron, d), (.photon, d')] := by
  rcases good_cases h with ⟨d, rfl⟩ | ⟨d, d', rfl⟩ <;> simp [particlesOf]

/-! ## C05: mitigation of long histories -/

/-- **C05**. On a consistent non-negative window `mitigate_long_histories(M)` with `M ≥ 1` succeeds;
every value is set to zero where its ratio exceeded `M` and unchanged elsewhere; every ratio of the
new window is at most `M`; no particle or energy appears or disappears. -/
theorem c05_mitigate {sh} (s : Window) (h : Inv sh s) (hn : AllNonNeg s.values) (M : ℚ) (hM : 1 ≤ M) :
    ∃ s', mitigate s M = .ok s' ∧ Inv sh s' ∧ AllNonNeg s'.values ∧
      (∀ p e, (look s'.values p e).isSome = (look s.values p e).isSome) ∧
      (∀ p e a r a', look s.values p e = some a → look s.ratios p e = some r →
        look s'.values p e = some a' → ∀ k j i v q, a.get k j i = some v → r.get k j i = some q →
          a'.get k j i = some (if q > M then 0 else v)) ∧
      (∀ p e r', look s'.ratios p e = some r' → ∀ k j i q, r'.get k j i = some q → q ≤ M) := by
  obtain ⟨s', h1, h2, _, h4⟩ := inv_set s (good_mitA h.good M)
  rw [← mitigate_eq h M] at h1
  have hl : ∀ p e, look s'.values p e = (look s.values p e).map (mitA M) := by
    intro p e; rw [h2]; exact look_mapArrays s.values (mitA M) p e
  have hwf : ∀ p e a, look s.values p e = some a → a.WF := by
    intro p e a ha
    obtain ⟨d, hd, he⟩ := look_mem ha
    exact ((h.good.each p d hd).2.2 e a he).1
  refine ⟨s', h1, h4, ?_, ?_, ?_, ?_⟩
  · intro p e a ha
    rw [hl] at ha
    obtain ⟨b, hb, rfl⟩ := Option.map_eq_some_iff.mp ha
    exact mitA_nonneg M (hwf p e b hb) (hn p e b hb)
  · intro p e; rw [hl]; simp
  · intro p e a r a' ha hr ha' k j i v q hv hq
    rw [h.rat, look_ratiosOf, ha] at hr
    obtain rfl := Option.some.inj hr
    rw [hl, ha] at ha'
    obtain rfl := Option.some.inj ha'
    exact mitA_get M a k j i v q hv hq
  · intro p e r' hr' k j i q hq
    rw [h4.rat, look_ratiosOf, hl] at hr'
    obtain ⟨b, hb, rfl⟩ := Option.map_eq_some_iff.mp hr'
    obtain ⟨a, ha, rfl⟩ := Option.map_eq_some_iff.mp hb
    exact mitA_ratio_le M hM (hwf p e a ha) (hn p e a ha) k j i q hq

/-- **C05** (idempotence). Mitigating twice is mitigating once. -/
theorem c05_idempotent {sh} (s s' : Window) (h : Inv sh s) (hn : AllNonNeg s.values) (M : ℚ)
    (hM : 1 ≤ M) (hs : mitigate s M = .ok s') :
    ∃ s'', mitigate s' M = .ok s'' ∧ s''.values = s'.values ∧ s''.ratios = s'.ratios := by
  obtain ⟨t, h1, hi, hn', _, _, hle⟩ := c05_mitigate s h hn M hM
  rw [hs] at h1; obtain rfl := Except.ok.inj h1
  obtain ⟨s'', g1, g2, _, g4⟩ := inv_set s' (good_mitA hi.good M)
  rw [← mitigate_eq hi M] at g1
  have hv : s''.values = s'.values := by
    rw [g2]
    conv_rhs => rw [← List.map_id s'.values]
    apply List.map_congr_left
    rintro ⟨p, d⟩ hp
    simp only [id, Prod.mk.injEq, true_and]
    conv_rhs => rw [← List.map_id d]
    apply List.map_congr_left
    rintro ⟨e, a⟩ he
    have hl := mem_look hi.good hp he
    simp only [id, Prod.mk.injEq, true_and]
    apply mitA_fix M ((hi.good.each p d hp).2.2 e a he).1
    intro k j i r hr
    exact hle p e (maxRatioArray a) (by rw [hi.rat, look_ratiosOf, hl]; rfl) k j i r hr
  exact ⟨s'', g1, hv, by rw [g4.rat, hi.rat, hv]⟩

/-! ## C06: scaling and softening -/

/-- **C06** (multiply). Every value is multiplied, nothing else changes. -/
theorem c06_multiply {sh} (s : Window) (h : Inv sh s) (f : ℚ) :
    ∃ s', multiply s f = .ok s' ∧ Inv sh s' ∧ s'.values.keys = s.values.keys ∧
      ∀ p e, look s'.values p e = (look s.values p e).map (Arr3.map (· * f)) := by
  unfold multiply
  split
  · rename_i hf
    subst hf
    refine ⟨s, rfl, h, rfl, ?_⟩
    intro p e
    have : Arr3.map (fun x : ℚ => x * 1) = id := by funext a; simp [Arr3.map]
    rw [this]; simp
  · obtain ⟨s', h1, h2, _, h4⟩ := inv_set s (good_map h.good (· * f))
    refine ⟨s', ?_, h4, ?_, ?_⟩
    · rw [mapArrays_good_eq h.good]; exact h1
    · rw [h2]
      exact keys_mapval s.values (fun _ (d : Dict ℚ Arr3) => (d.map (fun ea => (ea.1, ea.2.map (· * f))) : Dict ℚ Arr3))
    · intro p e; rw [h2]; exact look_mapArrays s.values (Arr3.map (· * f)) p e

/-- **C06** (multiply by 1). A no-op. -/
theorem c06_multiply_one (s : Window) : multiply s 1 = .ok s := by simp [multiply]

/-- **C06** (composition). Multiplying by `f` and then by `g` gives the values and the ratios of
multiplying by `f * g`. -/
theorem c06_multiply_comp {sh} (s : Window) (h : Inv sh s) (f g : ℚ) :
    ∃ s1 s2 s3, multiply s f = .ok s1 ∧ multiply s1 g = .ok s2 ∧ multiply s (f * g) = .ok s3 ∧
      ∀ p e, look s2.values p e = look s3.values p e ∧ look s2.ratios p e = look s3.ratios p e := by
  obtain ⟨s1, a1, a2, _, a4⟩ := c06_multiply s h f
  obtain ⟨s2, b1, b2, _, b4⟩ := c06_multiply s1 a2 g
  obtain ⟨s3, c1, c2, _, c4⟩ := c06_multiply s h (f * g)
  refine ⟨s1, s2, s3, a1, b1, c1, ?_⟩
  intro p e
  have hv : look s2.values p e = look s3.values p e := by
    rw [b4, a4, c4, Option.map_map]
    congr 1
    funext a; simp [Arr3.map, Function.comp_def, mul_assoc]
  exact ⟨hv, by rw [b2.rat, c2.rat, look_ratiosOf, look_ratiosOf, hv]⟩

/-- **C06** (ratios). A positive factor leaves all the ratios as they were. -/
theorem c06_multiply_ratios {sh} (s s' : Window) (h : Inv sh s) (hn : AllNonNeg s.values) (f : ℚ)
    (hf : 0 < f) (hs : multiply s f = .ok s') : ∀ p e, look s'.ratios p e = look s.ratios p e := by
  obtain ⟨t, h1, hi, _, hl⟩ := c06_multiply s h f
  rw [hs] at h1; obtain rfl := Except.ok.inj h1
  intro p e
  rw [hi.rat, h.rat, look_ratiosOf, look_ratiosOf, hl]
  cases ha : look s.values p e with
  | none => rfl
  | some a =>
    obtain ⟨d, hd, he⟩ := look_mem ha
    simp only [Option.map_some]
    rw [maxRatio_scale f hf a ((h.good.each p d hd).2.2 e a he).1 (hn p e a ha)]

/-- **C06** (soften). Every value is raised to the power, nothing else changes. `pw` is any power
function with `pw x 1 = x`. -/
theorem c06_soften {sh} (pw : ℚ → ℚ → ℚ) (hpw : ∀ x, pw x 1 = x) (s : Window) (h : Inv sh s) (f : ℚ) :
    ∃ s', soften pw s f = .ok s' ∧ Inv sh s' ∧ s'.values.keys = s.values.keys ∧
      ∀ p e, look s'.values p e = (look s.values p e).map (Arr3.map (fun x => pw x f)) := by
  unfold soften
  split
  · rename_i hf
    subst hf
    refine ⟨s, rfl, h, rfl, ?_⟩
    intro p e
    have : Arr3.map (fun x : ℚ => pw x 1) = id := by funext a; simp [Arr3.map, hpw]
    rw [this]; simp
  · obtain ⟨s', h1, h2, _, h4⟩ := inv_set s (good_map h.good (fun x => pw x f))
    refine ⟨s', ?_, h4, ?_, ?_⟩
    · rw [mapArrays_good_eq h.good]; exact h1
    · rw [h2]
      exact keys_mapval s.values (fun _ (d : Dict ℚ Arr3) => (d.map (fun ea => (ea.1, ea.2.map (fun x => pw x f))) : Dict ℚ Arr3))
    · intro p e; rw [h2]; exact look_mapArrays s.values (Arr3.map (fun x => pw x f)) p e

/-- **C06** (soften, ratios). With a natural exponent `n ≥ 1` every ratio is raised to the same
power. -/
theorem c06_soften_ratios {sh} (pw : ℚ → ℚ → ℚ) (hpw : ∀ x (n : ℕ), pw x n = x ^ n) (s s' : Window)
    (h : Inv sh s) (hn : AllNonNeg s.values) (n : ℕ) (hn1 : n ≠ 0)
    (hs : soften pw s (n : ℚ) = .ok s') :
    ∀ p e, look s'.values p e = (look s.values p e).map (Arr3.map (· ^ n)) ∧
      look s'.ratios p e = (look s.ratios p e).map (Arr3.map (· ^ n)) := by
  obtain ⟨t, h1, hi, _, hl⟩ := c06_soften pw (fun x => by simpa using hpw x 1) s h n
  rw [hs] at h1; obtain rfl := Except.ok.inj h1
  have hf : (fun x => pw x (n : ℚ)) = (· ^ n) := by funext x; exact hpw x n
  intro p e
  refine ⟨by rw [hl, hf], ?_⟩
  rw [hi.rat, h.rat, look_ratiosOf, look_ratiosOf, hl, hf]
  cases ha : look s.values p e with
  | none => rfl
  | some a =>
    obtain ⟨d, hd, he⟩ := look_mem ha
    simp only [Option.map_some]
    rw [maxRatio_map (· ^ n) (· ^ n) a ((h.good.each p d hd).2.2 e a he).1 (hn p e a ha)
      (by simp [hn1]) (fun x hx => by positivity) (fun x y _ _ => by rw [div_pow]) (by simp)
      (fun x y hx hxy => pow_le_pow_left₀ hx.le hxy n)]

/-! ## C07: the particle state machine -/

/-- the particles present (specification) -/
def present (s : Window) : List Particle := s.values.keys

/-- **C07** (add, one particle). The photon window gets the neutron energies and is `value *
norm**soft`; the neutron window is untouched. -/
theorem c07_add {sh} (pw : ℚ → ℚ → ℚ) (s : Window) (h : Inv sh s) (h1 : present s = [.neutron])
    (norm soft : ℚ) : ∃ s', addParticle pw s norm soft = .ok s' ∧ Inv sh s' ∧
      present s' = [.neutron, .photon] ∧
      (∀ e, look s'.values .neutron e = look s.values .neutron e) ∧
      (∀ e, look s'.ratios .neutron e = look s.ratios .neutron e) ∧
      (∀ e, look s'.values .photon e =
        (look s.values .neutron e).map (Arr3.map (· * pw norm soft))) := by
  obtain ⟨d, hv⟩ : ∃ d, s.values = [(.neutron, d)] := by
    rcases good_cases h.good with hv | ⟨d, d', hv⟩
    · exact hv
    · rw [present, hv] at h1; simp [Dict.keys] at h1
  have hg := h.good
  rw [hv] at hg
  obtain ⟨e1, e2, e3⟩ := hg.each .neutron d (by simp)
  have hgood : Good sh [(.neutron, d), (.photon, d.map (fun ea => (ea.1, ea.2.map (· * pw norm soft))))] := by
    constructor
    · right; rfl
    · intro p x hp
      simp only [List.mem_cons, List.not_mem_nil, or_false, Prod.mk.injEq] at hp
      rcases hp with ⟨rfl, rfl⟩ | ⟨rfl, rfl⟩
      · exact ⟨e1, e2, e3⟩
      · refine ⟨by simpa using e1, ?_, ?_⟩
        · unfold Dict.WF; rw [keys_mapval d (fun _ a => a.map (· * pw norm soft))]; exact e2
        · intro e a hea
          obtain ⟨⟨e', a'⟩, hm', he⟩ := List.mem_map.mp hea
          simp only [Prod.mk.injEq] at he
          obtain ⟨rfl, rfl⟩ := he
          exact ⟨map_wf _ (e3 e' a' hm').1, (e3 e' a' hm').2⟩
  obtain ⟨s', g1, g2, _, g4⟩ := inv_set s hgood
  have hval : ∀ e, look s'.values .neutron e = look s.values .neutron e := by
    intro e; rw [g2, hv]; rfl
  refine ⟨s', ?_, g4, ?_, hval, ?_, ?_⟩
  · unfold addParticle
    rw [if_neg (by rw [hv]; simp [particlesOf]), hv]
    exact g1
  · rw [present, g2]; rfl
  · intro e; rw [g4.rat, h.rat, look_ratiosOf, look_ratiosOf, hval]
  · intro e
    rw [g2, hv]
    show Dict.get? (d.map (fun ea => (ea.1, ea.2.map (· * pw norm soft)))) e = _
    rw [Dict.get?_map_val d (Arr3.map (· * pw norm soft))]; rfl

/-- **C07** (remove, two particles). Only the neutron window remains, untouched. -/
theorem c07_remove {sh} (s : Window) (h : Inv sh s) (h2 : present s = [.neutron, .photon]) :
    ∃ s', removeParticle s = .ok s' ∧ Inv sh s' ∧ present s' = [.neutron] ∧
      (∀ e, look s'.values .neutron e = look s.values .neutron e) ∧
      (∀ e, look s'.ratios .neutron e = look s.ratios .neutron e) ∧
      (∀ e, look s'.values .photon e = none ∧ look s'.ratios .photon e = none) := by
  obtain ⟨d, d', hv⟩ : ∃ d d', s.values = [(.neutron, d), (.photon, d')] := by
    rcases good_cases h.good with ⟨d, hv⟩ | hv
    · rw [present, hv] at h2; simp [Dict.keys] at h2
    · exact hv
  have hg := h.good
  rw [hv] at hg
  have hgood : Good sh [(.neutron, d)] := by
    constructor
    · left; rfl
    · intro p x hp
      simp only [List.mem_singleton, Prod.mk.injEq] at hp
      obtain ⟨rfl, rfl⟩ := hp
      exact hg.each .neutron x (by simp)
  obtain ⟨s', g1, g2, _, g4⟩ := inv_set s hgood
  have hval : ∀ e, look s'.values .neutron e = look s.values .neutron e := by
    intro e; rw [g2, hv]; rfl
  have hph : ∀ e, look s'.values .photon e = none := by intro e; rw [g2]; rfl
  refine ⟨s', ?_, g4, ?_, hval, ?_, ?_⟩
  · unfold removeParticle
    rw [if_neg (by rw [hv]; simp [particlesOf]), hv]
    exact g1
  · rw [present, g2]; rfl
  · intro e; rw [g4.rat, h.rat, look_ratiosOf, look_ratiosOf, hval]
  · intro e; exact ⟨hph e, by rw [g4.rat, look_ratiosOf, hph]; rfl⟩

/-- **C07** (refusals). Adding a third particle and removing the last one are refused with
`ValueError`; nothing else is ever refused. -/
theorem c07_refused_iff {sh} (pw : ℚ → ℚ → ℚ) (hpw : ∀ x, pw x 1 = x) (s : Window) (h : Inv sh s)
    (o : Op) : step pw s o = .error .valueError ∧
        ((∃ n x, o = .addParticle n x) ∧ present s = [.neutron, .photon] ∨
          o = .removeParticle ∧ present s = [.neutron]) ∨
      (∃ s', step pw s o = .ok s' ∧ Inv sh s') ∧
        ¬ ((∃ n x, o = .addParticle n x) ∧ present s = [.neutron, .photon] ∨
          o = .removeParticle ∧ present s = [.neutron]) := by
  have hk : present s = [.neutron] ∨ present s = [.neutron, .photon] := h.good.keys
  cases o with
  | multiply f =>
    right; obtain ⟨s', h1, h2, _⟩ := c06_multiply s h f
    exact ⟨⟨s', h1, h2⟩, by simp⟩
  | soften f =>
    right; obtain ⟨s', h1, h2, _⟩ := c06_soften pw hpw s h f
    exact ⟨⟨s', h1, h2⟩, by simp⟩
  | mitigate M =>
    right
    obtain ⟨s', h1, _, _, h4⟩ := inv_set s (good_mitA h.good M)
    rw [← mitigate_eq h M] at h1
    exact ⟨⟨s', h1, h4⟩, by simp⟩
  | addParticle n x =>
    rcases hk with hk | hk
    · right; obtain ⟨s', h1, h2, _⟩ := c07_add pw s h hk n x
      exact ⟨⟨s', h1, h2⟩, by simp [hk]⟩
    · left
      refine ⟨?_, Or.inl ⟨⟨n, x, rfl⟩, hk⟩⟩
      have : (particlesOf s.values).length = 2 := by
        rw [particles_two h.good]
        rcases good_cases h.good with ⟨d, hv⟩ | hv
        · rw [present, hv] at hk; simp [Dict.keys] at hk
        · exact hv
      simp [step, addParticle, this]
  | removeParticle =>
    rcases hk with hk | hk
    · left
      refine ⟨?_, Or.inr ⟨rfl, hk⟩⟩
      have : (particlesOf s.values).length = 1 := by
        rw [particles_one h.good]
        rcases good_cases h.good with hv | ⟨d, d', hv⟩
        · exact hv
        · rw [present, hv] at hk; simp [Dict.keys] at hk
      simp [step, removeParticle, this]
    · right; obtain ⟨s', h1, h2, _⟩ := c07_remove s h hk
      exact ⟨⟨s', h1, h2⟩, by simp [hk]⟩

/-- **C07** (histories). A consistent window stays consistent through every history of operations,
refused ones included: one or two particles, ratios defined for exactly the same particles and
energies as the values and equal to the ratios of the values, one shape throughout. -/
theorem c07_history {sh} (pw : ℚ → ℚ → ℚ) (hpw : ∀ x, pw x 1 = x) (s : Window) (h : Inv sh s)
    (ops : List Op) : Inv sh (run pw s ops) := by
  induction ops generalizing s with
  | nil => exact h
  | cons o ops ih =>
    unfold run
    rcases c07_refused_iff pw hpw s h o with ⟨he, _⟩ | ⟨⟨s', hs, hi⟩, _⟩
    · rw [he]; exact ih s h
    · rw [hs]; exact ih s' hi

/-- **C07** (what consistency means). -/
theorem c07_consistent {sh} (s : Window) (h : Inv sh s) :
    (present s = [.neutron] ∨ present s = [.neutron, .photon]) ∧
    ∀ p e, look s.ratios p e = (look s.values p e).map maxRatioArray ∧
      ∀ a, look s.values p e = some a → a.WF ∧ (a.nk, a.nj, a.ni) = sh := by
  refine ⟨h.good.keys, ?_⟩
  intro p e
  refine ⟨by rw [h.rat, look_ratiosOf], ?_⟩
  intro a ha
  obtain ⟨d, hd, he⟩ := look_mem ha
  exact (h.good.each p d hd).2.2 e a he

/-- **C07** (remove undoes add). -/
theorem c07_remove_add {sh} (pw : ℚ → ℚ → ℚ) (s : Window) (h : Inv sh s)
    (h1 : present s = [.neutron]) (norm soft : ℚ) :
    ∃ s1 s2, addParticle pw s norm soft = .ok s1 ∧ removeParticle s1 = .ok s2 ∧
      present s2 = present s ∧ ∀ p e, look s2.values p e = look s.values p e ∧
        look s2.ratios p e = look s.ratios p e := by
  obtain ⟨s1, a1, a2, a3, a4, a5, _⟩ := c07_add pw s h h1 norm soft
  obtain ⟨s2, b1, b2, b3, b4, b5, b6⟩ := c07_remove s1 a2 a3
  refine ⟨s1, s2, a1, b1, by rw [b3, h1], ?_⟩
  intro p e
  have hnone : look s.values .photon e = none := by
    unfold look
    have : s.values.get? .photon = none := (Dict.get?_eq_none_iff _ _).mpr (by
      show Particle.photon ∉ present s; rw [h1]; simp)
    rw [this]; rfl
  cases p with
  | neutron => exact ⟨by rw [b4, a4], by rw [b5, a5]⟩
  | photon =>
    exact ⟨by rw [(b6 e).1, hnone], by rw [(b6 e).2, h.rat, look_ratiosOf, hnone]; rfl⟩

/-! ### windows built from parsed data are consistent -/

theorem blockOf_wf (nfz nfy nfx : Nat) (vals : List ℚ) (n j : Nat) (hj : j < n)
    (hl : vals.length = n * nfz * nfy * nfx) : (blockOf nfz nfy nfx vals j).WF := by
  simp only [Arr3.WF, blockOf, List.length_take, List.length_drop, hl]
  have h2 : (j + 1) * (nfz * nfy * nfx) ≤ n * (nfz * nfy * nfx) := Nat.mul_le_mul_right _ hj
  have h3 : n * nfz * nfy * nfx = n * (nfz * nfy * nfx) := by ring
  rw [Nat.add_mul, Nat.one_mul] at h2
  omega

theorem fillEnergies_spec (nfz nfy nfx : Nat) (vals : List ℚ) (n : Nat)
    (hl : vals.length = n * nfz * nfy * nfx) (es : List ℚ) (j : Nat) (hj : j + es.length ≤ n)
    (d : Dict ℚ Arr3) (hd : Dict.WF d ∧ ∀ e a, (e, a) ∈ d → a.WF ∧ a.shape = (nfz, nfy, nfx)) :
    let r := fillEnergies nfz nfy nfx vals j es d
    Dict.WF r ∧ (∀ e a, (e, a) ∈ r → a.WF ∧ a.shape = (nfz, nfy, nfx)) ∧
    (∀ e, e ∈ Dict.keys r ↔ e ∈ Dict.keys d ∨ e ∈ es) := by
  induction es generalizing j d with
  | nil => exact ⟨hd.1, hd.2, by simp [fillEnergies]⟩
  | cons e es ih =>
    simp only [List.length_cons] at hj
    have hset : ∀ e' a, (e', a) ∈ d.set e (blockOf nfz nfy nfx vals j) →
        a.WF ∧ a.shape = (nfz, nfy, nfx) := by
      intro e' a hm
      have hg := Dict.get?_of_mem (Dict.WF_set hd.1 e _) hm
      rw [Dict.get?_set] at hg
      split at hg
      · obtain rfl := Option.some.inj hg
        exact ⟨blockOf_wf nfz nfy nfx vals n j (by omega) hl, rfl⟩
      · exact hd.2 e' a (Dict.mem_of_get? hg)
    obtain ⟨h1, h2, h3⟩ := ih (j + 1) (by omega) _ ⟨Dict.WF_set hd.1 e _, hset⟩
    refine ⟨h1, h2, ?_⟩
    intro x
    simp only [fillEnergies]
    rw [h3, Dict.mem_keys_set, List.mem_cons]
    tauto

theorem nested1_good (nfz nfy nfx : Nat) (es vals : List ℚ) (d : Dict ℚ Arr3) (hne : es ≠ [])
    (h : nested1 nfz nfy nfx es vals = .ok d) :
    d ≠ [] ∧ Dict.WF d ∧ ∀ e a, (e, a) ∈ d → a.WF ∧ a.shape = (nfz, nfy, nfx) := by
  unfold nested1 at h
  split at h
  · rename_i hl
    obtain rfl := Except.ok.inj h
    obtain ⟨h1, h2, h3⟩ := fillEnergies_spec nfz nfy nfx vals es.length hl es 0 (by omega) []
      ⟨by simp [Dict.WF, Dict.keys], by simp⟩
    refine ⟨?_, h1, h2⟩
    intro hnil
    obtain ⟨e, es', rfl⟩ := List.exists_cons_of_ne_nil hne
    have := (h3 e).mpr (Or.inr (by simp))
    rw [hnil] at this; simp [Dict.keys] at this
  · cases h

/-- **C07** (loading). Values built from a parsed file are well formed whenever building them does
not raise and every particle has an energy, and the constructor then yields a consistent window. -/
theorem c07_load (ni : ℤ) (nfz nfy nfx : Nat) (es vs : List (List ℚ)) (v : Values) (cyl : Bool)
    (hne : ∀ x ∈ es, x ≠ []) (h : nested ni nfz nfy nfx es vs = .ok v) :
    ∃ s, newWW cyl v = .ok s ∧ s.values = v ∧ Inv (nfz, nfy, nfx) s := by
  have hgood : Good (nfz, nfy, nfx) v := by
    unfold nested at h
    cases he0 : es[0]? with
    | none => rw [he0] at h; cases h
    | some e0 =>
      cases hv0 : vs[0]? with
      | none => rw [he0, hv0] at h; cases h
      | some v0 =>
        rw [he0, hv0] at h
        simp only at h
        cases h0 : nested1 nfz nfy nfx e0 v0 with
        | error x => rw [h0] at h; cases h
        | ok d0 =>
          rw [h0] at h
          simp only at h
          have g0 := nested1_good nfz nfy nfx e0 v0 d0 (hne e0 (List.mem_of_getElem? he0)) h0
          split at h
          · cases he1 : es[1]? with
            | none => rw [he1] at h; cases h
            | some e1 =>
              cases hv1 : vs[1]? with
              | none => rw [he1, hv1] at h; cases h
              | some v1 =>
                rw [he1, hv1] at h
                simp only at h
                cases h1 : nested1 nfz nfy nfx e1 v1 with
                | error x => rw [h1] at h; cases h
                | ok d1 =>
                  rw [h1] at h
                  obtain rfl := Except.ok.inj h
                  have g1 := nested1_good nfz nfy nfx e1 v1 d1 (hne e1 (List.mem_of_getElem? he1)) h1
                  refine ⟨Or.inr rfl, ?_⟩
                  intro p d hp
                  simp only [List.mem_cons, List.not_mem_nil, or_false, Prod.mk.injEq] at hp
                  rcases hp with ⟨rfl, rfl⟩ | ⟨rfl, rfl⟩
                  · exact g0
                  · exact g1
          · obtain rfl := Except.ok.inj h
            refine ⟨Or.inl rfl, ?_⟩
            intro p d hp
            simp only [List.mem_singleton, Prod.mk.injEq] at hp
            obtain ⟨rfl, rfl⟩ := hp
            exact g0
  obtain ⟨s, h1, h2, _, h4⟩ := inv_set { values := [], ratios := [], grid := [], cyl := cyl } hgood
  exact ⟨s, h1, h2, h4⟩

/-- a loaded two-energy window and a history on it -/
example : ∃ v, nested 1 1 1 2 [[1, 20]] [[1, 2, 3, 4]] = .ok v ∧
    v = [(.neutron, [(1, ⟨1, 1, 2, [1, 2]⟩), (20, ⟨1, 1, 2, [3, 4]⟩)])] := ⟨_, by decide +kernel, rfl⟩

/-! ## C08: GVR generation -/

theorem maxList_spec {l : List ℚ} {m : ℚ} (h : maxList l = some m) : m ∈ l ∧ ∀ x ∈ l, x ≤ m := by
  cases l with
  | nil => simp [maxList] at h
  | cons x xs =>
    simp only [maxList, Option.some.injEq] at h
    subst h
    obtain ⟨h1, h2, h3⟩ := foldl_max_spec xs x
    refine ⟨?_, ?_⟩
    · rcases h3 with h3 | h3
      · rw [h3]; simp
      · exact List.mem_cons_of_mem _ h3
    · intro y hy
      rcases List.mem_cons.mp hy with rfl | hy
      · exact h1
      · exact h2 y hy

/-- **C08**. From a flux map with positive maximum `m` (over all voxels and energies) and `r > -1`
the generated window has, in every voxel, the flux times `2 / ((r + 1) m)`; its maximum is
`2 / (r + 1)` and is attained; zeros stay zeros; and the neighbour ratios are those of the flux when
the flux is non-negative. -/
theorem c08_gvr (d : Dict ℚ Arr3) (r m : ℚ)
    (hm : m ∈ (d.map (fun ea => ea.2.data)).flatten)
    (hmax : ∀ x ∈ (d.map (fun ea => ea.2.data)).flatten, x ≤ m) (hpos : 0 < m) (hr : -1 < r) :
    ∃ d', toGvr d r = .ok d' ∧ d'.map Prod.fst = d.map Prod.fst ∧
      (∀ e a', (e, a') ∈ d' ↔ ∃ a, (e, a) ∈ d ∧ a' = a.map (· * (2 / ((r + 1) * m)))) ∧
      (2 / (r + 1)) ∈ (d'.map (fun ea => ea.2.data)).flatten ∧
      (∀ x ∈ (d'.map (fun ea => ea.2.data)).flatten, x ≤ 2 / (r + 1)) ∧
      (∀ e a, (e, a) ∈ d → a.WF → NonNeg a →
        maxRatioArray (a.map (· * (2 / ((r + 1) * m)))) = maxRatioArray a) := by
  have hr1 : 0 < r + 1 := by linarith
  have hc : 0 < 2 / ((r + 1) * m) := by positivity
  have hml : maxList ((d.map (fun ea => ea.2.data)).flatten) = some m := by
    cases hl : maxList ((d.map (fun ea => ea.2.data)).flatten) with
    | none =>
      cases hd : (d.map (fun ea => ea.2.data)).flatten with
      | nil => rw [hd] at hm; simp at hm
      | cons x xs => rw [hd] at hl; simp [maxList] at hl
    | some m' =>
      obtain ⟨h1, h2⟩ := maxList_spec hl
      exact congrArg some (le_antisymm (hmax m' h1) (h2 m hm))
  have hfun : ∀ a : Arr3, (a.map (· / m)).map (· * (2 / (r + 1))) = a.map (· * (2 / ((r + 1) * m))) := by
    intro a
    simp only [Arr3.map, List.map_map]
    congr 2
    funext x
    simp only [Function.comp]
    field_simp
  refine ⟨d.map (fun ea => (ea.1, (ea.2.map (· / m)).map (· * (2 / (r + 1))))), ?_, ?_, ?_, ?_, ?_, ?_⟩
  · unfold toGvr
    rw [hml]
    simp only
    rw [if_neg hpos.ne', if_neg hr1.ne']
  · simp
  · intro e a'
    simp only [hfun, List.mem_map, Prod.mk.injEq]
    constructor
    · rintro ⟨⟨e', a⟩, h1, rfl, rfl⟩; exact ⟨a, h1, rfl⟩
    · rintro ⟨a, h1, rfl⟩; exact ⟨(e, a), h1, rfl, rfl⟩
  · simp only [hfun, List.map_map, List.mem_flatten, List.mem_map] at hm ⊢
    obtain ⟨l, ⟨⟨e, a⟩, h1, rfl⟩, h2⟩ := hm
    refine ⟨_, ⟨(e, a), h1, rfl⟩, ?_⟩
    simp only [Function.comp, Arr3.map, List.mem_map]
    exact ⟨m, h2, by field_simp⟩
  · intro x hx
    simp only [hfun, List.map_map, List.mem_flatten, List.mem_map] at hx hmax
    obtain ⟨l, ⟨⟨e, a⟩, h1, rfl⟩, h2⟩ := hx
    simp only [Function.comp, Arr3.map, List.mem_map] at h2
    obtain ⟨y, hy, rfl⟩ := h2
    have hle := hmax y ⟨a.data, ⟨(e, a), h1, rfl⟩, hy⟩
    have e1 : m * (2 / ((r + 1) * m)) = 2 / (r + 1) := by field_simp
    calc y * (2 / ((r + 1) * m)) ≤ m * (2 / ((r + 1) * m)) := by nlinarith
      _ = _ := e1
  · intro e a h1 hw hn
    exact maxRatio_scale _ hc a hw hn

/-- non-trivial flux map -/
example : toGvr [((100 : ℚ), ⟨1, 1, 3, [4, 0, 1]⟩)] 3 = .ok [(100, ⟨1, 1, 3, [1/2, 0, 1/8]⟩)] := by
  decide +kernel

/-! ## C09: add_particle and softening -/

/-- What the documentation of `add_particle` promises: the neutron values "multiplied by a
normalization factor and softened", for every voxel. (specification) -/
def AddDocumented (pw : ℚ → ℚ → ℚ) (s s' : Window) (norm soft : ℚ) : Prop :=
  ∀ e, look s'.values .photon e =
    (look s.values .neutron e).map (Arr3.map (fun x => pw (x * norm) soft))

/-- **C09** (the part that holds): without softening the photon window is as documented. Missing:
softening factors other than 1, for which the claim is false (`c09_negation`). -/
theorem c09_documented_partial {sh} (pw : ℚ → ℚ → ℚ) (hpw : ∀ x, pw x 1 = x) (s : Window)
    (h : Inv sh s) (h1 : present s = [.neutron]) (norm : ℚ) :
    ∃ s', addParticle pw s norm 1 = .ok s' ∧ AddDocumented pw s s' norm 1 := by
  obtain ⟨s', a1, _, _, _, _, a6⟩ := c07_add pw s h h1 norm 1
  refine ⟨s', a1, ?_⟩
  intro e
  rw [a6]
  simp only [hpw]

/-- **C09**, exactly: what the code gives agrees with the documentation if and only if every neutron
value is multiplied by `norm ** soft` to the same result as if it had been normalised first and then
softened. -/
theorem c09_documented_iff {sh} (pw : ℚ → ℚ → ℚ) (s : Window) (h : Inv sh s)
    (h1 : present s = [.neutron]) (norm soft : ℚ) :
    ∃ s', addParticle pw s norm soft = .ok s' ∧
      (AddDocumented pw s s' norm soft ↔
        ∀ e a, look s.values .neutron e = some a → ∀ x ∈ a.data, pw (x * norm) soft = x * pw norm soft) := by
  obtain ⟨s', a1, _, _, _, _, a6⟩ := c07_add pw s h h1 norm soft
  refine ⟨s', a1, ?_⟩
  constructor
  · intro hd e a ha x hx
    have h2 := hd e
    rw [a6, ha] at h2
    simp only [Option.map_some, Option.some.injEq, Arr3.map, Arr3.mk.injEq, true_and,
      List.map_inj_left] at h2
    exact (h2 x hx).symm
  · intro hx e
    rw [a6]
    cases ha : look s.values .neutron e with
    | none => rfl
    | some a =>
      simp only [Option.map_some, Option.some.injEq, Arr3.map, Arr3.mk.injEq, true_and,
        List.map_inj_left]
      exact fun x hm => (hx e a ha x hm).symm

/-- **C09** is false of the code: `value * norm**soft` does not soften the values. With the value 2,
`norm = 1` and `soft = 2` the documented photon value is 4, the code gives 2. -/
theorem c09_negation (pw : ℚ → ℚ → ℚ) (hpw : ∀ x (n : ℕ), pw x n = x ^ n) :
    ∃ s s', Inv (1, 1, 1) s ∧ present s = [.neutron] ∧ addParticle pw s 1 2 = .ok s' ∧
      ¬ AddDocumented pw s s' 1 2 := by
  have hg : Good (1, 1, 1) [(Particle.neutron, [((1 : ℚ), ⟨1, 1, 1, [2]⟩)])] := by
    refine ⟨Or.inl rfl, ?_⟩
    intro p d hp
    simp only [List.mem_singleton, Prod.mk.injEq] at hp
    obtain ⟨rfl, rfl⟩ := hp
    refine ⟨by simp, by simp [Dict.WF, Dict.keys], ?_⟩
    intro e a hea
    simp only [List.mem_singleton, Prod.mk.injEq] at hea
    obtain ⟨rfl, rfl⟩ := hea
    exact ⟨rfl, rfl⟩
  obtain ⟨s, g1, g2, _, g4⟩ := inv_set { values := [], ratios := [], grid := [], cyl := false } hg
  have hp : present s = [.neutron] := by rw [present, g2]; rfl
  obtain ⟨s', a1, _, _, _, _, a6⟩ := c07_add pw s g4 hp 1 2
  refine ⟨s, s', g4, hp, a1, ?_⟩
  intro hdoc
  have h1 := hdoc 1
  rw [a6, g2] at h1
  have e1 : pw 1 2 = 1 := by simpa using hpw 1 2
  have e2 : pw 2 2 = 4 := by have := hpw 2 2; norm_num at this; exact this
  simp [look, Dict.get?, Arr3.map, e1, e2] at h1

/-! ## C46, C47: the arrays shown and exported -/

/-- **C46**. After any history on a consistent window, the grid that is plotted and exported shows,
for every present particle and every energy whose two-decimal label is not shared with another
energy of that particle, exactly the current values and ratios. -/
theorem c46_grid_current {sh} (pw : ℚ → ℚ → ℚ) (hpw : ∀ x, pw x 1 = x) (s : Window) (h : Inv sh s)
    (ops : List Op) (p : Particle) (e : ℚ) (a : Arr3)
    (ha : look (run pw s ops).values p e = some a)
    (hu : ∀ e', (look (run pw s ops).values p e').isSome → cents e' = cents e → e' = e) :
    (run pw s ops).grid.get? (.ww p (cents e)) = some (gridData (run pw s ops).cyl a) ∧
    (run pw s ops).grid.get? (.ratio p (cents e)) =
      some (gridData (run pw s ops).cyl (maxRatioArray a)) := by
  have hi := c07_history pw hpw s h ops
  obtain ⟨d, hd, he⟩ := look_mem ha
  refine hi.grid.shown p d e a hd he ?_
  intro e' a' he' hc
  exact hu e' (by rw [mem_look hi.good hd he']; rfl) hc

/-- The label hypothesis of C46 is needed: two energies that print alike share one array, and the
first one's values are not shown at all. -/
theorem c46_label_collision :
    ∃ s, newWW false [(.neutron, [((1/1000 : ℚ), ⟨1, 1, 1, [7]⟩), ((2/1000 : ℚ), ⟨1, 1, 1, [9]⟩)])] = .ok s ∧
      s.grid.get? (.ww .neutron (cents (1/1000))) = some [9] ∧
      look s.values .neutron (1/1000) = some ⟨1, 1, 1, [7]⟩ := by
  refine ⟨_, rfl, ?_, ?_⟩ <;> decide +kernel

/-- the particle an array of the grid is labelled with (specification) -/
def Label.particle : Label → Particle
  | .ww p _ => p
  | .ratio p _ => p
  | .maxRatio p => p

/-- every array of the grid belongs to a particle that is present (specification) -/
def NoStale (s : Window) : Prop := ∀ l ∈ s.grid.keys, l.particle ∈ present s

theorem mem_keys_update {κ ν : Type} [DecidableEq κ] (d e : Dict κ ν) (k : κ) :
    k ∈ (d.update e).keys → k ∈ d.keys ∨ k ∈ Dict.keys e := by
  unfold Dict.update
  induction e generalizing d with
  | nil => intro h; exact Or.inl h
  | cons q e ih =>
    intro h
    rcases ih _ h with h1 | h1
    · rcases (Dict.mem_keys_set ..).mp h1 with h2 | h2
      · right; rw [h2]; simp [Dict.keys]
      · exact Or.inl h2
    · right; simp only [Dict.keys, List.map_cons, List.mem_cons]; exact Or.inr h1

theorem fillRatios_keys (cyl : Bool) (r : Values) (g g' : Dict Label (List ℚ))
    (h : fillRatios cyl r g = .ok g') (l : Label) (hl : l ∈ g'.keys) :
    l ∈ g.keys ∨ l.particle ∈ r.keys := by
  induction r generalizing g with
  | nil => simp only [fillRatios, Except.ok.injEq] at h; subst h; exact Or.inl hl
  | cons pd r ih =>
    obtain ⟨p, d⟩ := pd
    simp only [fillRatios] at h
    cases hm : maxOver (d.map Prod.snd) with
    | error x => simp [fillRatios1, hm] at h
    | ok m =>
      rw [fillRatios1_eq _ _ _ _ _ hm] at h
      rcases ih _ h with h1 | h1
      · rcases mem_keys_update _ _ _ h1 with h2 | h2
        · exact Or.inl h2
        · right
          obtain ⟨x, hx, rfl⟩ := List.mem_map.mp h2
          rcases mem_ratioPairs1.mp hx with ⟨_, _, _, rfl⟩ | rfl <;> simp [Label.particle, Dict.keys]
      · right; simp only [Dict.keys, List.map_cons, List.mem_cons]; exact Or.inr h1

theorem setValues_keys {sh} (s s' : Window) (v : Values) (hg : Good sh v)
    (h : setValues s v = .ok s') (l : Label) (hl : l ∈ s'.grid.keys) :
    l ∈ s.grid.keys ∨ l.particle ∈ v.keys := by
  unfold setValues at h
  rw [calcRatios_good hg] at h
  simp only at h
  cases hf : fillRatios s.cyl (ratiosOf v) (fillValues s.cyl v s.grid) with
  | error x => rw [hf] at h; cases h
  | ok g =>
    rw [hf] at h
    obtain rfl := Except.ok.inj h
    rcases fillRatios_keys _ _ _ _ hf l hl with h1 | h1
    · rw [fillValues_eq] at h1
      rcases mem_keys_update _ _ _ h1 with h2 | h2
      · exact Or.inl h2
      · right
        obtain ⟨x, hx, rfl⟩ := List.mem_map.mp h2
        obtain ⟨p, d, e, a, hp, _, rfl⟩ := mem_valuePairs.mp hx
        exact List.mem_map.mpr ⟨(p, d), hp, rfl⟩
    · right
      rwa [ratiosOf, keys_mapval v (fun _ d => ratios1 d)] at h1

/-- **C47** (the part that holds): in every history without `remove_particle` from a freshly built
window, every array of the plotted and exported grid belongs to a present particle. Missing:
histories with a removal, for which the claim is false (`c47_stale`). -/
theorem c47_no_stale_partial {sh} (pw : ℚ → ℚ → ℚ) (hpw : ∀ x, pw x 1 = x) (cyl : Bool) (v : Values)
    (h : Good sh v) (s : Window) (hs : newWW cyl v = .ok s) (ops : List Op)
    (hops : Op.removeParticle ∉ ops) : NoStale (run pw s ops) := by
  obtain ⟨s0, g1, g2, g3, g4⟩ := inv_set { values := [], ratios := [], grid := [], cyl := cyl } h
  obtain rfl : s0 = s := Except.ok.inj (g1.symm.trans hs)
  have h0 : NoStale s0 := by
    intro l hl
    rcases setValues_keys _ _ _ h g1 l hl with h1 | h1
    · simp [Dict.keys] at h1
    · rw [present, g2]; exact h1
  clear hs g1 g2 g3
  have keep : ∀ (t t' : Window) (w : Values), Good sh w → setValues t w = .ok t' →
      (∀ p ∈ present t, p ∈ w.keys) → NoStale t → NoStale t' := by
    intro t t' w hw ht hsub hn l hl
    obtain ⟨t0, k1, k2, _, _⟩ := inv_set t hw
    obtain rfl : t0 = t' := Except.ok.inj (k1.symm.trans ht)
    rw [present, k2]
    rcases setValues_keys _ _ _ hw ht l hl with h1 | h1
    · exact hsub _ (hn l h1)
    · exact h1
  induction ops generalizing s0 with
  | nil => exact h0
  | cons o ops ih =>
    have ho : o ≠ .removeParticle := fun e => hops (by rw [e]; simp)
    have hrest : Op.removeParticle ∉ ops := fun e => hops (List.mem_cons_of_mem _ e)
    unfold run
    rcases c07_refused_iff pw hpw s0 g4 o with ⟨he, _⟩ | ⟨⟨s', hs', hi⟩, _⟩
    · rw [he]; exact ih hrest s0 g4 h0
    · rw [hs']
      refine ih hrest s' hi ?_
      cases o with
      | removeParticle => exact absurd rfl ho
      | multiply f =>
        simp only [step, multiply] at hs'
        split at hs'
        · obtain rfl := Except.ok.inj hs'; exact h0
        · rw [mapArrays_good_eq g4.good] at hs'
          refine keep s0 s' _ (good_map g4.good (· * f)) hs' ?_ h0
          intro p hp
          rw [keys_mapval s0.values (fun _ (d : Dict ℚ Arr3) => (d.map (fun ea => (ea.1, ea.2.map (· * f))) : Dict ℚ Arr3))]
          exact hp
      | soften f =>
        simp only [step, soften] at hs'
        split at hs'
        · obtain rfl := Except.ok.inj hs'; exact h0
        · rw [mapArrays_good_eq g4.good] at hs'
          refine keep s0 s' _ (good_map g4.good (fun x => pw x f)) hs' ?_ h0
          intro p hp
          rw [keys_mapval s0.values (fun _ (d : Dict ℚ Arr3) => (d.map (fun ea => (ea.1, ea.2.map (fun x => pw x f))) : Dict ℚ Arr3))]
          exact hp
      | mitigate M =>
        simp only [step] at hs'
        rw [mitigate_eq g4 M] at hs'
        refine keep s0 s' _ (good_mitA g4.good M) hs' ?_ h0
        intro p hp
        rw [keys_mapval s0.values (fun _ (d : Dict ℚ Arr3) => (d.map (fun ea => (ea.1, mitA M ea.2)) : Dict ℚ Arr3))]
        exact hp
      | addParticle n x =>
        have hk : present s0 = [.neutron] ∨ present s0 = [.neutron, .photon] := g4.good.keys
        rcases hk with hk | hk
        · obtain ⟨t, t1, _, t3, _⟩ := c07_add pw s0 g4 hk n x
          have e : t = s' := Except.ok.inj (t1.symm.trans hs')
          subst e
          intro l _
          rw [t3]
          cases l.particle <;> simp
        · rcases c07_refused_iff pw hpw s0 g4 (.addParticle n x) with ⟨he, _⟩ | ⟨_, hno⟩
          · rw [he] at hs'; cases hs'
          · exact absurd (Or.inl ⟨⟨n, x, rfl⟩, hk⟩) hno

/-- **C47** is false of the code: after `add_particle` and `remove_particle` the photon arrays are
still in the grid that is plotted and exported, although there is no photon window any more. This
holds for every consistent neutron window, not just for an example. -/
theorem c47_stale {sh} (pw : ℚ → ℚ → ℚ) (s : Window) (h : Inv sh s) (h1 : present s = [.neutron])
    (norm soft : ℚ) : ∃ s1 s2, addParticle pw s norm soft = .ok s1 ∧ removeParticle s1 = .ok s2 ∧
      present s2 = [.neutron] ∧ (s2.grid.get? (.maxRatio .photon)).isSome = true := by
  obtain ⟨s1, a1, a2, a3, _⟩ := c07_add pw s h h1 norm soft
  obtain ⟨s2, b1, b2, b3, _⟩ := c07_remove s1 a2 a3
  refine ⟨s1, s2, a1, b1, b3, ?_⟩
  obtain ⟨d, d', hv⟩ : ∃ d d', s1.values = [(.neutron, d), (.photon, d')] := by
    rcases good_cases a2.good with ⟨d, hv⟩ | hv
    · rw [present, hv] at a3; simp [Dict.keys] at a3
    · exact hv
  obtain ⟨m, _, hm⟩ := a2.grid.shownMax .photon d' (by rw [hv]; simp)
  have hg := a2.good
  rw [hv] at hg
  have hgood : Good sh [(.neutron, d)] := by
    refine ⟨Or.inl rfl, ?_⟩
    intro p x hp
    simp only [List.mem_singleton, Prod.mk.injEq] at hp
    obtain ⟨rfl, rfl⟩ := hp
    exact hg.each .neutron x (by simp)
  obtain ⟨t, t1, _, _, _, _, t6⟩ := setValues_good s1 hgood
  have : removeParticle s1 = setValues s1 [(.neutron, d)] := by
    unfold removeParticle
    rw [if_neg (by rw [hv]; simp [particlesOf]), hv]; rfl
  rw [this, t1] at b1
  obtain rfl := Except.ok.inj b1
  obtain ⟨y, hy⟩ := t6 _ _ hm
  rw [hy]; rfl

/-! ## C48: the cylindrical grid -/

theorem get_data {a : Arr3} {k j i : Nat} {v : ℚ} (h : a.get k j i = some v) :
    a.data[a.idx k j i]? = some v := by
  unfold Arr3.get at h
  split at h
  · exact h
  · cases h

/-- **C48**. In a cylindrical geometry the flattened array stored in the grid holds at cell `(j, θ,
i)` — height slowest, radius fastest, as the grid is built — the value of voxel `(k, j, i)` whose
theta interval contains the grid interval `θ`: with 1 or 2 theta intervals each is shown by 20 or 10
grid intervals, otherwise by one. -/
theorem c48_cyl_grid (a : Arr3) (hk : 0 < a.nk) (hj : 0 < a.nj) (hi : 0 < a.ni)
    (j t i : Nat) (hj' : j < a.nj) (ht : t < thetaInts a.nk) (hi' : i < a.ni) (v : ℚ)
    (hv : a.get (t / (thetaInts a.nk / a.nk)) j i = some v) :
    (gridData true a)[(j * thetaInts a.nk + t) * a.ni + i]? = some v := by
  have hdiv : a.ni * thetaInts a.nk * a.nj / (a.ni * a.nj * a.nk) = thetaInts a.nk / a.nk := by
    rw [show a.ni * thetaInts a.nk * a.nj = (a.ni * a.nj) * thetaInts a.nk by ring]
    rw [Nat.mul_div_mul_left _ _ (Nat.mul_pos hi hj)]
  simp only [gridData, if_true, prepareCyl, hdiv]
  have hmul : a.nk * (thetaInts a.nk / a.nk) = thetaInts a.nk := by
    unfold thetaInts
    split
    · have : a.nk = 1 ∨ a.nk = 2 := by omega
      rcases this with h | h <;> rw [h]
    · rw [Nat.div_self hk, Nat.mul_one]
  have key : ∀ b : Arr3, b.nk = thetaInts a.nk → b.nj = a.nj → b.ni = a.ni →
      b.get t j i = some v → (swap01 b).data[(j * thetaInts a.nk + t) * a.ni + i]? = some v := by
    intro b e1 e2 e3 hb
    have h1 : (swap01 b).get j t i = some v := by
      unfold swap01
      rw [tab_get, if_pos ⟨by omega, by omega, by omega⟩, hb]; rfl
    have h2 := get_data h1
    rwa [show (swap01 b).idx j t i = (j * thetaInts a.nk + t) * a.ni + i by
      simp only [Arr3.idx, swap01, Arr3.tab, e1, e3]] at h2
  split
  · rename_i hext
    apply key (repeatK a (thetaInts a.nk / a.nk)) hmul rfl rfl
    unfold repeatK
    rw [tab_get, if_pos ⟨by rw [hmul]; exact ht, hj', hi'⟩, hv]; rfl
  · rename_i hext
    have h1 : thetaInts a.nk / a.nk = 1 := by
      have : thetaInts a.nk / a.nk ≠ 0 := by
        intro h0; rw [h0] at hmul; simp at hmul; omega
      exact le_antisymm (not_lt.mp hext) (Nat.pos_of_ne_zero this)
    rw [h1, Nat.mul_one] at hmul
    rw [h1, Nat.div_one] at hv
    exact key a hmul rfl rfl hv

/-- two theta intervals of a 1×1 mesh: ten grid intervals each -/
example : gridData true ⟨2, 1, 1, [5, 7]⟩ = List.replicate 10 5 ++ List.replicate 10 7 := by
  decide +kernel

end F4Enix.WW
