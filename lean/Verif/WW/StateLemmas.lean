import Verif.WW.State
import Verif.WW.RatiosProps
/-!
# Lemmas about the weight-window object
-/
namespace F4Enix
namespace Dict
variable {κ ν : Type} [DecidableEq κ]

theorem update_append (d e f : Dict κ ν) : update d (e ++ f) = update (update d e) f := by
  simp [update]

theorem get?_update_none (d e : Dict κ ν) (k : κ) (h : k ∉ keys e) :
    get? (update d e) k = get? d k := by
  unfold update
  induction e generalizing d with
  | nil => rfl
  | cons p e ih =>
    simp only [keys, List.map_cons, List.mem_cons, not_or] at h
    rw [List.foldl_cons, ih _ h.2, get?_set_ne _ _ (Ne.symm h.1)]

theorem get?_update_unique (d e : Dict κ ν) (k : κ) (v : ν) (hm : (k, v) ∈ e)
    (hu : ∀ v', (k, v') ∈ e → v' = v) : get? (update d e) k = some v := by
  induction e generalizing d with
  | nil => simp at hm
  | cons p e ih =>
    obtain ⟨a, b⟩ := p
    rw [show update d ((a, b) :: e) = update (set d a b) e from rfl]
    by_cases hk : k ∈ keys e
    · simp only [keys, List.mem_map] at hk
      obtain ⟨⟨k', v'⟩, hmem, rfl⟩ := hk
      have := hu v' (List.mem_cons_of_mem _ hmem)
      subst this
      exact ih _ hmem (fun v' h => hu v' (List.mem_cons_of_mem _ h))
    · rw [get?_update_none _ _ _ hk]
      rcases List.mem_cons.mp hm with h | h
      · simp only [Prod.mk.injEq] at h
        obtain ⟨rfl, rfl⟩ := h
        simp
      · exact absurd (List.mem_map.mpr ⟨(k, v), h, rfl⟩) hk

end Dict
end F4Enix

namespace F4Enix.WW
open F4Enix

/-- the shape `(nk, nj, ni)` of an array (specification) -/
def Arr3.shape (a : Arr3) : Nat × Nat × Nat := (a.nk, a.nj, a.ni)

theorem maxRatio_shape (a : Arr3) : (maxRatioArray a).shape = a.shape := rfl
theorem maxRatio_wf (a : Arr3) : (maxRatioArray a).WF := tab_wf _ _ _ _

theorem map_wf {a : Arr3} (f : ℚ → ℚ) (h : a.WF) : (a.map f).WF := by
  simpa [Arr3.WF, Arr3.map] using h

theorem map_shape (a : Arr3) (f : ℚ → ℚ) : (a.map f).shape = a.shape := rfl

theorem map_get (a : Arr3) (f : ℚ → ℚ) (k j i : Nat) : (a.map f).get k j i = (a.get k j i).map f := by
  unfold Arr3.get Arr3.map Arr3.idx
  split
  · simp
  · rfl

/-! ### mitigation of one array -/

theorem mitigateArr_ok (M : ℚ) (a r : Arr3) (hs : r.shape = a.shape) :
    mitigateArr M a r =
      .ok { a with data := List.zipWith (fun v q => if q > M then 0 else v) a.data r.data } := by
  simp only [Arr3.shape, Prod.mk.injEq] at hs
  unfold mitigateArr
  rw [if_pos ⟨hs.1.symm, hs.2.1.symm, hs.2.2.symm⟩]

/-- mitigated array (proof) -/
def mitA (M : ℚ) (a : Arr3) : Arr3 :=
  { a with data := List.zipWith (fun v q => if q > M then 0 else v) a.data (maxRatioArray a).data }

theorem mitA_wf (M : ℚ) {a : Arr3} (h : a.WF) : (mitA M a).WF := by
  have h2 := maxRatio_wf a
  have h3 : (maxRatioArray a).data.length = a.nk * a.nj * a.ni := h2
  have h1 : a.data.length = a.nk * a.nj * a.ni := h
  simp [Arr3.WF, mitA, h1, h3]

theorem mitA_shape (M : ℚ) (a : Arr3) : (mitA M a).shape = a.shape := rfl

theorem mitA_get (M : ℚ) (a : Arr3) (k j i : Nat) (v r : ℚ) (hv : a.get k j i = some v)
    (hr : (maxRatioArray a).get k j i = some r) :
    (mitA M a).get k j i = some (if r > M then 0 else v) := by
  have hin : k < a.nk ∧ j < a.nj ∧ i < a.ni := by
    unfold Arr3.get at hv; split at hv
    · assumption
    · cases hv
  have e1 : a.data[a.idx k j i]? = some v := by
    unfold Arr3.get at hv; rwa [if_pos hin] at hv
  have e2 : (maxRatioArray a).data[a.idx k j i]? = some r := by
    unfold Arr3.get at hr
    rw [if_pos (by exact hin)] at hr; exact hr
  unfold Arr3.get
  rw [if_pos (by exact hin)]
  show (List.zipWith _ a.data (maxRatioArray a).data)[a.idx k j i]? = _
  rw [List.getElem?_zipWith, e1, e2]

theorem mitA_nonneg (M : ℚ) {a : Arr3} (hw : a.WF) (hn : NonNeg a) : NonNeg (mitA M a) := by
  intro x hx
  obtain ⟨k, j, i, hg⟩ := mem_get (mitA_wf M hw) hx
  obtain ⟨v, hv⟩ := (get_some_iff hw k j i).mpr ((get_some_iff (mitA_wf M hw) k j i).mp ⟨x, hg⟩)
  rw [mitA_get M a k j i v _ hv (maxRatio_get a k j i v hv)] at hg
  obtain rfl := Option.some.inj hg
  split
  · exact le_rfl
  · exact hn v (get_mem hv)

/-- after mitigation no ratio exceeds `M` -/
theorem mitA_ratio_le (M : ℚ) (hM : 1 ≤ M) {a : Arr3} (hw : a.WF) (hn : NonNeg a) :
    ∀ k j i r, (maxRatioArray (mitA M a)).get k j i = some r → r ≤ M := by
  intro k j i r hr
  have hw' := mitA_wf M hw
  obtain ⟨x, hx⟩ := (get_some_iff hw' k j i).mpr ((get_some_iff (maxRatio_wf (mitA M a)) k j i).mp ⟨r, hr⟩)
  obtain ⟨v, hv⟩ := (get_some_iff hw k j i).mpr ((get_some_iff hw' k j i).mp ⟨x, hx⟩)
  refine (c04_le_iff (mitA M a) hw' (mitA_nonneg M hw hn) k j i x M hx hM).mpr ?_ r hr
  intro hx0 k' j' i' w hadj hg hw0
  have hrv := maxRatio_get a k j i v hv
  rw [mitA_get M a k j i v _ hv hrv] at hx
  split at hx
  · obtain rfl := Option.some.inj hx; exact absurd hx0 (lt_irrefl _)
  · rename_i hle
    obtain rfl := Option.some.inj hx
    obtain ⟨w', hw'⟩ := (get_some_iff hw k' j' i').mpr ((get_some_iff hw' k' j' i').mp ⟨w, hg⟩)
    rw [mitA_get M a k' j' i' w' _ hw' (maxRatio_get a k' j' i' w' hw')] at hg
    split at hg
    · obtain rfl := Option.some.inj hg; exact absurd hw0 (lt_irrefl _)
    · obtain rfl := Option.some.inj hg
      refine (c04_le_iff a hw hn k j i v M hv hM).mp ?_ hx0 k' j' i' w' hadj hw' hw0
      intro r hr; rw [hrv] at hr; obtain rfl := Option.some.inj hr; exact not_lt.mp hle

theorem mitA_fix (M : ℚ) {a : Arr3} (hw : a.WF)
    (h : ∀ k j i r, (maxRatioArray a).get k j i = some r → r ≤ M) : mitA M a = a := by
  refine arr_ext (mitA_wf M hw) hw rfl rfl rfl ?_
  intro k j i
  by_cases hin : ∃ v, a.get k j i = some v
  · obtain ⟨v, hv⟩ := hin
    have hr := maxRatio_get a k j i v hv
    rw [mitA_get M a k j i v _ hv hr, hv, if_neg (not_lt.mpr (h k j i _ hr))]
  · have h1 : a.get k j i = none := by
      cases h : a.get k j i with
      | none => rfl
      | some v => exact absurd ⟨v, h⟩ hin
    have h2 : ¬ ∃ v, (mitA M a).get k j i = some v := fun h => hin
      ((get_some_iff hw k j i).mpr ((get_some_iff (mitA_wf M hw) k j i).mp h))
    rw [h1]
    cases h : (mitA M a).get k j i with
    | none => rfl
    | some v => exact absurd ⟨v, h⟩ h2

/-! ### how ratios react to element-wise operations -/

/-- an operation that respects quotients transforms the ratios accordingly -/
theorem maxRatio_map (φ ψ : ℚ → ℚ) (a : Arr3) (hw : a.WF) (hn : NonNeg a)
    (h0 : φ 0 = 0) (hpos : ∀ x, 0 < x → 0 < φ x)
    (hq : ∀ x y, 0 < x → 0 < y → φ x / φ y = ψ (x / y)) (hψ1 : ψ 1 = 1)
    (hmono : ∀ x y, 0 < x → x ≤ y → ψ x ≤ ψ y) :
    maxRatioArray (a.map φ) = (maxRatioArray a).map ψ := by
  have hφ : ∀ x, 0 ≤ x → 0 ≤ φ x := fun x hx => by
    rcases hx.lt_or_eq with h | h
    · exact (hpos x h).le
    · rw [← h, h0]
  have hw' : (a.map φ).WF := map_wf φ hw
  have hn' : NonNeg (a.map φ) := by
    intro x hx
    simp only [Arr3.map, List.mem_map] at hx
    obtain ⟨y, hy, rfl⟩ := hx
    exact hφ y (hn y hy)
  refine arr_ext (maxRatio_wf _) (map_wf ψ (maxRatio_wf a)) rfl rfl rfl ?_
  intro k j i
  by_cases hin : k < a.nk ∧ j < a.nj ∧ i < a.ni
  · obtain ⟨v, hv⟩ := (get_some_iff hw k j i).mpr hin
    have hvφ : (a.map φ).get k j i = some (φ v) := by rw [map_get, hv]; rfl
    have hposv : ∀ x, 0 ≤ x → 0 < φ x → 0 < x := fun x hx h => by
      rcases hx.lt_or_eq with h' | h'
      · exact h'
      · rw [← h', h0] at h; exact absurd h (lt_irrefl _)
    obtain ⟨_, _, _, _, H⟩ := c04_max_ratio a hw hn
    obtain ⟨_, _, _, _, H'⟩ := c04_max_ratio _ hw' hn'
    obtain ⟨r, hr, r1, r2, r3⟩ := H k j i v hv
    obtain ⟨s, hs, s1, s2, s3⟩ := H' k j i _ hvφ
    rw [hs, map_get, hr, Option.map_some]
    congr 1
    apply le_antisymm
    · rcases s3 with rfl | ⟨k', j', i', w, hadj, hg, hv0, hw0, e⟩
      · rw [← hψ1]; exact hmono _ _ one_pos r1
      · rw [map_get] at hg
        obtain ⟨w', hw', rfl⟩ := Option.map_eq_some_iff.mp hg
        have p1 := hposv v (hn v (get_mem hv)) hv0
        have p2 := hposv w' (hn w' (get_mem hw')) hw0
        obtain ⟨q1, q2⟩ := r2 p1 k' j' i' w' hadj hw' p2
        rcases e with rfl | rfl
        · rw [hq v w' p1 p2]; exact hmono _ _ (div_pos p1 p2) q1
        · rw [hq w' v p2 p1]; exact hmono _ _ (div_pos p2 p1) q2
    · rcases r3 with rfl | ⟨k', j', i', w, hadj, hg, hv0, hw0, e⟩
      · rw [hψ1]; exact s1
      · have hgφ : (a.map φ).get k' j' i' = some (φ w) := by rw [map_get, hg]; rfl
        obtain ⟨q1, q2⟩ := s2 (hpos v hv0) k' j' i' _ hadj hgφ (hpos w hw0)
        rcases e with rfl | rfl
        · rw [← hq v w hv0 hw0]; exact q1
        · rw [← hq w v hw0 hv0]; exact q2
  · unfold Arr3.get
    rw [if_neg (by exact hin), if_neg (by exact hin)]

/-- scaling by a positive factor leaves the ratios alone -/
theorem maxRatio_scale (f : ℚ) (hf : 0 < f) (a : Arr3) (hw : a.WF) (hn : NonNeg a) :
    maxRatioArray (a.map (· * f)) = maxRatioArray a := by
  have := maxRatio_map (· * f) id a hw hn (by simp) (fun x hx => by positivity)
    (fun x y hx hy => by simp only [id]; field_simp) rfl (fun x y _ h => h)
  rw [this]; simp [Arr3.map]

/-! ### the dictionaries -/

/-- well-formed values: one or two particles in order, every particle has at least one energy, no
energy twice, all arrays of the mesh shape (specification) -/
structure Good (sh : Nat × Nat × Nat) (v : Values) : Prop where
  keys : v.keys = [.neutron] ∨ v.keys = [.neutron, .photon]
  each : ∀ p d, (p, d) ∈ v → d ≠ [] ∧ Dict.WF d ∧ ∀ e a, (e, a) ∈ d → a.WF ∧ a.shape = sh

/-- what the setter computes as ratios (specification) -/
def ratiosOf (v : Values) : Values := v.map (fun pd => (pd.1, ratios1 pd.2))

theorem good_cases {sh} {v : Values} (h : Good sh v) :
    (∃ d, v = [(.neutron, d)]) ∨ (∃ d d', v = [(.neutron, d), (.photon, d')]) := by
  rcases h.keys with hk | hk
  · match v, hk with
    | [(p, d)], hk => simp [Dict.keys] at hk; subst hk; exact Or.inl ⟨d, rfl⟩
  · match v, hk with
    | [(p, d), (p', d')], hk =>
      simp [Dict.keys] at hk; obtain ⟨rfl, rfl⟩ := hk; exact Or.inr ⟨d, d', rfl⟩

theorem calcRatios_good {sh} {v : Values} (h : Good sh v) :
    calcRatios v (particlesOf v) = .ok (ratiosOf v) := by
  rcases good_cases h with ⟨d, rfl⟩ | ⟨d, d', rfl⟩
  · rfl
  · rfl

theorem maxOver_ok (l : List Arr3) (sh : Nat × Nat × Nat) (hne : l ≠ [])
    (hs : ∀ a ∈ l, a.WF ∧ a.shape = sh) : ∃ m, maxOver l = .ok m ∧ m.shape = sh ∧ m.WF := by
  induction l with
  | nil => exact absurd rfl hne
  | cons a l ih =>
    cases l with
    | nil => exact ⟨a, rfl, (hs a (by simp)).2, (hs a (by simp)).1⟩
    | cons b l =>
      obtain ⟨m, hm, hms, hmw⟩ := ih (by simp) (fun x hx => hs x (List.mem_cons_of_mem _ hx))
      obtain ⟨haw, has⟩ := hs a (by simp)
      have e : a.nk = m.nk ∧ a.nj = m.nj ∧ a.ni = m.ni := by
        rw [← has] at hms; simp only [Arr3.shape, Prod.mk.injEq] at hms
        exact ⟨hms.1.symm, hms.2.1.symm, hms.2.2.symm⟩
      refine ⟨{ a with data := List.zipWith max a.data m.data }, ?_, has, ?_⟩
      · simp only [maxOver, hm]; rw [if_pos e]
      · simp only [Arr3.WF, List.length_zipWith] at *
        rw [haw, hmw, e.1, e.2.1, e.2.2, Nat.min_self]

/-- label/array pairs written by `fill_grid_values` (proof) -/
def valuePairs (cyl : Bool) (v : Values) : Dict Label (List ℚ) :=
  (v.map (fun pd => pd.2.map (fun ea => (Label.ww pd.1 (cents ea.1), gridData cyl ea.2)))).flatten

/-- label/array pairs written by `fill_grid_ratios` (proof) -/
def ratioPairs1 (cyl : Bool) (p : Particle) (d : Dict ℚ Arr3) (m : Arr3) : Dict Label (List ℚ) :=
  d.map (fun ea => (Label.ratio p (cents ea.1), gridData cyl ea.2)) ++ [(.maxRatio p, gridData cyl m)]

theorem fillValues_eq (cyl : Bool) (v : Values) (g : Dict Label (List ℚ)) :
    fillValues cyl v g = g.update (valuePairs cyl v) := by
  unfold fillValues valuePairs
  induction v generalizing g with
  | nil => rfl
  | cons pd v ih =>
    simp only [List.foldl_cons, List.map_cons, List.flatten_cons, Dict.update_append, ih]
    congr 1
    simp only [fillValues1, Dict.update, List.foldl_map]

theorem fillRatios1_eq (cyl : Bool) (p : Particle) (d : Dict ℚ Arr3) (g : Dict Label (List ℚ))
    (m : Arr3) (h : maxOver (d.map Prod.snd) = .ok m) :
    fillRatios1 cyl p g d = .ok (g.update (ratioPairs1 cyl p d m)) := by
  unfold fillRatios1 ratioPairs1
  rw [h, Dict.update_append]
  simp only [Dict.update, List.foldl_map, List.foldl_cons, List.foldl_nil]

theorem ratios1_good {sh} {d : Dict ℚ Arr3}
    (h : d ≠ [] ∧ Dict.WF d ∧ ∀ e a, (e, a) ∈ d → a.WF ∧ a.shape = sh) :
    ∃ m, maxOver ((ratios1 d).map Prod.snd) = .ok m ∧ m.shape = sh ∧ m.WF := by
  apply maxOver_ok
  · simp [ratios1, h.1]
  · intro a ha
    simp only [ratios1, List.map_map, List.mem_map, Function.comp] at ha
    obtain ⟨⟨e, b⟩, hb, rfl⟩ := ha
    exact ⟨maxRatio_wf b, (h.2.2 e b hb).2⟩

/-- the grid shows the current state of the particles that are present (specification) -/
structure GridOk (s : Window) : Prop where
  shown : ∀ p d e a, (p, d) ∈ s.values → (e, a) ∈ d →
    (∀ e' a', (e', a') ∈ d → cents e' = cents e → e' = e) →
    s.grid.get? (.ww p (cents e)) = some (gridData s.cyl a) ∧
    s.grid.get? (.ratio p (cents e)) = some (gridData s.cyl (maxRatioArray a))
  shownMax : ∀ p d, (p, d) ∈ s.values → ∃ m, maxOver ((ratios1 d).map Prod.snd) = .ok m ∧
    s.grid.get? (.maxRatio p) = some (gridData s.cyl m)

theorem mem_valuePairs {cyl : Bool} {v : Values} {x : Label × List ℚ} :
    x ∈ valuePairs cyl v ↔ ∃ p d e a, (p, d) ∈ v ∧ (e, a) ∈ d ∧
      x = (Label.ww p (cents e), gridData cyl a) := by
  simp only [valuePairs, List.mem_flatten, List.mem_map]
  constructor
  · rintro ⟨l, ⟨⟨p, d⟩, hd, rfl⟩, hx⟩
    obtain ⟨⟨e, a⟩, he, rfl⟩ := List.mem_map.mp hx
    exact ⟨p, d, e, a, hd, he, rfl⟩
  · rintro ⟨p, d, e, a, hd, he, rfl⟩
    exact ⟨_, ⟨⟨p, d⟩, hd, rfl⟩, List.mem_map.mpr ⟨(e, a), he, rfl⟩⟩

theorem mem_ratioPairs1 {cyl : Bool} {p : Particle} {d : Dict ℚ Arr3} {m : Arr3}
    {x : Label × List ℚ} : x ∈ ratioPairs1 cyl p d m ↔
      (∃ e a, (e, a) ∈ d ∧ x = (Label.ratio p (cents e), gridData cyl a)) ∨
      x = (.maxRatio p, gridData cyl m) := by
  simp only [ratioPairs1, List.mem_append, List.mem_map, List.mem_singleton]
  constructor
  · rintro (⟨⟨e, a⟩, he, rfl⟩ | rfl)
    · exact Or.inl ⟨e, a, he, rfl⟩
    · exact Or.inr rfl
  · rintro (⟨e, a, he, rfl⟩ | rfl)
    · exact Or.inl ⟨(e, a), he, rfl⟩
    · exact Or.inr rfl

theorem mem_unique_val {d : Dict ℚ Arr3} (hw : Dict.WF d) {e : ℚ} {a b : Arr3} (h1 : (e, a) ∈ d)
    (h2 : (e, b) ∈ d) : a = b := by
  have := Dict.get?_of_mem hw h1
  rw [Dict.get?_of_mem hw h2] at this
  exact (Option.some.inj this).symm

theorem good_unique {sh} {v : Values} (h : Good sh v) {p : Particle} {d d' : Dict ℚ Arr3}
    (h1 : (p, d) ∈ v) (h2 : (p, d') ∈ v) : d = d' := by
  rcases good_cases h with ⟨x, rfl⟩ | ⟨x, y, rfl⟩
  · simp at h1 h2; rw [h1.2, h2.2]
  · simp at h1 h2
    rcases h1 with ⟨rfl, rfl⟩ | ⟨rfl, rfl⟩ <;> rcases h2 with ⟨hh, rfl⟩ | ⟨hh, rfl⟩ <;>
      first | rfl | exact absurd hh (by decide)

/-- fill of the value labels in a grid -/
theorem fillValues_shown {sh} {v : Values} (h : Good sh v) (cyl : Bool) (g : Dict Label (List ℚ))
    (p d e a) (hp : (p, d) ∈ v) (he : (e, a) ∈ d)
    (hu : ∀ e' a', (e', a') ∈ d → cents e' = cents e → e' = e) :
    (fillValues cyl v g).get? (.ww p (cents e)) = some (gridData cyl a) := by
  rw [fillValues_eq]
  apply Dict.get?_update_unique
  · exact mem_valuePairs.mpr ⟨p, d, e, a, hp, he, rfl⟩
  · intro x hx
    obtain ⟨p', d', e', a', hp', he', hx⟩ := mem_valuePairs.mp hx
    simp only [Prod.mk.injEq, Label.ww.injEq] at hx
    obtain ⟨⟨rfl, hc⟩, rfl⟩ := hx
    obtain rfl := good_unique h hp hp'
    obtain rfl := hu e' a' he' hc.symm
    rw [mem_unique_val (h.each p d hp).2.1 he he']

/-- The setter succeeds on good values and establishes ratios and grid. -/
theorem setValues_good {sh} (s : Window) {v : Values} (h : Good sh v) :
    ∃ s', setValues s v = .ok s' ∧ s'.values = v ∧ s'.ratios = ratiosOf v ∧ s'.cyl = s.cyl ∧
      GridOk s' ∧
      (∀ l x, s.grid.get? l = some x → ∃ y, s'.grid.get? l = some y) := by
  unfold setValues
  rw [calcRatios_good h]
  simp only
  have hmono : ∀ (g e : Dict Label (List ℚ)) l x, g.get? l = some x →
      ∃ y, (g.update e).get? l = some y := by
    intro g e l x hx
    have : l ∈ (g.update e).keys := by
      unfold Dict.update
      have hl : l ∈ g.keys := List.mem_map.mpr ⟨_, Dict.mem_of_get? hx, rfl⟩
      clear hx
      induction e generalizing g with
      | nil => exact hl
      | cons q e ih => exact ih _ ((Dict.mem_keys_set ..).mpr (Or.inr hl))
    have := (Dict.has_iff _ _).mpr this
    exact Option.isSome_iff_exists.mp this
  have hr : ∀ p d, (p, d) ∈ v → ∃ m, maxOver ((ratios1 d).map Prod.snd) = .ok m :=
    fun p d hp => by obtain ⟨m, hm, _⟩ := ratios1_good (h.each p d hp); exact ⟨m, hm⟩
  have hself : ∀ (g : Dict Label (List ℚ)) cyl p d m, (p, d) ∈ v → 
      ∀ e a, (e, a) ∈ d → (∀ e' a', (e', a') ∈ d → cents e' = cents e → e' = e) →
      (g.update (ratioPairs1 cyl p (ratios1 d) m)).get? (.ratio p (cents e)) =
        some (gridData cyl (maxRatioArray a)) := by
    intro g cyl p d m hp e a he hu
    apply Dict.get?_update_unique
    · exact mem_ratioPairs1.mpr (Or.inl ⟨e, maxRatioArray a, List.mem_map.mpr ⟨(e, a), he, rfl⟩, rfl⟩)
    · intro x hx
      rcases mem_ratioPairs1.mp hx with ⟨e', a', he', hx⟩ | hx
      · simp only [ratios1, List.mem_map, Prod.mk.injEq] at he'
        obtain ⟨⟨e'', a''⟩, hm, rfl, rfl⟩ := he'
        simp only [Prod.mk.injEq, Label.ratio.injEq, true_and] at hx
        obtain ⟨hc, rfl⟩ := hx
        obtain rfl := hu e'' a'' hm hc.symm
        rw [mem_unique_val (h.each p d hp).2.1 he hm]
      · simp at hx
  have hmax : ∀ (g : Dict Label (List ℚ)) cyl p (d : Dict ℚ Arr3) m,
      (g.update (ratioPairs1 cyl p d m)).get? (.maxRatio p) = some (gridData cyl m) := by
    intro g cyl p d m
    apply Dict.get?_update_unique
    · exact mem_ratioPairs1.mpr (Or.inr rfl)
    · intro x hx
      rcases mem_ratioPairs1.mp hx with ⟨e', a', he', hx⟩ | hx
      · simp at hx
      · simpa using hx
  have hkeepW : ∀ (g : Dict Label (List ℚ)) cyl p (d : Dict ℚ Arr3) m q c,
      (g.update (ratioPairs1 cyl p d m)).get? (.ww q c) = g.get? (.ww q c) := by
    intro g cyl p d m q c
    apply Dict.get?_update_none
    intro hk
    obtain ⟨x, hx, he⟩ := List.mem_map.mp hk
    rcases mem_ratioPairs1.mp hx with ⟨_, _, _, rfl⟩ | rfl <;> simp at he
  have hkeepP : ∀ (g : Dict Label (List ℚ)) cyl (d : Dict ℚ Arr3) m l,
      (∃ c, l = .ratio .neutron c) ∨ l = .maxRatio .neutron →
      (g.update (ratioPairs1 cyl .photon d m)).get? l = g.get? l := by
    intro g cyl d m l hl
    apply Dict.get?_update_none
    intro hk
    obtain ⟨x, hx, he⟩ := List.mem_map.mp hk
    rcases hl with ⟨c, rfl⟩ | rfl <;>
      rcases mem_ratioPairs1.mp hx with ⟨_, _, _, rfl⟩ | rfl <;> simp at he
  rcases good_cases h with ⟨d, rfl⟩ | ⟨d, d', rfl⟩
  · obtain ⟨m, hm⟩ := hr .neutron d (by simp)
    refine ⟨{ s with
      values := [(.neutron, d)], ratios := ratiosOf [(.neutron, d)]
      grid := (fillValues s.cyl [(.neutron, d)] s.grid).update
        (ratioPairs1 s.cyl .neutron (ratios1 d) m) }, ?_, rfl, rfl, rfl, ?_, ?_⟩
    · simp only [ratiosOf, List.map_cons, List.map_nil, fillRatios]
      rw [fillRatios1_eq _ _ _ _ _ hm]
    · constructor
      · intro p d0 e a hp he hu
        have hp' := hp
        simp only [List.mem_singleton, Prod.mk.injEq] at hp'
        obtain ⟨rfl, rfl⟩ := hp'
        exact ⟨by rw [hkeepW]; exact fillValues_shown h _ _ _ _ _ _ hp he hu,
          hself _ _ _ _ _ hp e a he hu⟩
      · intro p d0 hp
        simp only [List.mem_singleton, Prod.mk.injEq] at hp
        obtain ⟨rfl, rfl⟩ := hp
        exact ⟨m, hm, hmax _ _ _ _ _⟩
    · intro l x hx
      obtain ⟨y, hy⟩ := hmono s.grid (valuePairs s.cyl [(.neutron, d)]) l x hx
      rw [← fillValues_eq] at hy
      exact hmono _ _ l y hy
  · obtain ⟨m, hm⟩ := hr .neutron d (by simp)
    obtain ⟨m', hm'⟩ := hr .photon d' (by simp)
    refine ⟨{ s with
      values := [(.neutron, d), (.photon, d')], ratios := ratiosOf [(.neutron, d), (.photon, d')]
      grid := ((fillValues s.cyl [(.neutron, d), (.photon, d')] s.grid).update
        (ratioPairs1 s.cyl .neutron (ratios1 d) m)).update
        (ratioPairs1 s.cyl .photon (ratios1 d') m') }, ?_, rfl, rfl, rfl, ?_, ?_⟩
    · simp only [ratiosOf, List.map_cons, List.map_nil, fillRatios]
      rw [fillRatios1_eq _ _ _ _ _ hm]
      simp only
      rw [fillRatios1_eq _ _ _ _ _ hm']
    · constructor
      · intro p d0 e a hp he hu
        have hp' := hp
        simp only [List.mem_cons, List.not_mem_nil, or_false, Prod.mk.injEq] at hp'
        refine ⟨by rw [hkeepW, hkeepW]; exact fillValues_shown h _ _ _ _ _ _ hp he hu, ?_⟩
        rcases hp' with ⟨rfl, rfl⟩ | ⟨rfl, rfl⟩
        · rw [hkeepP _ _ _ _ _ (Or.inl ⟨_, rfl⟩)]
          exact hself _ _ _ _ _ hp e a he hu
        · exact hself _ _ _ _ _ hp e a he hu
      · intro p d0 hp
        simp only [List.mem_cons, List.not_mem_nil, or_false, Prod.mk.injEq] at hp
        rcases hp with ⟨rfl, rfl⟩ | ⟨rfl, rfl⟩
        · exact ⟨m, hm, by rw [hkeepP _ _ _ _ _ (Or.inr rfl)]; exact hmax _ _ _ _ _⟩
        · exact ⟨m', hm', hmax _ _ _ _ _⟩
    · intro l x hx
      obtain ⟨y, hy⟩ := hmono s.grid (valuePairs s.cyl [(.neutron, d), (.photon, d')]) l x hx
      rw [← fillValues_eq] at hy
      obtain ⟨z, hz⟩ := hmono _ (ratioPairs1 s.cyl .neutron (ratios1 d) m) l y hy
      exact hmono _ _ l z hz

end F4Enix.WW
