import Verif.WW.VectorsProps
import Verif.Out.RssaProps
import Mathlib.Algebra.BigOperators.Group.List.Lemmas
import Mathlib.Algebra.BigOperators.Ring.List
import Mathlib.Tactic.FieldSimp
/-!
# RSSA particle masks and current maps (C34, C35)
-/
namespace F4Enix.Rssa
open F4Enix

/-! ### masks -/

theorem map_trackAt_range (ts : List (List ℚ)) : (List.range ts.length).map (trackAt ts) = ts := by
  apply List.ext_getElem?
  intro i
  rw [List.getElem?_map]
  by_cases h : i < ts.length
  · rw [List.getElem?_range h, List.getElem?_eq_getElem h]
    simp [trackAt, List.getD, List.getElem?_eq_getElem h]
  · rw [List.getElem?_eq_none (by simp; omega), List.getElem?_eq_none (by omega)]; rfl

theorem whereIdx_tracks (cond : List ℚ → Bool) (ts : List (List ℚ)) :
    (whereIdx cond ts).map (trackAt ts) = ts.filter cond := by
  conv_rhs => rw [← map_trackAt_range ts, List.filter_map]
  rfl

theorem mem_whereIdx {cond : List ℚ → Bool} {ts : List (List ℚ)} {i : Nat} :
    i ∈ whereIdx cond ts ↔ i < ts.length ∧ cond (trackAt ts i) = true := by
  simp [whereIdx, trackAt]

theorem intersect_whereIdx (p q : List ℚ → Bool) (ts : List (List ℚ)) :
    intersect (whereIdx p ts) (whereIdx q ts) = whereIdx (fun t => p t && q t) ts := by
  have e0 : intersect (whereIdx p ts) (whereIdx q ts) =
      ((List.range ts.length).filter (fun i => p (ts.getD i []))).filter
        (fun i => decide (i ∈ whereIdx q ts)) := rfl
  rw [e0, List.filter_filter]
  apply List.filter_congr
  intro i hi
  rw [List.mem_range] at hi
  have : decide (i ∈ whereIdx q ts) = q (ts.getD i []) := by
    have := mem_whereIdx (cond := q) (ts := ts) (i := i)
    unfold trackAt at this
    cases hq : q (ts.getD i []) with
    | true => exact decide_eq_true (this.mpr ⟨hi, hq⟩)
    | false =>
      apply decide_eq_false
      intro hm
      rw [hq] at this
      exact absurd (this.mp hm).2 (by simp)
  rw [this, Bool.and_comm]

/-- **C34 (partition).** Every track is a neutron track or a photon track, and not both. -/
theorem masks_partition (ts : List (List ℚ)) (i : Nat) (hi : i < ts.length) :
    (i ∈ maskNeutron ts ∧ i ∉ maskPhoton ts) ∨ (i ∉ maskNeutron ts ∧ i ∈ maskPhoton ts) := by
  unfold maskNeutron maskPhoton
  simp only [mem_whereIdx, hi, true_and, decide_eq_true_eq, not_lt, not_le]
  rcases lt_or_ge |col 1 (trackAt ts i)| 900000000 with h | h
  · exact Or.inl ⟨h, h⟩
  · exact Or.inr ⟨h, h⟩

/-- masks name existing tracks only, in order and without repetition -/
theorem masks_valid (ts : List (List ℚ)) :
    (maskNeutron ts).Pairwise (· < ·) ∧ (maskPhoton ts).Pairwise (· < ·) ∧
    (∀ i ∈ maskNeutron ts, i < ts.length) ∧ (∀ i ∈ maskPhoton ts, i < ts.length) ∧
    (maskNeutron ts).length + (maskPhoton ts).length = ts.length := by
  refine ⟨List.pairwise_lt_range.filter _, List.pairwise_lt_range.filter _,
    fun i h => (mem_whereIdx.mp h).1, fun i h => (mem_whereIdx.mp h).1, ?_⟩
  unfold maskNeutron maskPhoton whereIdx
  have h : ∀ l : List Nat, (l.filter (fun i => decide (|col 1 (ts.getD i [])| < 900000000))).length +
      (l.filter (fun i => decide (900000000 ≤ |col 1 (ts.getD i [])|))).length = l.length := by
    intro l
    induction l with
    | nil => rfl
    | cons a l ih =>
      simp only [List.filter_cons, decide_eq_true_eq]
      rcases lt_or_ge |col 1 (ts.getD a [])| 900000000 with h | h
      · rw [if_pos h, if_neg (not_le.mpr h)]; simp only [List.length_cons]; omega
      · rw [if_neg (not_lt.mpr h), if_pos h]; simp only [List.length_cons]; omega
  rw [h, List.length_range]

/-- does the track belong to the particle named by `particle`? (bit pattern below/above 9e8) -/
def IsParticle (particle : Str) (t : List ℚ) : Prop :=
  (particle = "n".toList ∧ |col 1 t| < 900000000) ∨ (particle = "p".toList ∧ 900000000 ≤ |col 1 t|)

instance (p : Str) (t : List ℚ) : Decidable (IsParticle p t) := inferInstanceAs (Decidable (_ ∨ _))

/-- the angle of a track around the axis, from the columns with `x` and `y` (specification) -/
def angleOf (g : Geo) (t : List ℚ) : ℚ := g.angle (t.getD 5 0) (t.getD 6 0)

theorem thetaOf_eq (g : Geo) : thetaOf g = angleOf g := rfl

/-- strictly inside a range, if there is one (specification) -/
def InRange (r : Option (ℚ × ℚ)) (v : ℚ) : Prop := ∀ p ∈ r, p.1 < v ∧ v < p.2

instance (r : Option (ℚ × ℚ)) (v : ℚ) : Decidable (InRange r v) :=
  match r with
  | none => isTrue (by intro p hp; cases hp)
  | some p => if h : p.1 < v ∧ v < p.2 then isTrue (by intro q hq; cases hq; exact h)
    else isFalse (fun hc => h (hc p rfl))

/-- radius used by the plot: distance of the first track from the axis (specification) -/
def radius (g : Geo) (ts : List (List ℚ)) : ℚ := g.norm (col 5 (trackAt ts 0)) (col 6 (trackAt ts 0))

/-- the tracks a plot should use (specification) -/
def Selected (g : Geo) (ts : List (List ℚ)) (particle : Str) (xRange zRange : Option (ℚ × ℚ))
    (t : List ℚ) : Prop :=
  IsParticle particle t ∧ InRange zRange (col 7 t) ∧ InRange xRange (radius g ts * angleOf g t)

instance (g : Geo) (ts : List (List ℚ)) (p : Str) (xr zr : Option (ℚ × ℚ)) (t : List ℚ) :
    Decidable (Selected g ts p xr zr t) := inferInstanceAs (Decidable (_ ∧ _ ∧ _))

theorem particleMask_eq {particle : Str} {ts : List (List ℚ)} {pm : List Nat}
    (h : particleMask particle ts = .ok pm) :
    pm = whereIdx (fun t => decide (IsParticle particle t)) ts := by
  unfold particleMask at h
  split at h
  · rename_i hn
    cases h
    unfold maskNeutron
    congr 1
    funext t
    apply decide_eq_decide.mpr
    unfold IsParticle
    constructor
    · intro h; exact Or.inl ⟨hn, h⟩
    · rintro (h | ⟨h, -⟩)
      · exact h.2
      · rw [hn] at h; exact absurd h (by decide)
  · rename_i hn
    split at h
    · rename_i hp
      cases h
      unfold maskPhoton
      congr 1
      funext t
      apply decide_eq_decide.mpr
      unfold IsParticle
      constructor
      · intro h; exact Or.inr ⟨hp, h⟩
      · rintro (⟨h, -⟩ | h)
        · exact absurd h hn
        · exact h.2
    · cases h

/-- **C35 (selection).** The tracks used by a plot are exactly those of the particle that lie strictly
inside the given ranges, in file order. -/
theorem plot_selection {g : Geo} {ts : List (List ℚ)} {particle : Str} {xr zr : Option (ℚ × ℚ)}
    {mask : Option (List Nat)} {sel : List (List ℚ)}
    (hm : plotMask g ts xr zr = .ok mask) (hs : selection particle mask ts = .ok sel) :
    sel = ts.filter (fun t => decide (Selected g ts particle xr zr t)) := by
  unfold selection at hs
  cases hp : particleMask particle ts with
  | error e => rw [hp] at hs; cases hs
  | ok pm =>
    have hpm := particleMask_eq hp
    rw [hp] at hs
    unfold plotMask at hm
    cases zr with
    | none =>
      cases xr with
      | some r =>
        simp only [Option.map_none] at hm
        split at hm <;> cases hm
      | none =>
        simp only [Option.map_none] at hm
        cases hm
        simp only at hs
        cases hs
        rw [hpm, whereIdx_tracks]
        apply List.filter_congr
        intro t _
        apply decide_eq_decide.mpr
        simp [Selected, InRange]
    | some z =>
      cases xr with
      | none =>
        simp only [Option.map_some] at hm
        cases hm
        simp only at hs
        cases hs
        rw [hpm, intersect_whereIdx, intersect_whereIdx, whereIdx_tracks]
        apply List.filter_congr
        intro t _
        simp only [Selected, InRange, Option.mem_def, Option.some.injEq, forall_eq', reduceCtorEq,
          false_implies, implies_true, and_true, Bool.decide_and]
      | some r =>
        simp only [Option.map_some] at hm
        cases hm
        simp only at hs
        cases hs
        rw [hpm, intersect_whereIdx, intersect_whereIdx, intersect_whereIdx, intersect_whereIdx,
          whereIdx_tracks]
        apply List.filter_congr
        intro t _
        simp only [thetaOf_eq, Selected, InRange, Option.mem_def, Option.some.injEq, forall_eq', radius,
          Bool.decide_and, Bool.and_assoc]
        rfl

/-- **C60 (false of the code).** A filter on the perimeter without one on the height is always
refused. -/
theorem xrange_alone_refused (g : Geo) (ts : List (List ℚ)) (nps : ℤ) (particle : Str)
    (zInt thetaInt : Nat) (norm : ℚ) (r : ℚ × ℚ) :
    ∃ e, plotCyl g ts nps particle zInt thetaInt norm (some r) none = .error e := by
  unfold plotCyl plotMask
  simp only [Option.map_none]
  split
  · exact ⟨_, rfl⟩
  · exact ⟨_, rfl⟩

/-- a particle other than `n` and `p` is refused -/
theorem particle_refused (particle : Str) (ts : List (List ℚ)) (h1 : particle ≠ "n".toList)
    (h2 : particle ≠ "p".toList) : particleMask particle ts = .error .valueError := by
  unfold particleMask
  rw [if_neg h1, if_neg h2]

/-! ### cells -/

theorem linspace_form (lo hi : ℚ) (n : Nat) (hn : 0 < n) :
    ∃ tl, WW.linspace lo hi (n + 1) = lo :: (lo + (hi - lo) / n) :: tl := by
  obtain ⟨m, rfl⟩ : ∃ m, n = m + 1 := ⟨n - 1, by omega⟩
  refine ⟨((List.range m).map (fun i => i + 2)).map (fun (i : Nat) => lo + (i : ℚ) * ((hi - lo) / ((m + 1 : ℕ) : ℚ))), ?_⟩
  unfold WW.linspace
  rw [List.range_succ_eq_map, List.map_cons, List.map_map, List.range_succ_eq_map, List.map_cons, List.map_map, List.map_map]
  have h1 : ¬ (m + 1 + 1 = 1) := by omega
  simp only [h1, if_false, Function.comp_def, Nat.cast_add, Nat.cast_one, add_sub_cancel_right]
  congr 1
  · simp
  · congr 1
    · simp
    · apply List.map_congr_left
      intro i _
      simp only [Nat.succ_eq_add_one, Nat.cast_add, Nat.cast_one, Nat.cast_ofNat]
      ring

/-- the cell index computed by the code (proof) -/
def idxOf (lo hi : ℚ) (n : Nat) (v : ℚ) : ℤ :=
  if trunc ((v - lo) / ((hi - lo) / n)) = n then (n : ℤ) - 1 else trunc ((v - lo) / ((hi - lo) / n))

theorem closest_linspace (lo hi : ℚ) (n : Nat) (hn : 0 < n) (h : lo < hi) (v : ℚ) :
    closest (WW.linspace lo hi (n + 1)) v = .ok (idxOf lo hi n v) := by
  obtain ⟨tl, ht⟩ := linspace_form lo hi n hn
  have hlen : (lo :: (lo + (hi - lo) / n) :: tl).length = n + 1 := by
    rw [← ht, WW.linspace_length]
  rw [ht]
  unfold closest
  simp only [add_sub_cancel_left]
  have hq : (0 : ℚ) < (n : ℚ) := by exact_mod_cast hn
  rw [if_neg (ne_of_gt (div_pos (sub_pos.mpr h) hq)), hlen]
  unfold idxOf
  congr 1
  push_cast
  simp only [add_sub_cancel_right]
  split <;> ring

theorem closest_degenerate (lo : ℚ) (n : Nat) (v : ℚ) :
    closest (WW.linspace lo lo (n + 1)) v = .error .indexError := by
  by_cases hn : 0 < n
  · obtain ⟨tl, ht⟩ := linspace_form lo lo n hn
    rw [ht]
    unfold closest
    simp
  · have : n = 0 := by omega
    subst this
    simp [WW.linspace, closest, List.range_succ]

theorem closest_zero (lo hi : ℚ) (v : ℚ) :
    closest (WW.linspace lo hi (0 + 1)) v = .error .indexError := by
  simp [WW.linspace, closest, List.range_succ]

/-- the index computed for a value between the bounds is that of the cell holding it -/
theorem idxOf_inCell (lo hi : ℚ) (n : Nat) (hn : 0 < n) (h : lo < hi) (v : ℚ) (h1 : lo ≤ v)
    (h2 : v ≤ hi) (i : Nat) : idxOf lo hi n v = i ↔ InCell lo hi n i v := by
  have hq : (0 : ℚ) < (n : ℚ) := by exact_mod_cast hn
  have hs : 0 < (hi - lo) / (n : ℚ) := div_pos (sub_pos.mpr h) hq
  set s := (hi - lo) / (n : ℚ) with hsdef
  have hns : (n : ℚ) * s = hi - lo := by rw [hsdef]; field_simp
  have h0 : 0 ≤ (v - lo) / s := div_nonneg (sub_nonneg.mpr h1) hs.le
  have hle : (v - lo) / s ≤ n := by rw [div_le_iff₀ hs, hns]; linarith
  have ht : trunc ((v - lo) / s) = ⌊(v - lo) / s⌋ := by unfold trunc; rw [if_pos h0]
  have hf : ∀ k : ℤ, ⌊(v - lo) / s⌋ = k ↔ lo + k * s ≤ v ∧ v < lo + (k + 1) * s := by
    intro k
    rw [Int.floor_eq_iff, le_div_iff₀ hs, div_lt_iff₀ hs]
    constructor <;> rintro ⟨a, b⟩ <;> constructor <;> linarith
  unfold idxOf InCell
  rw [← hsdef, ht]
  by_cases hend : ⌊(v - lo) / s⌋ = (n : ℤ)
  · rw [if_pos hend]
    have hv : v = hi := by
      have := (hf n).mp hend
      have h3 := this.1
      push_cast at h3
      linarith
    subst hv
    have hn1 : ((n - 1 : ℕ) : ℤ) = (n : ℤ) - 1 := by omega
    constructor
    · intro e
      have e' : i + 1 = n := by omega
      refine ⟨by omega, ?_, Or.inr ⟨e', rfl⟩⟩
      have : (i : ℚ) * s ≤ n * s := by
        apply mul_le_mul_of_nonneg_right _ hs.le
        exact_mod_cast (by omega : i ≤ n)
      linarith
    · rintro ⟨a, b, c | c⟩
      · exfalso
        have : ((i : ℚ) + 1) * s ≤ n * s := by
          apply mul_le_mul_of_nonneg_right _ hs.le
          exact_mod_cast (by omega : i + 1 ≤ n)
        linarith
      · omega
  · rw [if_neg hend]
    have := hf (i : ℤ)
    push_cast at this
    rw [this]
    constructor
    · rintro ⟨a, b⟩
      refine ⟨?_, a, Or.inl b⟩
      by_contra hc
      have hni : (n : ℚ) * s ≤ i * s := by
        apply mul_le_mul_of_nonneg_right _ hs.le
        exact_mod_cast (by omega : n ≤ i)
      apply hend
      rw [hf]
      push_cast
      constructor
      · linarith
      · nlinarith
    · rintro ⟨a, b, c | ⟨c, d⟩⟩
      · exact ⟨b, c⟩
      · exfalso
        apply hend
        rw [hf]
        push_cast
        constructor
        · rw [d]; linarith
        · rw [d]; nlinarith

theorem idxOf_bounds (lo hi : ℚ) (n : Nat) (hn : 0 < n) (h : lo < hi) (v : ℚ) (h1 : lo ≤ v)
    (h2 : v ≤ hi) : 0 ≤ idxOf lo hi n v ∧ idxOf lo hi n v < n := by
  have hq : (0 : ℚ) < (n : ℚ) := by exact_mod_cast hn
  have hs : 0 < (hi - lo) / (n : ℚ) := div_pos (sub_pos.mpr h) hq
  have hns : (n : ℚ) * ((hi - lo) / (n : ℚ)) = hi - lo := by field_simp
  have h0 : 0 ≤ (v - lo) / ((hi - lo) / (n : ℚ)) := div_nonneg (sub_nonneg.mpr h1) hs.le
  have hle : (v - lo) / ((hi - lo) / (n : ℚ)) ≤ n := by rw [div_le_iff₀ hs, hns]; linarith
  have ht : trunc ((v - lo) / ((hi - lo) / (n : ℚ))) = ⌊(v - lo) / ((hi - lo) / (n : ℚ))⌋ := by
    unfold trunc; rw [if_pos h0]
  have hf0 : 0 ≤ ⌊(v - lo) / ((hi - lo) / (n : ℚ))⌋ := Int.floor_nonneg.mpr h0
  have hfn : ⌊(v - lo) / ((hi - lo) / (n : ℚ))⌋ ≤ n := by
    have := Int.floor_le ((v - lo) / ((hi - lo) / (n : ℚ)))
    have : ((⌊(v - lo) / ((hi - lo) / (n : ℚ))⌋ : ℤ) : ℚ) ≤ ((n : ℤ) : ℚ) := by
      push_cast; linarith
    exact_mod_cast this
  unfold idxOf
  rw [ht]
  split <;> constructor <;> omega

/-- every value between the bounds lies in exactly one cell -/
theorem cell_unique (lo hi : ℚ) (n : Nat) (hn : 0 < n) (h : lo < hi) (v : ℚ) (h1 : lo ≤ v)
    (h2 : v ≤ hi) : ∃! i, InCell lo hi n i v := by
  obtain ⟨a, b⟩ := idxOf_bounds lo hi n hn h v h1 h2
  refine ⟨(idxOf lo hi n v).toNat, ?_, ?_⟩
  · simp only
    rw [← idxOf_inCell lo hi n hn h v h1 h2]; omega
  · intro j hj
    rw [← idxOf_inCell lo hi n hn h v h1 h2] at hj
    omega

/-! ### accumulating -/

/-- the shape of a grid (proof) -/
def Shape (g : List (List ℚ)) (n m : Nat) : Prop := g.length = n ∧ ∀ r ∈ g, r.length = m

/-- the value of a grid at a position (proof) -/
def at2 (g : List (List ℚ)) (i j : Nat) : ℚ := (g.getD i []).getD j 0

theorem shape_zeros (n m : Nat) : Shape (zeros n m) n m := by
  constructor
  · simp [zeros]
  · intro r hr
    obtain ⟨-, rfl⟩ := List.mem_replicate.mp hr
    simp

theorem at2_zeros (n m i j : Nat) : at2 (zeros n m) i j = 0 := by
  unfold at2 zeros
  simp only [List.getD, List.getElem?_replicate]
  split
  · simp only [Option.getD_some, List.getElem?_replicate]
    split <;> rfl
  · simp

theorem getD_row {g : List (List ℚ)} {n m : Nat} (h : Shape g n m) {i : Nat} (hi : i < n) :
    (g.getD i []).length = m := by
  have hi' : i < g.length := by rw [h.1]; exact hi
  rw [List.getD, List.getElem?_eq_getElem hi', Option.getD_some]
  exact h.2 _ (List.getElem_mem hi')

theorem addAt_ok {g : List (List ℚ)} {n m : Nat} (h : Shape g n m) {i j : ℤ} (w : ℚ)
    (hi : 0 ≤ i ∧ i < n) (hj : 0 ≤ j ∧ j < m) :
    ∃ g', addAt g i j w = .ok g' ∧ Shape g' n m ∧
      ∀ a b, at2 g' a b = at2 g a b + (if i = a ∧ j = b then w else 0) := by
  have hrow : (g.getD i.toNat []).length = m := getD_row h (by omega)
  refine ⟨g.set i.toNat ((g.getD i.toNat []).set j.toNat ((g.getD i.toNat []).getD j.toNat 0 + w)),
    ?_, ?_, ?_⟩
  · unfold addAt pyIndex
    rw [h.1, if_pos hi]
    simp only
    rw [hrow, if_pos hj]
  · constructor
    · rw [List.length_set, h.1]
    · intro r hr
      rcases List.mem_or_eq_of_mem_set hr with hr | rfl
      · exact h.2 r hr
      · rw [List.length_set, hrow]
  · intro a b
    unfold at2
    by_cases ha : i.toNat = a
    · subst ha
      have hl : i.toNat < g.length := by rw [h.1]; omega
      have e : (g.set i.toNat ((g.getD i.toNat []).set j.toNat ((g.getD i.toNat []).getD j.toNat 0 + w))).getD
          i.toNat [] = (g.getD i.toNat []).set j.toNat ((g.getD i.toNat []).getD j.toNat 0 + w) := by
        simp [List.getD, hl]
      rw [e]
      by_cases hb : j.toNat = b
      · subst hb
        rw [if_pos (by omega)]
        have hl2 : j.toNat < (g.getD i.toNat []).length := by rw [hrow]; omega
        conv_lhs => rw [List.getD, List.getElem?_set_self hl2]
        rfl
      · rw [if_neg (by omega)]
        conv_lhs => rw [List.getD, List.getElem?_set_ne hb]
        simp [List.getD]
    · rw [if_neg (by omega)]
      have e : (g.set i.toNat ((g.getD i.toNat []).set j.toNat ((g.getD i.toNat []).getD j.toNat 0 + w))).getD
          a [] = g.getD a [] := by
        simp [List.getD, List.getElem?_set_ne ha]
      rw [e]; simp

theorem addAll_ok (l : List (ℤ × ℤ × ℚ)) {g : List (List ℚ)} {n m : Nat} (h : Shape g n m)
    (hl : ∀ x ∈ l, (0 ≤ x.1 ∧ x.1 < n) ∧ (0 ≤ x.2.1 ∧ x.2.1 < m)) :
    ∃ g', addAll g l = .ok g' ∧ Shape g' n m ∧
      ∀ a b : Nat, at2 g' a b =
        at2 g a b + ((l.filter (fun (x : ℤ × ℤ × ℚ) => decide (x.1 = (a : ℤ) ∧ x.2.1 = (b : ℤ)))).map (fun x => x.2.2)).sum := by
  induction l generalizing g with
  | nil => exact ⟨g, rfl, h, by simp⟩
  | cons x l ih =>
    obtain ⟨i, j, w⟩ := x
    obtain ⟨b1, b2⟩ := hl (i, j, w) (by simp)
    obtain ⟨g1, e1, s1, v1⟩ := addAt_ok h w b1 b2
    obtain ⟨g2, e2, s2, v2⟩ := ih s1 (fun y hy => hl y (List.mem_cons_of_mem _ hy))
    refine ⟨g2, ?_, s2, ?_⟩
    · simp only [addAll, e1, e2]
    · intro a b
      rw [v2, v1, List.filter_cons]
      simp only [decide_eq_true_eq]
      by_cases hc : i = (a : ℤ) ∧ j = (b : ℤ)
      · rw [if_pos hc, if_pos hc]; simp; ring
      · rw [if_neg hc, if_neg hc]; simp

theorem mapE_ok {α β : Type} (f : α → Except PyErr β) (f' : α → β) (l : List α)
    (h : ∀ x ∈ l, f x = .ok (f' x)) : mapE f l = .ok (l.map f') := by
  induction l with
  | nil => rfl
  | cons x l ih =>
    simp only [mapE, h x (by simp), ih (fun y hy => h y (List.mem_cons_of_mem _ hy)), List.map_cons]

theorem minOf_least {l : List ℚ} {v : ℚ} (h : minOf l = .ok v) : IsLeast v l := by
  cases l with
  | nil => cases h
  | cons x xs =>
    simp only [minOf] at h
    cases h
    have key : ∀ (xs : List ℚ) (x : ℚ), xs.foldl min x ∈ x :: xs ∧ ∀ v ∈ x :: xs, xs.foldl min x ≤ v := by
      intro xs
      induction xs with
      | nil => intro x; simp
      | cons y ys ih =>
        intro x
        simp only [List.foldl_cons]
        obtain ⟨a, b⟩ := ih (min x y)
        constructor
        · rcases List.mem_cons.mp a with a | a
          · rw [a]; rcases min_choice x y with e | e <;> rw [e] <;> simp
          · simp [a]
        · intro v hv
          have h0 := b (min x y) (by simp)
          rcases List.mem_cons.mp hv with rfl | hv
          · exact le_trans h0 (min_le_left _ _)
          · rcases List.mem_cons.mp hv with rfl | hv
            · exact le_trans h0 (min_le_right _ _)
            · exact b v (by simp [hv])
    exact key xs x

theorem maxOf_greatest {l : List ℚ} {v : ℚ} (h : maxOf l = .ok v) : IsGreatest v l := by
  cases l with
  | nil => cases h
  | cons x xs =>
    simp only [maxOf] at h
    cases h
    have key : ∀ (xs : List ℚ) (x : ℚ), xs.foldl max x ∈ x :: xs ∧ ∀ v ∈ x :: xs, v ≤ xs.foldl max x := by
      intro xs
      induction xs with
      | nil => intro x; simp
      | cons y ys ih =>
        intro x
        simp only [List.foldl_cons]
        obtain ⟨a, b⟩ := ih (max x y)
        constructor
        · rcases List.mem_cons.mp a with a | a
          · rw [a]; rcases max_choice x y with e | e <;> rw [e] <;> simp
          · simp [a]
        · intro v hv
          have h0 := b (max x y) (by simp)
          rcases List.mem_cons.mp hv with rfl | hv
          · exact le_trans (le_max_left _ _) h0
          · rcases List.mem_cons.mp hv with rfl | hv
            · exact le_trans (le_max_right _ _) h0
            · exact b v (by simp [hv])
    exact key xs x

/-! ### the maps -/

theorem zip_zip_map {α : Type} (l : List α) (f : α → ℤ) (g : α → ℤ) (w : α → ℚ) :
    List.zip (l.map f) (List.zip (l.map g) (l.map w)) = l.map (fun x => (f x, g x, w x)) := by
  induction l with
  | nil => rfl
  | cons x l ih => simp [ih]

/-- a grid described cell by cell (specification) -/
def GridIs (grid : List (List ℚ)) (n m : Nat) (v : Nat → Nat → ℚ) : Prop :=
  grid.length = n ∧ ∀ i, i < n → ∃ row, grid[i]? = some row ∧ row.length = m ∧
    ∀ j, j < m → row[j]? = some (v i j)

theorem gridIs_of_shape {g : List (List ℚ)} {n m : Nat} (h : Shape g n m) : GridIs g n m (at2 g) := by
  refine ⟨h.1, ?_⟩
  intro i hi
  have hi' : i < g.length := by rw [h.1]; exact hi
  have hr := h.2 _ (List.getElem_mem hi')
  refine ⟨g[i], List.getElem?_eq_getElem hi', hr, ?_⟩
  intro j hj
  have hj' : j < g[i].length := by rw [hr]; exact hj
  rw [List.getElem?_eq_getElem hj']
  simp [at2, List.getD, List.getElem?_eq_getElem hi', List.getElem?_eq_getElem hj']

theorem gridIs_map {g : List (List ℚ)} {n m : Nat} {v : Nat → Nat → ℚ} (h : GridIs g n m v)
    (f : ℚ → ℚ) : GridIs (g.map (fun r => r.map f)) n m (fun i j => f (v i j)) := by
  refine ⟨by rw [List.length_map]; exact h.1, ?_⟩
  intro i hi
  obtain ⟨row, a, b, c⟩ := h.2 i hi
  refine ⟨row.map f, by rw [List.getElem?_map, a]; rfl, by rw [List.length_map]; exact b, ?_⟩
  intro j hj
  rw [List.getElem?_map, c j hj]; rfl

theorem gridIs_congr {g : List (List ℚ)} {n m : Nat} {v w : Nat → Nat → ℚ} (h : GridIs g n m v)
    (e : ∀ i j, i < n → j < m → v i j = w i j) : GridIs g n m w := by
  refine ⟨h.1, ?_⟩
  intro i hi
  obtain ⟨row, a, b, c⟩ := h.2 i hi
  exact ⟨row, a, b, fun j hj => by rw [c j hj, e i j hi hj]⟩

/-- the tracks of a list in cell `(i, j)` (specification) -/
def inCell (g : Geo) (zlo zhi tlo thi : ℚ) (n m i j : Nat) (sel : List (List ℚ)) : List (List ℚ) :=
  sel.filter (fun t => decide (InCell zlo zhi n i (col 7 t) ∧ InCell tlo thi m j (angleOf g t)))

/-- **C35 (maps).** Whenever the maps of a selection of tracks are computed, the axes run from the
least to the greatest coordinate of the selection; the value of a cell is the sum of the weights of the
selected tracks lying in it, divided by the area of a cell and the number of histories and multiplied
by the normalisation; its error is `1 / sqrt N`, `N` the number of its tracks (1 if there are none). -/
theorem current_maps {g : Geo} {ts sel : List (List ℚ)} {nps : ℤ} {particle : Str}
    {zInt thetaInt : Nat} {intensity : ℚ} {mask : Option (List Nat)} {mp : Maps}
    (hsel : selection particle mask ts = .ok sel)
    (h : currentMaps g ts nps particle zInt thetaInt intensity mask = .ok mp) :
    ∃ zlo zhi tlo thi,
      IsLeast zlo (sel.map (col 7)) ∧ IsGreatest zhi (sel.map (col 7)) ∧
      IsLeast tlo (sel.map (angleOf g)) ∧ IsGreatest thi (sel.map (angleOf g)) ∧
      zlo < zhi ∧ tlo < thi ∧ 0 < zInt ∧ 0 < thetaInt ∧
      mp.zAxis = WW.linspace zlo zhi (zInt + 1) ∧
      mp.thetaAxis = WW.linspace tlo thi (thetaInt + 1) ∧
      mp.area = |radius g ts * ((thi - tlo) / thetaInt) * ((zhi - zlo) / zInt)| ∧
      mp.area ≠ 0 ∧ nps ≠ 0 ∧
      GridIs mp.values zInt thetaInt (fun i j =>
        ((inCell g zlo zhi tlo thi zInt thetaInt i j sel).map (col 2)).sum
          / mp.area / |(nps : ℚ)| * intensity) ∧
      GridIs mp.errors zInt thetaInt (fun i j =>
        1 / g.sqrt (max 1 ((inCell g zlo zhi tlo thi zInt thetaInt i j sel).length : ℚ))) := by
  unfold currentMaps gridAxes at h
  rw [thetaOf_eq, hsel] at h
  simp only [bind, Except.bind, pure, Except.pure] at h
  cases h1 : minOf (sel.map (col 7)) with
  | error e => rw [h1] at h; cases h
  | ok zlo =>
  cases h2 : maxOf (sel.map (col 7)) with
  | error e => rw [h1, h2] at h; cases h
  | ok zhi =>
  cases h3 : minOf (sel.map (angleOf g)) with
  | error e => rw [h1, h2, h3] at h; cases h
  | ok tlo =>
  cases h4 : maxOf (sel.map (angleOf g)) with
  | error e => rw [h1, h2, h3, h4] at h; cases h
  | ok thi =>
  rw [h1, h2, h3, h4] at h
  simp only at h
  have l1 := minOf_least h1
  have l2 := maxOf_greatest h2
  have l3 := minOf_least h3
  have l4 := maxOf_greatest h4
  have hz : ∀ t ∈ sel, zlo ≤ col 7 t ∧ col 7 t ≤ zhi := fun t ht =>
    ⟨l1.2 _ (List.mem_map_of_mem ht), l2.2 _ (List.mem_map_of_mem ht)⟩
  have ht : ∀ t ∈ sel, tlo ≤ angleOf g t ∧ angleOf g t ≤ thi := fun t ht =>
    ⟨l3.2 _ (List.mem_map_of_mem ht), l4.2 _ (List.mem_map_of_mem ht)⟩
  obtain ⟨t0, ht0, -⟩ := List.mem_map.mp l1.1
  obtain ⟨sel0, selr, hsel0⟩ : ∃ a b, sel = a :: b := by
    cases sel with
    | nil => cases ht0
    | cons a b => exact ⟨a, b, rfl⟩
  -- the axes are not degenerate
  have nd : ∀ (lo hi : ℚ) (k : Nat) (f : List ℚ → ℚ), lo ≤ hi →
      (∃ l, mapE (closest (WW.linspace lo hi (k + 1))) (sel.map f) = .ok l) → lo < hi ∧ 0 < k := by
    rintro lo hi k f hle ⟨l, hl⟩
    rw [hsel0] at hl
    simp only [List.map_cons, mapE] at hl
    constructor
    · rcases lt_or_eq_of_le hle with hlt | rfl
      · exact hlt
      · rw [closest_degenerate] at hl; cases hl
    · rcases Nat.eq_zero_or_pos k with rfl | hk
      · rw [closest_zero] at hl; cases hl
      · exact hk
  cases h5 : mapE (closest (WW.linspace zlo zhi (zInt + 1))) (sel.map (col 7)) with
  | error e => rw [h5] at h; cases h
  | ok zs =>
  obtain ⟨zlt, zpos⟩ := nd _ _ _ _ (le_trans (hz _ ht0).1 (hz _ ht0).2) ⟨_, h5⟩
  rw [h5] at h
  simp only at h
  cases h6 : mapE (closest (WW.linspace tlo thi (thetaInt + 1))) (sel.map (angleOf g)) with
  | error e => rw [h6] at h; cases h
  | ok tis =>
  obtain ⟨tlt, tpos⟩ := nd _ _ _ _ (le_trans (ht _ ht0).1 (ht _ ht0).2) ⟨_, h6⟩
  rw [h6] at h
  simp only at h
  rw [mapE_ok _ (idxOf zlo zhi zInt) _ (fun v _ => closest_linspace _ _ _ zpos zlt v)] at h5
  rw [mapE_ok _ (idxOf tlo thi thetaInt) _ (fun v _ => closest_linspace _ _ _ tpos tlt v)] at h6
  cases h5
  cases h6
  simp only [List.map_map] at h
  rw [zip_zip_map, zip_zip_map] at h
  have bnd : ∀ (w : List ℚ → ℚ), ∀ x ∈ sel.map (fun t =>
      ((idxOf zlo zhi zInt ∘ col 7) t, (idxOf tlo thi thetaInt ∘ angleOf g) t, w t)),
      (0 ≤ x.1 ∧ x.1 < zInt) ∧ (0 ≤ x.2.1 ∧ x.2.1 < thetaInt) := by
    intro w x hx
    obtain ⟨t, hm, rfl⟩ := List.mem_map.mp hx
    exact ⟨idxOf_bounds _ _ _ zpos zlt _ (hz t hm).1 (hz t hm).2,
      idxOf_bounds _ _ _ tpos tlt _ (ht t hm).1 (ht t hm).2⟩
  have sums : ∀ (w : List ℚ → ℚ) (a b : Nat),
      (((sel.map (fun t => ((idxOf zlo zhi zInt ∘ col 7) t, (idxOf tlo thi thetaInt ∘ angleOf g) t, w t))).filter
        (fun (x : ℤ × ℤ × ℚ) => decide (x.1 = (a : ℤ) ∧ x.2.1 = (b : ℤ)))).map (fun x => x.2.2)).sum =
      ((inCell g zlo zhi tlo thi zInt thetaInt a b sel).map w).sum := by
    intro w a b
    rw [List.filter_map, List.map_map]
    unfold inCell
    have e : sel.filter ((fun (x : ℤ × ℤ × ℚ) => decide (x.1 = (a : ℤ) ∧ x.2.1 = (b : ℤ))) ∘
        (fun t => ((idxOf zlo zhi zInt ∘ col 7) t, (idxOf tlo thi thetaInt ∘ angleOf g) t, w t))) =
        sel.filter (fun t => decide (InCell zlo zhi zInt a (col 7 t) ∧ InCell tlo thi thetaInt b (angleOf g t))) := by
      apply List.filter_congr
      intro t hm
      apply decide_eq_decide.mpr
      simp only [Function.comp]
      rw [idxOf_inCell _ _ _ zpos zlt _ (hz t hm).1 (hz t hm).2,
        idxOf_inCell _ _ _ tpos tlt _ (ht t hm).1 (ht t hm).2]
    rw [e]
    rfl
  obtain ⟨gv, ev, sv, vv⟩ := addAll_ok _ (shape_zeros zInt thetaInt) (bnd (col 2))
  obtain ⟨gc, ec, sc, vc⟩ := addAll_ok _ (shape_zeros zInt thetaInt) (bnd (fun _ => 1))
  rw [ev, ec] at h
  simp only at h
  obtain ⟨ztl, hzf⟩ := linspace_form zlo zhi zInt zpos
  obtain ⟨ttl, htf⟩ := linspace_form tlo thi thetaInt tpos
  have d1 : stepOf (WW.linspace zlo zhi (zInt + 1)) = .ok ((zhi - zlo) / zInt) := by
    rw [hzf]; simp [stepOf]
  have d2 : stepOf (WW.linspace tlo thi (thetaInt + 1)) = .ok ((thi - tlo) / thetaInt) := by
    rw [htf]; simp [stepOf]
  rw [d1, d2] at h
  simp only at h
  split at h
  · cases h
  · rename_i hne
    rw [not_or] at hne
    cases h
    refine ⟨zlo, zhi, tlo, thi, l1, l2, l3, l4, zlt, tlt, zpos, tpos, rfl, rfl, rfl, hne.1, hne.2, ?_, ?_⟩
    · refine gridIs_congr (gridIs_map (gridIs_of_shape sv) _) ?_
      intro i j _ _
      simp only [vv, at2_zeros, zero_add, sums]
    · refine gridIs_congr (gridIs_map (gridIs_of_shape sc) _) ?_
      intro i j _ _
      simp only [vc, at2_zeros, zero_add, sums, errOf]
      have e1 : ((inCell g zlo zhi tlo thi zInt thetaInt i j sel).map (fun _ => (1 : ℚ))).sum =
          ((inCell g zlo zhi tlo thi zInt thetaInt i j sel).length : ℚ) := by
        rw [List.map_const', List.sum_replicate]; simp
      rw [e1]
      congr 2
      by_cases h0 : (inCell g zlo zhi tlo thi zInt thetaInt i j sel).length = 0
      · rw [h0]; simp
      · rw [if_neg (by exact_mod_cast h0), max_eq_right]
        exact_mod_cast Nat.one_le_iff_ne_zero.mpr h0

theorem minOf_ok {l : List ℚ} (h : l ≠ []) : ∃ v, minOf l = .ok v := by
  cases l with
  | nil => exact absurd rfl h
  | cons x xs => exact ⟨_, rfl⟩

theorem maxOf_ok {l : List ℚ} (h : l ≠ []) : ∃ v, maxOf l = .ok v := by
  cases l with
  | nil => exact absurd rfl h
  | cons x xs => exact ⟨_, rfl⟩

/-- the maps are computed whenever the selected tracks do not all have the same height or the same
angle, the grid has cells, and the radius and the number of histories are not zero -/
theorem current_succeeds (g : Geo) {ts sel : List (List ℚ)} {nps : ℤ} {particle : Str}
    {zInt thetaInt : Nat} (intensity : ℚ) {mask : Option (List Nat)}
    (hsel : selection particle mask ts = .ok sel)
    (hz : ∃ s ∈ sel, ∃ t ∈ sel, col 7 s < col 7 t)
    (ht : ∃ s ∈ sel, ∃ t ∈ sel, angleOf g s < angleOf g t)
    (hzi : 0 < zInt) (hti : 0 < thetaInt) (hr : radius g ts ≠ 0) (hn : nps ≠ 0) :
    ∃ mp, currentMaps g ts nps particle zInt thetaInt intensity mask = .ok mp := by
  have hne : sel ≠ [] := by
    obtain ⟨s, hs, -⟩ := hz
    intro e; rw [e] at hs; cases hs
  obtain ⟨zlo, h1⟩ := minOf_ok (l := sel.map (col 7)) (by simpa using hne)
  obtain ⟨zhi, h2⟩ := maxOf_ok (l := sel.map (col 7)) (by simpa using hne)
  obtain ⟨tlo, h3⟩ := minOf_ok (l := sel.map (angleOf g)) (by simpa using hne)
  obtain ⟨thi, h4⟩ := maxOf_ok (l := sel.map (angleOf g)) (by simpa using hne)
  have l1 := minOf_least h1
  have l2 := maxOf_greatest h2
  have l3 := minOf_least h3
  have l4 := maxOf_greatest h4
  have hzb : ∀ t ∈ sel, zlo ≤ col 7 t ∧ col 7 t ≤ zhi := fun t ht =>
    ⟨l1.2 _ (List.mem_map_of_mem ht), l2.2 _ (List.mem_map_of_mem ht)⟩
  have htb : ∀ t ∈ sel, tlo ≤ angleOf g t ∧ angleOf g t ≤ thi := fun t ht =>
    ⟨l3.2 _ (List.mem_map_of_mem ht), l4.2 _ (List.mem_map_of_mem ht)⟩
  have zlt : zlo < zhi := by
    obtain ⟨s, hs, t, ht, hlt⟩ := hz
    have := (hzb s hs).1; have := (hzb t ht).2; linarith
  have tlt : tlo < thi := by
    obtain ⟨s, hs, t, ht, hlt⟩ := ht
    have := (htb s hs).1; have := (htb t ht).2; linarith
  have h5 := mapE_ok _ (idxOf zlo zhi zInt) (sel.map (col 7))
    (fun v _ => closest_linspace zlo zhi zInt hzi zlt v)
  have h6 := mapE_ok _ (idxOf tlo thi thetaInt) (sel.map (angleOf g))
    (fun v _ => closest_linspace tlo thi thetaInt hti tlt v)
  have bnd : ∀ (w : List ℚ → ℚ), ∀ x ∈ sel.map (fun t =>
      ((idxOf zlo zhi zInt ∘ col 7) t, (idxOf tlo thi thetaInt ∘ angleOf g) t, w t)),
      (0 ≤ x.1 ∧ x.1 < zInt) ∧ (0 ≤ x.2.1 ∧ x.2.1 < thetaInt) := by
    intro w x hx
    obtain ⟨t, hm, rfl⟩ := List.mem_map.mp hx
    exact ⟨idxOf_bounds _ _ _ hzi zlt _ (hzb t hm).1 (hzb t hm).2,
      idxOf_bounds _ _ _ hti tlt _ (htb t hm).1 (htb t hm).2⟩
  obtain ⟨gv, ev, -, -⟩ := addAll_ok _ (shape_zeros zInt thetaInt) (bnd (col 2))
  obtain ⟨gc, ec, -, -⟩ := addAll_ok _ (shape_zeros zInt thetaInt) (bnd (fun _ => 1))
  obtain ⟨ztl, hzf⟩ := linspace_form zlo zhi zInt hzi
  obtain ⟨ttl, htf⟩ := linspace_form tlo thi thetaInt hti
  have d1 : stepOf (WW.linspace zlo zhi (zInt + 1)) = .ok ((zhi - zlo) / zInt) := by
    rw [hzf]; simp [stepOf]
  have d2 : stepOf (WW.linspace tlo thi (thetaInt + 1)) = .ok ((thi - tlo) / thetaInt) := by
    rw [htf]; simp [stepOf]
  have hzq : (0 : ℚ) < zInt := by exact_mod_cast hzi
  have htq : (0 : ℚ) < thetaInt := by exact_mod_cast hti
  have harea : |radius g ts * ((thi - tlo) / thetaInt) * ((zhi - zlo) / zInt)| ≠ 0 := by
    rw [abs_ne_zero]
    refine mul_ne_zero (mul_ne_zero hr ?_) ?_
    · exact ne_of_gt (div_pos (sub_pos.mpr tlt) htq)
    · exact ne_of_gt (div_pos (sub_pos.mpr zlt) hzq)
  unfold currentMaps gridAxes
  rw [thetaOf_eq, hsel]
  simp only [bind, Except.bind, pure, Except.pure]
  rw [h1, h2, h3, h4]
  simp only
  rw [h5, h6]
  simp only [List.map_map]
  rw [zip_zip_map, zip_zip_map, ev, ec]
  simp only
  rw [d1, d2]
  simp only
  rw [if_neg (by rw [not_or]; exact ⟨harea, hn⟩)]
  exact ⟨_, rfl⟩

/-- a plot of a selection without tracks is refused -/
theorem empty_refused (g : Geo) {ts : List (List ℚ)} (nps : ℤ) {particle : Str} (zInt thetaInt : Nat)
    (intensity : ℚ) {mask : Option (List Nat)} (hsel : selection particle mask ts = .ok []) :
    currentMaps g ts nps particle zInt thetaInt intensity mask = .error .valueError := by
  unfold currentMaps gridAxes
  rw [hsel]
  rfl

/-! ### conservation -/

theorem sum_unique {P : Nat → Prop} [DecidablePred P] (w : ℚ) (l : List Nat) (hn : l.Nodup) (k : Nat)
    (hk : k ∈ l) (hP : ∀ i ∈ l, P i ↔ i = k) : (l.map (fun i => if P i then w else 0)).sum = w := by
  induction l with
  | nil => cases hk
  | cons a l ih =>
    obtain ⟨ha, hn⟩ := List.nodup_cons.mp hn
    rw [List.map_cons, List.sum_cons]
    by_cases hak : a = k
    · subst hak
      rw [if_pos ((hP a (by simp)).mpr rfl)]
      have : l.map (fun i => if P i then w else 0) = l.map (fun _ => (0 : ℚ)) := by
        apply List.map_congr_left
        intro i hi
        rw [if_neg]
        intro hp
        have := (hP i (by simp [hi])).mp hp
        subst this; exact ha hi
      rw [this, List.map_const', List.sum_replicate]; simp
    · rw [if_neg (fun h => hak ((hP a (by simp)).mp h)), zero_add]
      exact ih hn (by rcases List.mem_cons.mp hk with e | e; exact absurd e.symm hak; exact e)
        (fun i hi => hP i (by simp [hi]))

theorem sum_zero (l : List Nat) : (l.map (fun _ => (0 : ℚ))).sum = 0 := by
  rw [List.map_const', List.sum_replicate]; simp

theorem sum_add (l : List Nat) (f g : Nat → ℚ) :
    (l.map (fun i => f i + g i)).sum = (l.map f).sum + (l.map g).sum := by
  induction l with
  | nil => simp
  | cons a l ih => simp only [List.map_cons, List.sum_cons, ih]; ring

/-- summing over all cells the tracks of the cell counts every track once -/
theorem cells_total (g : Geo) (zlo zhi tlo thi : ℚ) (n m : Nat) (hn : 0 < n) (hm : 0 < m)
    (hz : zlo < zhi) (ht : tlo < thi) (w : List ℚ → ℚ) (sel : List (List ℚ))
    (h : ∀ t ∈ sel, (zlo ≤ col 7 t ∧ col 7 t ≤ zhi) ∧ (tlo ≤ angleOf g t ∧ angleOf g t ≤ thi)) :
    ((List.range n).map (fun i => ((List.range m).map (fun j =>
      ((inCell g zlo zhi tlo thi n m i j sel).map w).sum)).sum)).sum = (sel.map w).sum := by
  induction sel with
  | nil =>
    have : (List.range n).map (fun i => ((List.range m).map (fun j =>
        ((inCell g zlo zhi tlo thi n m i j []).map w).sum)).sum) = (List.range n).map (fun _ => (0 : ℚ)) := by
      apply List.map_congr_left
      intro i _
      have : (List.range m).map (fun j => ((inCell g zlo zhi tlo thi n m i j []).map w).sum) =
          (List.range m).map (fun _ => (0 : ℚ)) := by
        apply List.map_congr_left
        intro j _
        simp [inCell]
      rw [this, sum_zero]
    rw [this, sum_zero]; rfl
  | cons t sel ih =>
    obtain ⟨⟨z1, z2⟩, t1, t2⟩ := h t (by simp)
    obtain ⟨i0, hi0, ui0⟩ := cell_unique zlo zhi n hn hz _ z1 z2
    obtain ⟨j0, hj0, uj0⟩ := cell_unique tlo thi m hm ht _ t1 t2
    have step : ∀ i j, ((inCell g zlo zhi tlo thi n m i j (t :: sel)).map w).sum =
        (if InCell zlo zhi n i (col 7 t) then (if InCell tlo thi m j (angleOf g t) then w t else 0) else 0) +
        ((inCell g zlo zhi tlo thi n m i j sel).map w).sum := by
      intro i j
      unfold inCell
      rw [List.filter_cons]
      simp only [decide_eq_true_eq]
      by_cases hi : InCell zlo zhi n i (col 7 t)
      · by_cases hj : InCell tlo thi m j (angleOf g t)
        · rw [if_pos ⟨hi, hj⟩, if_pos hi, if_pos hj, List.map_cons, List.sum_cons]
        · rw [if_neg (fun c => hj c.2), if_pos hi, if_neg hj, zero_add]
      · rw [if_neg (fun c => hi c.1), if_neg hi, zero_add]
    have inner : ∀ i, ((List.range m).map (fun j =>
        ((inCell g zlo zhi tlo thi n m i j (t :: sel)).map w).sum)).sum =
        (if InCell zlo zhi n i (col 7 t) then w t else 0) +
        ((List.range m).map (fun j => ((inCell g zlo zhi tlo thi n m i j sel).map w).sum)).sum := by
      intro i
      simp only [step, sum_add]
      congr 1
      by_cases hi : InCell zlo zhi n i (col 7 t)
      · simp only [if_pos hi]
        exact sum_unique _ _ List.nodup_range j0 (List.mem_range.mpr hj0.1)
          (fun j _ => ⟨fun hj => uj0 j hj, fun e => by rw [e]; exact hj0⟩)
      · simp only [if_neg hi, sum_zero]
    simp only [inner, sum_add]
    rw [ih (fun t ht => h t (List.mem_cons_of_mem _ ht)), List.map_cons, List.sum_cons]
    congr 1
    exact sum_unique _ _ List.nodup_range i0 (List.mem_range.mpr hi0.1)
      (fun j _ => ⟨fun hj => ui0 j hj, fun e => by rw [e]; exact hi0⟩)

theorem gridIs_eq {grid : List (List ℚ)} {n m : Nat} {v : Nat → Nat → ℚ} (h : GridIs grid n m v) :
    grid = (List.range n).map (fun i => (List.range m).map (v i)) := by
  apply List.ext_getElem?
  intro i
  by_cases hi : i < n
  · obtain ⟨row, a, b, c⟩ := h.2 i hi
    rw [a, List.getElem?_map, List.getElem?_range hi, Option.map_some]
    congr 1
    apply List.ext_getElem?
    intro j
    by_cases hj : j < m
    · rw [c j hj, List.getElem?_map, List.getElem?_range hj, Option.map_some]
    · rw [List.getElem?_eq_none (by omega), List.getElem?_eq_none (by simp; omega)]
  · rw [List.getElem?_eq_none (by rw [h.1]; omega), List.getElem?_eq_none (by simp; omega)]

theorem sum_mul (l : List Nat) (f : Nat → ℚ) (k : ℚ) :
    (l.map (fun i => f i * k)).sum = (l.map f).sum * k := by
  induction l with
  | nil => simp
  | cons a l ih => simp only [List.map_cons, List.sum_cons, ih]; ring

/-- **C35 (conservation).** The values of a current map, integrated over its cells, give the total
weight of the selected tracks per history, times the normalisation: no track is lost or counted
twice. -/
theorem current_conserved {g : Geo} {ts sel : List (List ℚ)} {nps : ℤ} {particle : Str}
    {zInt thetaInt : Nat} {intensity : ℚ} {mask : Option (List Nat)} {mp : Maps}
    (hsel : selection particle mask ts = .ok sel)
    (h : currentMaps g ts nps particle zInt thetaInt intensity mask = .ok mp) :
    mp.values.flatten.sum * mp.area = (sel.map (col 2)).sum / |(nps : ℚ)| * intensity := by
  obtain ⟨zlo, zhi, tlo, thi, l1, l2, l3, l4, zlt, tlt, zpos, tpos, -, -, -, ha, hn, hv, -⟩ :=
    current_maps hsel h
  rw [gridIs_eq hv, List.sum_flatten, List.map_map]
  have e : (List.range zInt).map (List.sum ∘ fun i => (List.range thetaInt).map (fun j =>
        ((inCell g zlo zhi tlo thi zInt thetaInt i j sel).map (col 2)).sum / mp.area / |(nps : ℚ)| * intensity)) =
      (List.range zInt).map (fun i => ((List.range thetaInt).map (fun j =>
        ((inCell g zlo zhi tlo thi zInt thetaInt i j sel).map (col 2)).sum)).sum *
        (1 / mp.area / |(nps : ℚ)| * intensity)) := by
    apply List.map_congr_left
    intro i _
    rw [Function.comp, ← sum_mul]
    congr 1
    apply List.map_congr_left
    intro j _
    ring
  rw [e, sum_mul, cells_total g zlo zhi tlo thi zInt thetaInt zpos tpos zlt tlt]
  · field_simp
  · intro t ht
    exact ⟨⟨l1.2 _ (List.mem_map_of_mem ht), l2.2 _ (List.mem_map_of_mem ht)⟩,
      l3.2 _ (List.mem_map_of_mem ht), l4.2 _ (List.mem_map_of_mem ht)⟩

/-! ### saving -/

/-- **C61 (false of the code).** The error plot is never saved under the announced name. -/
theorem errors_misnamed (filename : Str) :
    filename ++ "_errors.jpeg".toList ∉ savedFiles filename := by
  unfold savedFiles
  simp only [List.mem_cons, List.not_mem_nil, or_false, not_or]
  constructor
  · intro h
    have := List.append_cancel_left h
    exact absurd this (by decide)
  · intro h
    rw [List.append_assoc] at h
    have := List.append_cancel_left h
    exact absurd this (by decide)

/-! ### a concrete case -/

/-- a file with two surfaces and three tracks, for the non-vacuity checks (example) -/
def sample : Contents where
  title := magic ++ [32, 54]
  p := { np1 := -100, nrss := 3, nrcd := 11, njsw := 2, niss := 3, niwr := 0, mipts := 1, kjaq := 0
         surfaces := [{ id := 1, info := 7, type := 10, numParams := 1, params := [30] },
                      { id := -2, info := 0, type := 4, numParams := 0, params := [] }] }
  summary := [0, 0, 0, 0]
  tracks := List.replicate 3 (List.replicate 11 [0, 0, 0, 0, 0, 0, 0, 64])

instance (k : Nat) (i : ℤ) : Decidable (Fits k i) := inferInstanceAs (Decidable (_ ∧ _))
instance (s : Surface) : Decidable s.Ok := inferInstanceAs (Decidable (_ ∧ _ ∧ _ ∧ _ ∧ _ ∧ _))

example : sample.Ok (fun _ => true) where
  title_len := by decide +kernel
  title_utf8 := rfl
  title_code := ⟨[], [32, 54], by decide⟩
  summary_len := by decide +kernel
  np1 := by decide +kernel
  nrss := by decide +kernel
  nrcd := rfl
  njsw := by decide +kernel
  niss := by decide +kernel
  niwr := rfl
  mipts := by decide +kernel
  kjaq := by decide +kernel
  surfaces := by decide +kernel
  tracks := by decide +kernel

/-- tracks `a b wgt erg tme x y z u v c` (example) -/
def sampleTracks : List (List ℚ) :=
  [[1, 800000001, 2, 14, 0, 1, 0, 0, 0, 0, 1], [2, -800000001, 3, 14, 0, 1, 2, 5, 0, 0, 1],
   [3, 1600000001, 7, 1, 0, 1, 1, 1, 0, 0, 1], [4, 800000001, 5, 14, 0, 1, 1, 2, 0, 0, 1]]

/-- a stand-in for the runtime functions (example) -/
def sampleGeo : Geo := { angle := fun _ y => y, norm := fun x y => |x| + |y|, sqrt := fun x => x }

example : maskNeutron sampleTracks = [0, 1, 3] ∧ maskPhoton sampleTracks = [2] := by decide +kernel

/-- the maps of the neutrons, and the hypotheses of the theorems above met by them -/
example : (plotCyl sampleGeo sampleTracks (-10) "n".toList 2 2 1 none none).toOption.map
    (fun m => (m.values, m.errors, m.area)) =
    some ([[(2 : ℚ) / (5/2) / 10, 5 / (5/2) / 10], [0, 3 / (5/2) / 10]], [[1, 1], [1, 1]], 5/2) := by
  decide +kernel

example : (plotMask sampleGeo sampleTracks (some (-1, 3)) (some (-1, 3))).toOption = some (some [0, 2, 3]) := by
  decide +kernel

end F4Enix.Rssa
