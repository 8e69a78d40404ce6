import Verif.Out.RssaGrid
import Mathlib.Analysis.Real.Sqrt
import Mathlib.Tactic.LinearCombination
import Mathlib.Tactic.Linarith
import Mathlib.Tactic.FieldSimp
import Mathlib.Tactic.Positivity
/-!
# Summary of an RSSA file and the type of its surface (C187)

`RSSA._get_info`, `RSSA.type` (`src/f4enix/output/rssa.py:305-327, 401-415`). The numbers of the text are modelled, not their layout and rounding. Square root, mean and
standard deviation are exact.
-/
namespace F4Enix.Rssa
open F4Enix

/-! ### model -/

/-- `np.sqrt(x**2 + y**2)` (rssa.py:411), `np.linalg.norm([x, y])` (rssa.py:312) -/
noncomputable def radiusOf (t : List ℚ) : ℝ := Real.sqrt ((col 5 t : ℝ) ^ 2 + (col 6 t : ℝ) ^ 2)

/-- `np.mean` of a list that is not empty (numpy, rssa.py:402-415) -/
noncomputable def mean (l : List ℝ) : ℝ := l.sum / l.length

/-- `np.std` of a list that is not empty (numpy, rssa.py:402-415) -/
noncomputable def std (l : List ℝ) : ℝ := Real.sqrt ((l.map (fun x => (x - mean l) ^ 2)).sum / l.length)

/-- the values of `type` (rssa.py:402-415) -/
inductive SurfType where
  | multiple
  | cyl
  | plane
  deriving DecidableEq, Repr

open Classical in
/-- `type` (rssa.py:401-415); without tracks `np.std` is `nan`, which is not below anything -/
noncomputable def surfType (p : Params) (ts : List (List ℚ)) : SurfType :=
  if 1 < p.surfaces.length then .multiple
  else if ts ≠ [] ∧ std (ts.map radiusOf) < 1 / 10000 then .cyl
  else .plane

/-- the numbers of the text of `_get_info` (rssa.py:305-327) -/
structure Summary where
  surfaces : List ℤ
  type : SurfType
  radius : Option ℝ
  recorded : ℤ
  neutrons : ℕ
  photons : ℕ
  run : ℤ
  reached : ℤ

/-- `_get_info` (rssa.py:305-327) -/
noncomputable def summaryOf (p : Params) (ts : List (List ℚ)) : Summary where
  surfaces := p.surfaces.map Surface.id
  type := surfType p ts
  radius := match surfType p ts, ts with
    | .cyl, t :: _ => some (radiusOf t)
    | _, _ => none
  recorded := p.nrss
  neutrons := (maskNeutron ts).length
  photons := (maskPhoton ts).length
  run := |p.np1|
  reached := p.niss

/-! ### lemmas -/

theorem sum_sq_dev (l : List ℝ) (c m : ℝ) (hm : l.sum = l.length * m) :
    (l.map (fun x => (x - m) ^ 2)).sum = (l.map (fun x => (x - c) ^ 2)).sum - l.length * (m - c) ^ 2 := by
  have key : ∀ l : List ℝ, (l.map (fun x => (x - c) ^ 2)).sum - (l.map (fun x => (x - m) ^ 2)).sum = 2 * (m - c) * l.sum - l.length * (m ^ 2 - c ^ 2) := by
    intro l
    induction l with
    | nil => simp
    | cons x l ih =>
      simp only [List.map_cons, List.sum_cons, List.length_cons, Nat.cast_add, Nat.cast_one]
      linear_combination ih
  have := key l
  rw [hm] at this
  linear_combination -this

theorem sum_mean {l : List ℝ} (h : l ≠ []) : l.sum = l.length * mean l := by
  unfold mean
  have : (l.length : ℝ) ≠ 0 := by
    have := List.length_pos_iff.2 h
    positivity
  field_simp

theorem sum_sq_le {l : List ℝ} {c e : ℝ} (h : ∀ x ∈ l, |x - c| < e) (h0 : l ≠ []) : (l.map (fun x => (x - c) ^ 2)).sum < l.length * e ^ 2 := by
  induction l with
  | nil => exact absurd rfl h0
  | cons x l ih =>
    have hx := h x (by simp)
    have hsq : (x - c) ^ 2 < e ^ 2 := by
      rw [← sq_abs (x - c)]
      exact pow_lt_pow_left₀ hx (abs_nonneg _) (by decide)
    simp only [List.map_cons, List.sum_cons, List.length_cons, Nat.cast_add, Nat.cast_one]
    rcases l with _ | ⟨y, l⟩
    · simpa using hsq
    · have := ih (fun y hy => h y (by simp [hy])) (by simp)
      linarith

/-- values that are all close to some value have a small standard deviation -/
theorem std_lt {l : List ℝ} {c e : ℝ} (h0 : l ≠ []) (h : ∀ x ∈ l, |x - c| < e) : std l < e := by
  have hn : (0 : ℝ) < l.length := by
    have := List.length_pos_iff.2 h0
    positivity
  have he : 0 < e := by
    obtain ⟨x, hx⟩ := List.exists_mem_of_ne_nil l h0
    exact lt_of_le_of_lt (abs_nonneg _) (h x hx)
  unfold std
  rw [Real.sqrt_lt' he, div_lt_iff₀ hn, sum_sq_dev l c _ (sum_mean h0)]
  have := sum_sq_le h h0
  nlinarith [sq_nonneg (mean l - c)]

theorem sum_sq_two {l : List ℝ} {i j : ℕ} (hij : i < j) {x y : ℝ} (hx : l[i]? = some x) (hy : l[j]? = some y) (m : ℝ) :
    (x - m) ^ 2 + (y - m) ^ 2 ≤ (l.map (fun z => (z - m) ^ 2)).sum := by
  have nonneg : ∀ l : List ℝ, 0 ≤ (l.map (fun z => (z - m) ^ 2)).sum := by
    intro l
    apply List.sum_nonneg
    intro a ha
    obtain ⟨z, -, rfl⟩ := List.mem_map.1 ha
    positivity
  have one : ∀ (l : List ℝ) (j : ℕ) (y : ℝ), l[j]? = some y → (y - m) ^ 2 ≤ (l.map (fun z => (z - m) ^ 2)).sum := by
    intro l
    induction l with
    | nil => intro j y h; simp at h
    | cons a l ih =>
      intro j y h
      simp only [List.map_cons, List.sum_cons]
      cases j with
      | zero =>
        simp only [List.getElem?_cons_zero, Option.some.injEq] at h
        subst h
        have := nonneg l
        linarith
      | succ j =>
        have := ih j y (by simpa using h)
        have := sq_nonneg (a - m)
        linarith
  induction l generalizing i j with
  | nil => simp at hx
  | cons a l ih =>
    simp only [List.map_cons, List.sum_cons]
    cases j with
    | zero => omega
    | succ j =>
      cases i with
      | zero =>
        simp only [List.getElem?_cons_zero, Option.some.injEq] at hx
        subst hx
        have := one l j y (by simpa using hy)
        linarith
      | succ i =>
        have := ih (i := i) (j := j) (by omega) (by simpa using hx) (by simpa using hy)
        have := sq_nonneg (a - m)
        linarith

/-- values two of which are apart have a standard deviation that is not too small -/
theorem std_ge {l : List ℝ} {i j : ℕ} (hij : i < j) {x y : ℝ} (hx : l[i]? = some x) (hy : l[j]? = some y) {e : ℝ}
    (h : 2 * l.length * e ^ 2 ≤ (x - y) ^ 2) : e ≤ std l := by
  have h0 : l ≠ [] := by rintro rfl; simp at hx
  have hn : (0 : ℝ) < l.length := by
    have := List.length_pos_iff.2 h0
    positivity
  unfold std
  apply Real.le_sqrt_of_sq_le
  rw [le_div_iff₀ hn]
  have := sum_sq_two hij hx hy (mean l)
  nlinarith [sq_nonneg (x - mean l + (y - mean l))]

/-! ### C187 -/

/-- the track lies at distance `r` from the z axis (specification) -/
def AtRadius (t : List ℚ) (r : ℝ) : Prop := 0 ≤ r ∧ (t.getD 5 0 : ℝ) ^ 2 + (t.getD 6 0 : ℝ) ^ 2 = r ^ 2

theorem radiusOf_at {t : List ℚ} {r : ℝ} (h : AtRadius t r) : radiusOf t = r := by
  unfold radiusOf col
  rw [h.2, Real.sqrt_sq h.1]

/-- **C187** (numbers). The summary shows the ids of the surfaces in order, the number of tracks, histories and independent histories of the file, and how many of the tracks
read are neutrons (packed variable below 9e8 but for its sign) and photons; every track is counted once. -/
theorem summary_numbers (p : Params) (ts : List (List ℚ)) :
    (summaryOf p ts).surfaces = p.surfaces.map Surface.id ∧ (summaryOf p ts).recorded = p.nrss ∧ (summaryOf p ts).reached = p.niss ∧
    (p.np1 < 0 → (summaryOf p ts).run = -p.np1) ∧
    (summaryOf p ts).neutrons = (ts.filter (fun t => decide (|t.getD 1 0| < 900000000))).length ∧
    (summaryOf p ts).photons = (ts.filter (fun t => decide (900000000 ≤ |t.getD 1 0|))).length ∧
    (summaryOf p ts).neutrons + (summaryOf p ts).photons = ts.length := by
  have count : ∀ cond : List ℚ → Bool, (whereIdx cond ts).length = (ts.filter cond).length := by
    intro cond
    have := whereIdx_tracks cond ts
    rw [← this, List.length_map]
  have hn : (summaryOf p ts).neutrons = (ts.filter (fun t => decide (|t.getD 1 0| < 900000000))).length := count _
  have hp : (summaryOf p ts).photons = (ts.filter (fun t => decide (900000000 ≤ |t.getD 1 0|))).length := count _
  refine ⟨rfl, rfl, rfl, fun h => abs_of_neg h, hn, hp, ?_⟩
  rw [hn, hp]
  clear hn hp count
  induction ts with
  | nil => rfl
  | cons t ts ih =>
    rw [List.filter_cons, List.filter_cons]
    by_cases h : |t.getD 1 0| < 900000000
    · rw [if_pos (by simpa using h), if_neg (by simpa using h)]
      simp only [List.length_cons]
      omega
    · rw [if_neg (by simpa using h), if_pos (by simpa using h)]
      simp only [List.length_cons]
      omega

/-- **C187** (several surfaces). With more than one surface the type is `multiple` and no radius is shown; with at most one it is `cyl` or `plane`. -/
theorem type_multiple (p : Params) (ts : List (List ℚ)) :
    ((summaryOf p ts).type = .multiple ↔ 1 < p.surfaces.length) ∧
    ((summaryOf p ts).radius.isSome ↔ (summaryOf p ts).type = .cyl) := by
  have h1 : (summaryOf p ts).type = surfType p ts := rfl
  constructor
  · rw [h1]
    unfold surfType
    by_cases h : 1 < p.surfaces.length
    · simp [h]
    · rw [if_neg h]
      split <;> simp [h]
  · rw [h1]
    unfold summaryOf
    simp only
    cases ht : surfType p ts with
    | multiple => simp
    | plane => simp
    | cyl =>
      cases ts with
      | nil =>
        unfold surfType at ht
        simp only [ne_eq, not_true_eq_false, false_and, if_false] at ht
        split at ht <;> cases ht
      | cons t ts => simp

/-- **C187** (cylinders). If the file has one surface and all tracks (at least one) lie within 0.0001 of a cylinder of radius `r` around the z axis, the type is `cyl` and the radius
shown differs from `r` by less than that. Partial: False as stated: the type is decided by the tracks alone: a single track is always said to be on a cylinder, and the tracks of a cylinder around another axis on a plane (type_wrong). The exact rule is proved (type_exact). Layout and rounding of the text are not modelled. -/
theorem cylinder_seen_partial {p : Params} {ts : List (List ℚ)} (hp : p.surfaces.length ≤ 1) (h0 : ts ≠ []) {r : ℝ}
    (h : ∀ t ∈ ts, ∃ q, AtRadius t q ∧ |q - r| < 1 / 10000) :
    (summaryOf p ts).type = .cyl ∧ ∃ s, (summaryOf p ts).radius = some s ∧ |s - r| < 1 / 10000 := by
  have ht : surfType p ts = .cyl := by
    unfold surfType
    rw [if_neg (by omega), if_pos]
    refine ⟨h0, std_lt (c := r) (by simpa using h0) ?_⟩
    intro x hx
    obtain ⟨t, ht, rfl⟩ := List.mem_map.1 hx
    obtain ⟨q, h1, h2⟩ := h t ht
    rw [radiusOf_at h1]
    exact h2
  refine ⟨ht, ?_⟩
  cases ts with
  | nil => exact absurd rfl h0
  | cons t ts =>
    obtain ⟨q, h1, h2⟩ := h t (by simp)
    refine ⟨q, ?_, h2⟩
    unfold summaryOf
    simp only [ht]
    rw [radiusOf_at h1]

/-- **C187** (other surfaces). If two of `n` tracks are at distances from the z axis whose difference squared is at least `2 n · 1e-8`, a single surface is said to be a plane. -/
theorem plane_seen {p : Params} {ts : List (List ℚ)} (hp : p.surfaces.length ≤ 1) {i j : ℕ} (hij : i < j) {s t : List ℚ} (hs : ts[i]? = some s)
    (ht : ts[j]? = some t) {a b : ℝ} (ha : AtRadius s a) (hb : AtRadius t b) (h : 2 * ts.length * (1 / 10000 : ℝ) ^ 2 ≤ (a - b) ^ 2) :
    (summaryOf p ts).type = .plane := by
  have : ¬ std (ts.map radiusOf) < 1 / 10000 := by
    rw [not_lt]
    refine std_ge (l := ts.map radiusOf) hij (x := a) (y := b) ?_ ?_ ?_
    · rw [List.getElem?_map, hs, Option.map_some, radiusOf_at ha]
    · rw [List.getElem?_map, ht, Option.map_some, radiusOf_at hb]
    · rw [List.length_map]; exact h
  unfold summaryOf surfType
  simp only
  rw [if_neg (by omega), if_neg (by tauto)]

theorem sum_pairs {l : List ℝ} (h0 : l ≠ []) : (l.map (fun a => (l.map (fun b => (b - a) ^ 2)).sum)).sum = 2 * (l.length : ℝ) * (l.map (fun x => (x - mean l) ^ 2)).sum := by
  have h1 : ∀ a : ℝ, (l.map (fun b => (b - a) ^ 2)).sum = (l.map (fun x => (x - mean l) ^ 2)).sum + l.length * (a - mean l) ^ 2 := by
    intro a
    have := sum_sq_dev l a _ (sum_mean h0)
    linear_combination -this
  rw [List.map_congr_left (fun a _ => h1 a)]
  have h2 : ∀ (k : List ℝ) (S n m : ℝ), (k.map (fun a => S + n * (a - m) ^ 2)).sum = k.length * S + n * (k.map (fun x => (x - m) ^ 2)).sum := by
    intro k S n m
    induction k with
    | nil => simp
    | cons x k ih =>
      simp only [List.map_cons, List.sum_cons, List.length_cons, Nat.cast_add, Nat.cast_one, ih]
      ring
  rw [h2]
  ring

/-- **C187** (the rule). A file with one surface and tracks is said to hold a cylinder exactly if the squares of the differences of the distances of its tracks from the z axis are, on the average over all
couples of tracks, below `2 (1e-4)²`. -/
theorem type_exact {p : Params} {ts : List (List ℚ)} (hp : p.surfaces.length ≤ 1) (h0 : ts ≠ []) {rad : List ℚ → ℝ} (hr : ∀ t ∈ ts, AtRadius t (rad t)) :
    ((summaryOf p ts).type = .cyl ↔ (ts.map (fun s => (ts.map (fun t => (rad t - rad s) ^ 2)).sum)).sum < 2 * (ts.length : ℝ) ^ 2 * (1 / 10000) ^ 2) ∧
    ((summaryOf p ts).type = .plane ↔ ¬ (ts.map (fun s => (ts.map (fun t => (rad t - rad s) ^ 2)).sum)).sum < 2 * (ts.length : ℝ) ^ 2 * (1 / 10000) ^ 2) := by
  have hl : ts.map radiusOf = ts.map rad := List.map_congr_left (fun t ht => radiusOf_at (hr t ht))
  have h1 : (ts.map rad) ≠ [] := by simpa using h0
  have hs := sum_pairs h1
  simp only [List.map_map, List.length_map, Function.comp_def] at hs
  have hn : (0 : ℝ) < ts.length := by
    have := List.length_pos_iff.2 h0
    positivity
  have key : std (ts.map radiusOf) < 1 / 10000 ↔ (ts.map (fun s => (ts.map (fun t => (rad t - rad s) ^ 2)).sum)).sum < 2 * (ts.length : ℝ) ^ 2 * (1 / 10000) ^ 2 := by
    rw [hl, hs]
    unfold std
    rw [Real.sqrt_lt' (by norm_num), div_lt_iff₀ (by rw [List.length_map]; exact hn)]
    simp only [List.map_map, List.length_map, Function.comp_def]
    constructor
    · intro h; nlinarith
    · intro h
      have : 0 < 2 * (ts.length : ℝ) := by linarith
      by_contra hc
      rw [not_lt] at hc
      have := mul_le_mul_of_nonneg_left hc this.le
      linarith
  have h2 : (summaryOf p ts).type = surfType p ts := rfl
  rw [h2]
  unfold surfType
  rw [if_neg (by omega)]
  by_cases hk : std (ts.map radiusOf) < 1 / 10000
  · rw [if_pos ⟨h0, hk⟩]
    have hy := key.1 hk
    constructor
    · exact ⟨fun _ => hy, fun _ => rfl⟩
    · constructor
      · intro h; cases h
      · intro h; exact absurd hy h
  · rw [if_neg (fun h => hk h.2)]
    have hnot : ¬ (ts.map (fun s => (ts.map (fun t => (rad t - rad s) ^ 2)).sum)).sum < 2 * (ts.length : ℝ) ^ 2 * (1 / 10000) ^ 2 := fun h => hk (key.2 h)
    constructor
    · constructor
      · intro h; cases h
      · intro h; exact absurd h hnot
    · exact ⟨fun _ => hnot, fun _ => rfl⟩

/-- **C187 is false of the code**: the type does not depend on the surface. A single track, on whatever surface, is said to lie on a cylinder; and the tracks of a cylinder around
another axis parallel to z (radius `r` of at least 0.0001, axis at `c ≥ r`), on opposite sides of it, are said to lie on a plane. -/
theorem type_wrong :
    (∀ (p : Params) (t : List ℚ), p.surfaces.length ≤ 1 → (summaryOf p [t]).type = .cyl) ∧
    (∀ (p : Params) (c r : ℚ) (s t : List ℚ), p.surfaces.length ≤ 1 → 1 / 10000 ≤ r → r ≤ c → s.getD 5 0 = c + r → s.getD 6 0 = 0 → t.getD 5 0 = c - r →
      t.getD 6 0 = 0 → (summaryOf p [s, t]).type = .plane) := by
  constructor
  · intro p t hp
    refine (cylinder_seen_partial hp (by simp) (r := radiusOf t) ?_).1
    intro t' ht'
    rw [List.mem_singleton] at ht'
    subst ht'
    refine ⟨radiusOf t', ⟨Real.sqrt_nonneg _, ?_⟩, by simp⟩
    unfold radiusOf col
    rw [Real.sq_sqrt (by positivity)]
  · intro p c r s t hp hr hc h1 h2 h3 h4
    have hr' : (1 / 10000 : ℝ) ≤ (r : ℝ) := by
      have : (((1 / 10000 : ℚ)) : ℝ) ≤ (r : ℝ) := Rat.cast_le.2 hr
      push_cast at this
      exact this
    have hc' : (r : ℝ) ≤ c := by exact_mod_cast hc
    refine plane_seen hp (i := 0) (j := 1) (by decide) (s := s) (t := t) rfl rfl (a := (c : ℝ) + r) (b := (c : ℝ) - r) ⟨by linarith, ?_⟩ ⟨by linarith, ?_⟩ ?_
    · rw [h1, h2]; push_cast; ring
    · rw [h3, h4]; push_cast; ring
    · simp only [List.length_cons, List.length_nil]
      push_cast
      nlinarith

/-- **C187** (from the file). What is shown of a file that was written with the parameters and tracks of `c` are these. -/
theorem summary_of_file (utf8 : List Byte → Bool) (f64 : List Byte → ℚ) (c : Contents) (h : c.Ok utf8) (hn : c.p.nrss = c.tracks.length) :
    ∃ p ts, readRssa utf8 f64 c.bytes = .ok (p, ts) ∧ (summaryOf p ts).surfaces = c.p.surfaces.map Surface.id ∧
      (summaryOf p ts).recorded = ((summaryOf p ts).neutrons + (summaryOf p ts).photons : ℕ) ∧
      (summaryOf p ts).run = -c.p.np1 ∧ (summaryOf p ts).reached = c.p.niss := by
  refine ⟨_, _, read_file utf8 f64 c h, ?_, ?_, ?_, rfl⟩
  · simp [summaryOf, Surface.seen]
  · rw [(summary_numbers _ _).2.2.2.2.2.2]
    simp [summaryOf, hn]
  · exact abs_of_neg h.np1.2

/-- the hypotheses are met: the tracks (3, 4) and (-5, 0) of one surface lie on the cylinder of radius 5 -/
example : ∃ s, (summaryOf { sample.p with surfaces := [⟨1, -1, 10, 0, []⟩] } [[1, 8, 1, 1, 0, 3, 4, 0, 0, 0, 1], [1, 8, 1, 1, 0, -5, 0, 0, 0, 0, 1]]).radius = some s ∧
    |s - 5| < 1 / 10000 :=
  (cylinder_seen_partial (by decide) (by simp) (r := 5) (by
    intro t ht
    refine ⟨5, ?_, by norm_num⟩
    rcases List.mem_cons.1 ht with rfl | ht
    · exact ⟨by norm_num, by norm_num [List.getD]⟩
    · rw [List.mem_singleton] at ht
      subst ht
      exact ⟨by norm_num, by norm_num [List.getD]⟩)).2

/-- the rule of `type_exact`, on the same tracks -/
example : (summaryOf { sample.p with surfaces := [⟨1, -1, 10, 0, []⟩] } [[1, 8, 1, 1, 0, 3, 4, 0, 0, 0, 1], [1, 8, 1, 1, 0, -5, 0, 0, 0, 0, 1]]).type = .cyl :=
  (type_exact (by decide) (by simp) (rad := fun _ => 5) (by
    intro t ht
    rcases List.mem_cons.1 ht with rfl | ht
    · exact ⟨by norm_num, by norm_num [List.getD]⟩
    · rw [List.mem_singleton] at ht
      subst ht
      exact ⟨by norm_num, by norm_num [List.getD]⟩)).1.2 (by norm_num)

example : sample.p.nrss = sample.tracks.length := by decide +kernel

end F4Enix.Rssa
