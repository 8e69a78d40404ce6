import Verif.WW.StateProps
import Verif.WW.VectorsProps
import Mathlib.Data.Int.Log
import Mathlib.Algebra.BigOperators.Group.List.Basic
import Mathlib.Tactic.FieldSimp
import Mathlib.Tactic.Linarith
/-!
# Model of the summary of a weight window and of the colour scale of its plot

`WW.info` (`src/f4enix/input/ww_gvr/weight_window.py:233-270`): the numbers of the text, before they are rounded for printing; the layout of the text is
not modelled. `Geometry._decide_plot_parameters` (`src/f4enix/input/ww_gvr/geometry.py:219-254`): scale and limits.
-/
namespace F4Enix.WW
open F4Enix

/-- the part of the text about the mesh (weight_window.py:240-250): for each direction the first and the last coarse value and the number of bins, then
the number of voxels -/
structure MeshInfo where
  i : ℚ × ℚ × ℤ
  j : ℚ × ℚ × ℤ
  k : ℚ × ℚ × ℤ
  voxels : ℤ
  deriving DecidableEq, Repr

/-- `vi[0]`, `vi[-1]`, `i_ints`: an empty vector is an `IndexError` (geometry.py:181-183) -/
def axisInfo (coarse : List ℚ) (fine : List ℤ) : Except PyErr (ℚ × ℚ × ℤ) :=
  match coarse.head?, coarse.getLast? with
  | some a, some b => .ok (a, b, ints fine)
  | _, _ => .error .indexError

/-- weight_window.py:240-250 -/
def meshInfo (ci cj ck : List ℚ) (fi fj fk : List ℤ) : Except PyErr MeshInfo :=
  match axisInfo ci fi with
  | .error e => .error e
  | .ok i =>
    match axisInfo cj fj with
    | .error e => .error e
    | .ok j =>
      match axisInfo ck fk with
      | .error e => .error e
      | .ok k => .ok ⟨i, j, k, ints fi * ints fj * ints fk⟩

/-- the part of the text about a particle (weight_window.py:253-268) -/
structure ParticleInfo where
  particle : Particle
  energies : List ℚ
  minV : ℚ
  maxV : ℚ
  percent : ℚ
  avgRatio : ℚ
  maxRatio : ℚ
  deriving DecidableEq, Repr

/-- `np.concatenate(list(d.values()))`: the arrays must agree in the second and third dimension (numpy, weight_window.py:245-263) -/
def joined (d : Dict ℚ Arr3) : Except PyErr (List ℚ) :=
  match d with
  | [] => .error .valueError
  | ea :: _ => if d.all (fun x => x.2.nj = ea.2.nj ∧ x.2.ni = ea.2.ni) then .ok (d.map (fun x => x.2.data)).flatten else .error .valueError

/-- `np.min` (numpy, geometry.py:219-254) -/
def minList : List ℚ → Option ℚ
  | [] => none
  | x :: xs => some (xs.foldl min x)

/-- the numbers of one particle (weight_window.py:253-268) -/
def particleInfo (s : Window) (p : Particle) : Except PyErr ParticleInfo :=
  match s.values.get? p with
  | none => .error .keyError
  | some d =>
    match joined d with
    | .error e => .error e
    | .ok all =>
      match minList all, maxList all with
      | some lo, some hi =>
        match s.ratios.get? p with
        | none => .error .keyError
        | some r =>
          match joined r with
          | .error e => .error e
          | .ok rs =>
            match maxList rs with
            | none => .error .valueError
            | some hr =>
              .ok { particle := p, energies := d.keys, minV := lo, maxV := hi,
                    percent := ((all.filter (fun x => 0 < x)).length : ℚ) / (all.length : ℚ) * 100,
                    avgRatio := rs.sum / (rs.length : ℚ), maxRatio := hr }
      | _, _ => .error .valueError

/-- the loop over the particles (weight_window.py:252-268) -/
def infoLoop (s : Window) : List Particle → Except PyErr (List ParticleInfo)
  | [] => .ok []
  | p :: ps =>
    match particleInfo s p with
    | .error e => .error e
    | .ok x =>
      match infoLoop s ps with
      | .error e => .error e
      | .ok xs => .ok (x :: xs)

/-- `info` (weight_window.py:233-270) -/
def infoOf (s : Window) : Except PyErr (List ParticleInfo) := infoLoop s (particlesOf s.values)

/-- `int(np.log10(x))` of a positive number: cut off towards zero (exact arithmetic) (numpy, geometry.py:219-254) -/
def cutLog10 (x : ℚ) : ℤ := if 1 ≤ x then Int.log 10 x else Int.clog 10 x

/-- scale of the plot: linear, or logarithmic with limits (geometry.py:219-254) -/
inductive Scale where
  | linear
  | log (lo hi : ℚ)
  deriving DecidableEq, Repr

/-- `_decide_plot_parameters` (geometry.py:219-254) for the data of the array that is shown. `LARGE_NUMBER` is 1e5. Without a value other than zero,
`min` of an empty array is a `ValueError`. -/
def plotScale (data : List ℚ) : Except PyErr Scale :=
  match maxList data, minList (data.filter (fun x => x ≠ 0)) with
  | some hi, some lo =>
    if hi / lo < 100000 then .ok .linear
    else .ok (.log (10 ^ (cutLog10 hi - 10)) (10 ^ cutLog10 hi))
  | _, _ => .error .valueError

/-! ### lemmas -/

theorem minList_spec {l : List ℚ} {m : ℚ} (h : minList l = some m) : m ∈ l ∧ ∀ x ∈ l, m ≤ x := by
  cases l with
  | nil => simp [minList] at h
  | cons x xs =>
    simp only [minList, Option.some.injEq] at h
    subst h
    induction xs generalizing x with
    | nil => simp
    | cons y ys ih =>
      rw [List.foldl_cons]
      obtain ⟨h1, h2⟩ := ih (min x y)
      constructor
      · rcases List.mem_cons.1 h1 with h1 | h1
        · rw [h1]
          rcases min_choice x y with h | h <;> rw [h] <;> simp
        · simp [h1]
      · intro z hz
        have h0 := h2 (min x y) (by simp)
        rcases List.mem_cons.1 hz with rfl | hz
        · exact le_trans h0 (min_le_left _ _)
        · rcases List.mem_cons.1 hz with rfl | hz
          · exact le_trans h0 (min_le_right _ _)
          · exact h2 z (by simp [hz])

theorem minList_some {l : List ℚ} (h : l ≠ []) : ∃ m, minList l = some m := by
  cases l with
  | nil => exact absurd rfl h
  | cons x xs => exact ⟨_, rfl⟩

theorem maxList_some {l : List ℚ} (h : l ≠ []) : ∃ m, maxList l = some m := by
  cases l with
  | nil => exact absurd rfl h
  | cons x xs => exact ⟨_, rfl⟩

theorem joined_ok {sh : Nat × Nat × Nat} {d : Dict ℚ Arr3} (h0 : d ≠ []) (h : ∀ e a, (e, a) ∈ d → a.WF ∧ a.shape = sh) :
    joined d = .ok (d.map (fun x => x.2.data)).flatten := by
  cases d with
  | nil => exact absurd rfl h0
  | cons ea d =>
    unfold joined
    simp only
    rw [if_pos]
    rw [List.all_eq_true]
    intro x hx
    have h1 := (h x.1 x.2 hx).2
    have h2 := (h ea.1 ea.2 (by simp)).2
    rw [← h2] at h1
    simp only [Arr3.shape, Prod.mk.injEq] at h1
    simp [h1.2.1, h1.2.2]

theorem flatten_length {sh : Nat × Nat × Nat} {d : Dict ℚ Arr3} (h : ∀ e a, (e, a) ∈ d → a.WF ∧ a.shape = sh) :
    (d.map (fun x => x.2.data)).flatten.length = d.length * (sh.1 * sh.2.1 * sh.2.2) := by
  induction d with
  | nil => simp
  | cons ea d ih =>
    obtain ⟨h1, h2⟩ := h ea.1 ea.2 (by simp)
    unfold Arr3.WF at h1
    rw [List.map_cons, List.flatten_cons, List.length_append, ih (fun e a hm => h e a (by simp [hm])), List.length_cons, h1, ← h2]
    simp only [Arr3.shape]
    ring

theorem flatten_pos (d : Dict ℚ Arr3) : ((d.map (fun x => x.2.data)).flatten.filter (fun x => (0 : ℚ) < x)).length =
    (d.map (fun x => (x.2.data.filter (fun y => (0 : ℚ) < y)).length)).sum := by
  induction d with
  | nil => rfl
  | cons ea d ih => rw [List.map_cons, List.flatten_cons, List.filter_append, List.length_append, ih, List.map_cons, List.sum_cons]

theorem flatten_sum (d : Dict ℚ Arr3) : (d.map (fun x => x.2.data)).flatten.sum = (d.map (fun x => x.2.data.sum)).sum := by
  induction d with
  | nil => rfl
  | cons ea d ih => rw [List.map_cons, List.flatten_cons, List.sum_append, ih, List.map_cons, List.sum_cons]

/-! ### C178 -/

/-- `v` is the value of some voxel at some energy of the particle (specification) -/
def IsValue (w : Values) (p : Particle) (v : ℚ) : Prop := ∃ e a k j i, look w p e = some a ∧ a.get k j i = some v

/-- the numbers shown are those of the particle (specification) -/
structure Shown (sh : Nat × Nat × Nat) (s : Window) (x : ParticleInfo) : Prop where
  energies : ∀ e, e ∈ x.energies ↔ ∃ a, look s.values x.particle e = some a
  once : x.energies.Nodup
  min_is : IsValue s.values x.particle x.minV
  min_le : ∀ v, IsValue s.values x.particle v → x.minV ≤ v
  max_is : IsValue s.values x.particle x.maxV
  max_le : ∀ v, IsValue s.values x.particle v → v ≤ x.maxV
  percent : ∃ d, s.values.get? x.particle = some d ∧ x.percent * (d.length * (sh.1 * sh.2.1 * sh.2.2) : ℕ) =
    100 * ((d.map (fun ea => (ea.2.data.filter (fun v => (0 : ℚ) < v)).length)).sum : ℕ)
  average : ∃ d, s.values.get? x.particle = some d ∧ x.avgRatio * (d.length * (sh.1 * sh.2.1 * sh.2.2) : ℕ) =
    (d.map (fun ea => (maxRatioArray ea.2).data.sum)).sum
  ratio_is : ∃ e a k j i, look s.values x.particle e = some a ∧ (maxRatioArray a).get k j i = some x.maxRatio
  ratio_le : ∀ e a k j i r, look s.values x.particle e = some a → (maxRatioArray a).get k j i = some r → r ≤ x.maxRatio

theorem particleInfo_shown {sh : Nat × Nat × Nat} {s : Window} (h : Inv sh s) (hsh : 0 < sh.1 * sh.2.1 * sh.2.2) {p : Particle} {d : Dict ℚ Arr3}
    (hd : s.values.get? p = some d) : ∃ x, particleInfo s p = .ok x ∧ x.particle = p ∧ Shown sh s x := by
  have hmem : (p, d) ∈ s.values := Dict.mem_of_get? hd
  obtain ⟨hne, hwf, hall⟩ := h.good.each p d hmem
  have hr : s.ratios.get? p = some (ratios1 d) := by
    rw [h.rat]
    have := look_ratiosOf s.values p
    clear this
    unfold ratiosOf
    have key : ∀ v : Values, v.get? p = some d → Dict.get? (v.map (fun pd => (pd.1, ratios1 pd.2))) p = some (ratios1 d) := by
      intro v hv
      induction v with
      | nil => cases hv
      | cons q v ih =>
        obtain ⟨q1, q2⟩ := q
        simp only [List.map_cons, Dict.get?] at hv ⊢
        by_cases hq : q1 = p
        · simp only [hq] at hv ⊢
          simp_all
        · simp_all
    exact key s.values hd
  have hallr : ∀ e a, (e, a) ∈ ratios1 d → a.WF ∧ a.shape = sh := by
    intro e a hm
    unfold ratios1 at hm
    obtain ⟨y, hy, he⟩ := List.mem_map.1 hm
    simp only [Prod.mk.injEq] at he
    obtain ⟨-, rfl⟩ := he
    exact ⟨maxRatio_wf _, by rw [maxRatio_shape]; exact (hall y.1 y.2 hy).2⟩
  have hne' : ratios1 d ≠ [] := by unfold ratios1; simpa using hne
  have hl := flatten_length hall
  have hlr := flatten_length hallr
  have hlen' : (ratios1 d).length = d.length := by unfold ratios1; simp
  have hdl : 0 < d.length := List.length_pos_iff.2 hne
  have hpos : 0 < d.length * (sh.1 * sh.2.1 * sh.2.2) := Nat.mul_pos hdl hsh
  have h1 : (d.map (fun x => x.2.data)).flatten ≠ [] := by intro e; rw [e] at hl; simp only [List.length_nil] at hl; omega
  have h2 : ((ratios1 d).map (fun x => x.2.data)).flatten ≠ [] := by intro e; rw [e, hlen'] at hlr; simp only [List.length_nil] at hlr; omega
  obtain ⟨lo, hlo⟩ := minList_some h1
  obtain ⟨hi, hhi⟩ := maxList_some h1
  obtain ⟨hr', hhr⟩ := maxList_some h2
  have hval : ∀ v, v ∈ (d.map (fun x => x.2.data)).flatten ↔ IsValue s.values p v := by
    intro v
    rw [List.mem_flatten]
    constructor
    · rintro ⟨l, hl, hv⟩
      obtain ⟨ea, hea, rfl⟩ := List.mem_map.1 hl
      obtain ⟨k, j, i, hg⟩ := mem_get (hall ea.1 ea.2 hea).1 hv
      exact ⟨ea.1, ea.2, k, j, i, mem_look h.good hmem hea, hg⟩
    · rintro ⟨e, a, k, j, i, hlk, hg⟩
      unfold look at hlk
      rw [hd] at hlk
      exact ⟨a.data, List.mem_map.2 ⟨(e, a), Dict.mem_of_get? hlk, rfl⟩, get_mem hg⟩
  have hrat : ∀ r, r ∈ ((ratios1 d).map (fun x => x.2.data)).flatten ↔ ∃ e a k j i, look s.values p e = some a ∧ (maxRatioArray a).get k j i = some r := by
    intro r
    rw [List.mem_flatten]
    constructor
    · rintro ⟨l, hl, hv⟩
      obtain ⟨ea, hea, rfl⟩ := List.mem_map.1 hl
      obtain ⟨y, hy, rfl⟩ := List.mem_map.1 hea
      obtain ⟨k, j, i, hg⟩ := mem_get (maxRatio_wf y.2) hv
      exact ⟨y.1, y.2, k, j, i, mem_look h.good hmem hy, hg⟩
    · rintro ⟨e, a, k, j, i, hlk, hg⟩
      unfold look at hlk
      rw [hd] at hlk
      refine ⟨(maxRatioArray a).data, List.mem_map.2 ⟨(e, maxRatioArray a), List.mem_map.2 ⟨(e, a), Dict.mem_of_get? hlk, rfl⟩, rfl⟩, get_mem hg⟩
  have hx : ∃ x, particleInfo s p = .ok x ∧ x = ParticleInfo.mk p d.keys lo hi
      ((((d.map (fun x => x.2.data)).flatten.filter (fun x => (0 : ℚ) < x)).length : ℚ) / ((d.map (fun x => x.2.data)).flatten.length : ℚ) * 100)
      (((ratios1 d).map (fun x => x.2.data)).flatten.sum / (((ratios1 d).map (fun x => x.2.data)).flatten.length : ℚ)) hr' := by
    refine ⟨_, ?_, rfl⟩
    unfold particleInfo
    rw [hd]
    simp only
    rw [joined_ok hne hall]
    simp only
    rw [hlo, hhi]
    simp only
    rw [hr]
    simp only
    rw [joined_ok hne' hallr]
    simp only
    rw [hhr]
  obtain ⟨x, hx, ex⟩ := hx
  refine ⟨x, hx, by rw [ex], ?_⟩
  · rw [ex]
    obtain ⟨l1, l2⟩ := minList_spec hlo
    obtain ⟨m1, m2⟩ := maxList_spec hhi
    obtain ⟨n1, n2⟩ := maxList_spec hhr
    have hq : ((d.length * (sh.1 * sh.2.1 * sh.2.2) : ℕ) : ℚ) ≠ 0 := by exact_mod_cast hpos.ne'
    refine ⟨?_, hwf, (hval _).1 l1, fun v hv => l2 v ((hval v).2 hv), (hval _).1 m1, fun v hv => m2 v ((hval v).2 hv), ⟨d, hd, ?_⟩, ⟨d, hd, ?_⟩,
      (hrat _).1 n1, fun e a k j i r hlk hg => n2 r ((hrat r).2 ⟨e, a, k, j, i, hlk, hg⟩)⟩
    · intro e
      simp only
      unfold look
      rw [hd]
      simp only [Option.bind_some]
      constructor
      · intro he
        obtain ⟨y, hy, rfl⟩ := List.mem_map.1 he
        exact ⟨y.2, Dict.get?_of_mem hwf hy⟩
      · rintro ⟨a, ha⟩
        exact List.mem_map.2 ⟨(e, a), Dict.mem_of_get? ha, rfl⟩
    · simp only
      rw [flatten_pos, hl]
      field_simp
    · simp only
      rw [flatten_sum, hlr, hlen', div_mul_cancel₀ _ hq]
      unfold ratios1
      rw [List.map_map]
      rfl

theorem infoLoop_ok {s : Window} {ps : List Particle} {P : ParticleInfo → Prop} (h : ∀ p ∈ ps, ∃ x, particleInfo s p = .ok x ∧ x.particle = p ∧ P x) :
    ∃ xs, infoLoop s ps = .ok xs ∧ xs.map ParticleInfo.particle = ps ∧ ∀ x ∈ xs, P x := by
  induction ps with
  | nil => exact ⟨[], rfl, rfl, by simp⟩
  | cons p ps ih =>
    obtain ⟨x, h1, h2, h3⟩ := h p (by simp)
    obtain ⟨xs, h4, h5, h6⟩ := ih (fun q hq => h q (by simp [hq]))
    refine ⟨x :: xs, by rw [infoLoop, h1]; simp only; rw [h4], by rw [List.map_cons, h2, h5], ?_⟩
    intro y hy
    rcases List.mem_cons.1 hy with rfl | hy
    · exact h3
    · exact h6 y hy

theorem present_get {sh : Nat × Nat × Nat} {s : Window} (h : Inv sh s) : particlesOf s.values = present s ∧ ∀ p ∈ present s, ∃ d, s.values.get? p = some d := by
  unfold present
  rcases good_cases h.good with ⟨d, e⟩ | ⟨d, d', e⟩
  · rw [e]
    refine ⟨rfl, ?_⟩
    intro p hp
    simp only [Dict.keys, List.map_cons, List.map_nil, List.mem_singleton] at hp
    subst hp
    exact ⟨d, rfl⟩
  · rw [e]
    refine ⟨rfl, ?_⟩
    intro p hp
    simp only [Dict.keys, List.map_cons, List.map_nil, List.mem_cons, List.not_mem_nil, or_false] at hp
    rcases hp with rfl | rfl
    · exact ⟨d, rfl⟩
    · exact ⟨d', rfl⟩

/-- **C178.** After every history of operations on a consistent window with voxels, the summary lists the particles present, each with its energies, the
least and the greatest value of its voxels, the share of voxels with positive value, and average and maximum of the neighbour ratios of its values. -/
theorem info_right {sh : Nat × Nat × Nat} (pw : ℚ → ℚ → ℚ) (hpw : ∀ x, pw x 1 = x) (s : Window) (h : Inv sh s) (hsh : 0 < sh.1 * sh.2.1 * sh.2.2)
    (ops : List Op) : ∃ xs, infoOf (run pw s ops) = .ok xs ∧ xs.map ParticleInfo.particle = present (run pw s ops) ∧ ∀ x ∈ xs, Shown sh (run pw s ops) x := by
  have hi := c07_history pw hpw s h ops
  generalize run pw s ops = s' at hi
  obtain ⟨e, hg⟩ := present_get hi
  unfold infoOf
  rw [e]
  refine infoLoop_ok ?_
  intro p hp
  obtain ⟨d, hd⟩ := hg p hp
  exact particleInfo_shown hi hsh hd

/-- **C178 (mesh).** The number of bins shown for a direction is that of its intervals, `From` and `To` are the ends of the mesh, and the voxels are their
product. -/
theorem mesh_shown {ci cj ck : List ℚ} {fi fj fk : List ℤ} {m : MeshInfo} (h : meshInfo ci cj ck fi fj fk = .ok m) :
    (∀ c f v, (c, f, v) ∈ [(ci, fi, m.i), (cj, fj, m.j), (ck, fk, m.k)] → c.length = f.length + 1 → (∀ x ∈ f, 0 < x) →
      ∃ b, build1d c f = .ok b ∧ (b.length : ℤ) = v.2.2 + 1 ∧ c.head? = some v.1 ∧ c.getLast? = some v.2.1) ∧ m.voxels = m.i.2.2 * m.j.2.2 * m.k.2.2 := by
  have hax : ∀ {c : List ℚ} {f : List ℤ} {v : ℚ × ℚ × ℤ}, axisInfo c f = .ok v → c.head? = some v.1 ∧ c.getLast? = some v.2.1 ∧ v.2.2 = ints f := by
    intro c f v hv
    unfold axisInfo at hv
    split at hv
    · rename_i a b h1 h2
      simp only [Except.ok.injEq] at hv
      subst hv
      exact ⟨h1, h2, rfl⟩
    · cases hv
  unfold meshInfo at h
  split at h
  · cases h
  rename_i i hi
  split at h
  · cases h
  rename_i j hj
  split at h
  · cases h
  rename_i k hk
  simp only [Except.ok.injEq] at h
  subst h
  refine ⟨?_, by rw [(hax hi).2.2, (hax hj).2.2, (hax hk).2.2]⟩
  intro c f v hv hl hf
  have hv' : axisInfo c f = .ok v := by
    simp only [List.mem_cons, Prod.mk.injEq, List.not_mem_nil, or_false] at hv
    rcases hv with ⟨rfl, rfl, rfl⟩ | ⟨rfl, rfl, rfl⟩ | ⟨rfl, rfl, rfl⟩
    · exact hi
    · exact hj
    · exact hk
  obtain ⟨a1, a2, a3⟩ := hax hv'
  obtain ⟨b, hb, hlb, -⟩ := c02_length c f hl (by intro x hx; exact (hf x hx).le)
  refine ⟨b, hb, ?_, a1, a2⟩
  rw [a3]
  exact hlb

/-- **C178 (ratios).** For windows without negative values the greatest ratio shown is at least 1. -/
theorem info_ratio_ge {sh : Nat × Nat × Nat} {s : Window} {x : ParticleInfo} (h : Inv sh s) (hn : AllNonNeg s.values) (hx : Shown sh s x) : 1 ≤ x.maxRatio := by
  obtain ⟨e, a, k, j, i, h1, h2⟩ := hx.ratio_is
  have hw := ((c07_consistent s h).2 x.particle e).2 a h1
  obtain ⟨-, -, -, -, h4⟩ := c04_max_ratio a hw.1 (hn _ _ _ h1)
  have hs : (maxRatioArray a).shape = a.shape := maxRatio_shape a
  have hg : ∃ v, a.get k j i = some v := by
    have := (get_some_iff (maxRatio_wf a) k j i).1 ⟨_, h2⟩
    simp only [Arr3.shape, Prod.mk.injEq] at hs
    rw [hs.1, hs.2.1, hs.2.2] at this
    exact (get_some_iff hw.1 k j i).2 this
  obtain ⟨v, hv⟩ := hg
  obtain ⟨r, hr, h5, -⟩ := h4 k j i v hv
  rw [h2] at hr
  rw [Option.some.inj hr]; exact h5

/-! ### C179 -/

/-- the greatest value and the least value other than zero (specification) -/
structure Span (data : List ℚ) (hi lo : ℚ) : Prop where
  hi_is : hi ∈ data
  hi_le : ∀ x ∈ data, x ≤ hi
  lo_is : lo ∈ data
  lo_ne : lo ≠ 0
  lo_le : ∀ x ∈ data, x ≠ 0 → lo ≤ x

theorem plotScale_span {data : List ℚ} {hi lo : ℚ} (h : Span data hi lo) :
    plotScale data = .ok (if hi / lo < 100000 then .linear else .log (10 ^ (cutLog10 hi - 10)) (10 ^ cutLog10 hi)) := by
  have h1 : data ≠ [] := by intro e; have := h.hi_is; rw [e] at this; cases this
  have h2 : data.filter (fun x => x ≠ 0) ≠ [] := by
    intro e
    have : lo ∈ data.filter (fun x => x ≠ 0) := List.mem_filter.2 ⟨h.lo_is, by simpa using h.lo_ne⟩
    rw [e] at this; cases this
  obtain ⟨m, hm⟩ := maxList_some h1
  obtain ⟨n, hn⟩ := minList_some h2
  obtain ⟨m1, m2⟩ := maxList_spec hm
  obtain ⟨n1, n2⟩ := minList_spec hn
  obtain ⟨n3, n4⟩ := List.mem_filter.1 n1
  have em : m = hi := le_antisymm (h.hi_le m m1) (m2 hi h.hi_is)
  have en : n = lo := le_antisymm (n2 lo (List.mem_filter.2 ⟨h.lo_is, by simpa using h.lo_ne⟩)) (h.lo_le n n3 (by simpa using n4))
  unfold plotScale
  rw [hm, hn, em, en]
  simp only
  split_ifs <;> rfl

/-- **C179.** Without negative values the scale is logarithmic exactly if the greatest value is at least 100000 times the least one other than zero; then
the limits are ten decades, and the greatest value is less than ten times the upper limit, which is less than ten times the greatest value. With a
negative value it is linear. Partial: Scale, span and limits proved; false: a greatest value above one that is no power of ten lies above the upper limit. Arrays of zeros are refused. -/
theorem scale_rule_partial {data : List ℚ} {hi lo : ℚ} (h : Span data hi lo) :
    (lo < 0 → plotScale data = .ok .linear) ∧
    (0 < lo → hi < 100000 * lo → plotScale data = .ok .linear) ∧
    (0 < lo → 100000 * lo ≤ hi → ∃ top, plotScale data = .ok (.log (top / 10 ^ 10) top) ∧ (∃ e : ℤ, top = 10 ^ e) ∧ hi < 10 * top ∧ top < 10 * hi ∧
      (hi ≤ 1 → hi ≤ top)) := by
  rw [plotScale_span h]
  refine ⟨?_, ?_, ?_⟩
  · intro hl
    have hle : hi / lo ≤ 1 := by
      rw [div_le_one_of_neg hl]
      exact h.hi_le lo h.lo_is
    rw [if_pos (lt_of_le_of_lt hle (by norm_num))]
  · intro hl hh
    rw [if_pos ((div_lt_iff₀ hl).2 hh)]
  · intro hl hh
    rw [if_neg (by rw [not_lt]; exact (le_div_iff₀ hl).2 hh)]
    have hpos : 0 < hi := lt_of_lt_of_le (by linarith) hh
    refine ⟨10 ^ cutLog10 hi, ?_, ⟨_, rfl⟩, ?_⟩
    · rw [zpow_sub₀ (by norm_num)]
      norm_num
    · unfold cutLog10
      by_cases h1 : 1 ≤ hi
      · rw [if_pos h1]
        have a1 : (10 : ℚ) ^ Int.log 10 hi ≤ hi := by exact_mod_cast Int.zpow_log_le_self (b := 10) (by norm_num) hpos
        have a2 : hi < (10 : ℚ) ^ (Int.log 10 hi + 1) := by exact_mod_cast Int.lt_zpow_succ_log_self (b := 10) (by norm_num) hi
        rw [zpow_add_one₀ (by norm_num)] at a2
        refine ⟨by linarith, by linarith, ?_⟩
        intro h2
        have : hi = 1 := le_antisymm h2 h1
        subst this
        simp
      · rw [if_neg h1]
        have a1 : hi ≤ (10 : ℚ) ^ Int.clog 10 hi := by exact_mod_cast Int.self_le_zpow_clog (b := 10) (by norm_num) hi
        have a2 : (10 : ℚ) ^ (Int.clog 10 hi - 1) < hi := by exact_mod_cast Int.zpow_pred_clog_lt_self (b := 10) (by norm_num) hpos
        rw [zpow_sub_one₀ (by norm_num)] at a2
        refine ⟨by linarith, by linarith, fun _ => a1⟩

/-- **C179 is false of the code above 1**: unless it is a power of ten, a greatest value above 1 lies above the upper limit of the logarithmic scale. -/
theorem scale_cut {data : List ℚ} {hi lo : ℚ} (h : Span data hi lo) (hl : 0 < lo) (hh : 100000 * lo ≤ hi) (h1 : 1 ≤ hi) (hp : ∀ e : ℤ, hi ≠ 10 ^ e) :
    ∃ bottom top, plotScale data = .ok (.log bottom top) ∧ top < hi := by
  rw [plotScale_span h, if_neg (by rw [not_lt]; exact (le_div_iff₀ hl).2 hh)]
  refine ⟨_, _, rfl, ?_⟩
  unfold cutLog10
  rw [if_pos h1]
  have a1 : (10 : ℚ) ^ Int.log 10 hi ≤ hi := by exact_mod_cast Int.zpow_log_le_self (b := 10) (by norm_num) (show (0 : ℚ) < hi by linarith)
  exact lt_of_le_of_ne a1 (fun e => hp _ e.symm)

/-- **C179 (refused).** Exactly an array without a value other than zero cannot be plotted. -/
theorem scale_refused (data : List ℚ) : plotScale data = .error .valueError ↔ ∀ x ∈ data, x = 0 := by
  constructor
  · intro h x hx
    by_contra hne
    have h1 : data ≠ [] := by intro e; rw [e] at hx; cases hx
    have h2 : data.filter (fun x => x ≠ 0) ≠ [] := by
      intro e
      have : x ∈ data.filter (fun x => x ≠ 0) := List.mem_filter.2 ⟨hx, by simpa using hne⟩
      rw [e] at this; cases this
    obtain ⟨m, hm⟩ := maxList_some h1
    obtain ⟨n, hn⟩ := minList_some h2
    unfold plotScale at h
    rw [hm, hn] at h
    simp only at h
    split_ifs at h
  · intro h
    have : data.filter (fun x => x ≠ 0) = [] := by
      rw [List.filter_eq_nil_iff]
      intro x hx
      simp [h x hx]
    unfold plotScale
    rw [this]
    cases maxList data <;> rfl

/-! ### concrete cases -/

/-- `exWindow` (example) -/
def exWindow : Window :=
  { values := [(.neutron, [(1, ⟨1, 1, 2, [0, 2]⟩), (20, ⟨1, 1, 2, [4, 1]⟩)])], ratios := [(.neutron, [(1, ⟨1, 1, 2, [1, 1]⟩), (20, ⟨1, 1, 2, [4, 4]⟩)])],
    grid := [], cyl := false }

example : infoOf exWindow = .ok [⟨.neutron, [1, 20], 0, 4, 75, 5 / 2, 4⟩] := by decide +kernel

example : Span [0, 300000, 2, 5] 300000 2 := by
  refine ⟨by simp, ?_, by simp, by norm_num, ?_⟩ <;> (intro x hx; simp only [List.mem_cons, List.not_mem_nil, or_false] at hx; rcases hx with rfl | rfl | rfl | rfl <;> norm_num)

end F4Enix.WW
