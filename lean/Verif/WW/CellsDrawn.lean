import Verif.WW.MeshgridsProps
import Verif.WW.Tight
import Mathlib.Tactic.IntervalCases
/-!
# A drawn cell of a cylindrical window lies in the voxel whose value it shows

C48 says which value a cell of the grid carries, C140 where the points of the grid are. Here the two are put together.
-/
namespace F4Enix.Grid3
open F4Enix F4Enix.WW

/-- the sector drawn at place `t` is a part of sector `t / (drawn / given)` (proof) -/
theorem drawn_between {vs vk' : List ℝ} (h : DrawnAngles vs vk') {nk : ℕ} (hl : vs.length = nk + 1) :
    vk'.length = thetaInts nk + 1 ∧ ∀ t : ℕ, t < thetaInts nk → ∃ b0 b1 t0 t1 : ℝ,
      vs[t / (thetaInts nk / nk)]? = some b0 ∧ vs[t / (thetaInts nk / nk) + 1]? = some b1 ∧ vk'[t]? = some t0 ∧ vk'[t + 1]? = some t1 ∧
      (b0 ≤ b1 → b0 ≤ t0 ∧ t0 ≤ t1 ∧ t1 ≤ b1) ∧ (b0 < b1 → t0 < t1) := by
  rcases h with ⟨a, b, rfl, hlen, hg⟩ | ⟨a, b, c, rfl, hlen, hg1, hg2⟩ | ⟨h4, rfl⟩
  · have hk : nk = 1 := by simp at hl; omega
    subst hk
    have e : thetaInts 1 = 20 := rfl
    rw [e]
    refine ⟨hlen, fun t ht => ?_⟩
    have e2 : t / (20 / 1) = 0 := by omega
    rw [e2]
    have p1 : (0 : ℝ) ≤ (t : ℝ) := by positivity
    have p2 : (t : ℝ) ≤ 19 := by exact_mod_cast (by omega : t ≤ 19)
    refine ⟨a, b, _, _, rfl, rfl, hg t (by omega), hg (t + 1) (by omega), fun hab => ⟨?_, ?_, ?_⟩, fun hab => ?_⟩
    · have : 0 ≤ (b - a) * t := mul_nonneg (by linarith) p1
      linarith
    · push_cast; linarith
    · push_cast
      have : 0 ≤ (b - a) * (19 - t) := mul_nonneg (by linarith) (by linarith)
      linarith
    · push_cast; linarith
  · have hk : nk = 2 := by simp at hl; omega
    subst hk
    have e : thetaInts 2 = 20 := rfl
    rw [e]
    refine ⟨hlen, fun t ht => ?_⟩
    rcases Nat.lt_or_ge t 10 with h10 | h10
    · have e2 : t / (20 / 2) = 0 := by omega
      rw [e2]
      have p1 : (0 : ℝ) ≤ (t : ℝ) := by positivity
      have p2 : (t : ℝ) ≤ 9 := by exact_mod_cast (by omega : t ≤ 9)
      refine ⟨a, b, _, _, rfl, rfl, hg1 t (by omega), hg1 (t + 1) (by omega), fun hab => ⟨?_, ?_, ?_⟩, fun hab => ?_⟩
      · have : 0 ≤ (b - a) * t := mul_nonneg (by linarith) p1
        linarith
      · push_cast; linarith
      · push_cast
        have : 0 ≤ (b - a) * (9 - t) := mul_nonneg (by linarith) (by linarith)
        linarith
      · push_cast; linarith
    · obtain ⟨m, rfl⟩ := Nat.exists_eq_add_of_le h10
      have e2 : (10 + m) / (20 / 2) = 1 := by omega
      rw [e2]
      have p1 : (0 : ℝ) ≤ (m : ℝ) := by positivity
      have p2 : (m : ℝ) ≤ 9 := by exact_mod_cast (by omega : m ≤ 9)
      refine ⟨b, c, _, _, rfl, rfl, hg2 m (by omega), hg2 (m + 1) (by omega), fun hab => ⟨?_, ?_, ?_⟩, fun hab => ?_⟩
      · have : 0 ≤ (c - b) * m := mul_nonneg (by linarith) p1
        linarith
      · push_cast; linarith
      · push_cast
        have : 0 ≤ (c - b) * (9 - m) := mul_nonneg (by linarith) (by linarith)
        linarith
      · push_cast; linarith
  · have hk : 3 ≤ nk := by omega
    have e : thetaInts nk = nk := by unfold thetaInts; rw [if_neg (by omega)]
    rw [e]
    refine ⟨hl, fun t ht => ?_⟩
    have e2 : t / (nk / nk) = t := by rw [Nat.div_self (by omega), Nat.div_one]
    rw [e2]
    have g0 : vk'[t]? = some vk'[t] := List.getElem?_eq_getElem (by omega)
    have g1 : vk'[t + 1]? = some vk'[t + 1] := List.getElem?_eq_getElem (by omega)
    exact ⟨_, _, _, _, g0, g1, g0, g1, fun h => ⟨le_refl _, h, le_refl _⟩, id⟩

/-- **C219.** The grid of a cylindrical window has one cell for each value shown, and the cell at place `(i, t, j)` carries the value of the
voxel between the radii `i` and `i + 1`, the heights `j` and `j + 1` and the angles `s` and `s + 1`: its eight corners are at these radii and
heights, and at angles that are not outside of those of the voxel. -/
theorem cell_in_voxel {vi vj vk : List ℝ} {o ax v : V3} {g : SGrid} (hax : ax.norm ≠ 0)
    (h : cylindricalGrid vi vj vk (some o) (some ax) (some v) = .ok g) (a : Arr3) (hk : 0 < a.nk) (hj : 0 < a.nj) (hi : 0 < a.ni)
    (li : vi.length = a.ni + 1) (lj : vj.length = a.nj + 1) (lk : vk.length = a.nk + 1) :
    ∃ (vi' vs vk' : List ℝ) (u w : V3), DrawnRadii vi vi' ∧ SnappedAngles vk vs ∧
      u.dot u = 1 ∧ w.dot w = 1 ∧ u.dot w = 0 ∧ u.dot ax = 0 ∧ w.dot ax = 0 ∧ u.cross w = ax.smul (1 / ax.norm) ∧
      g.dims = (a.ni + 1, vk'.length, a.nj + 1) ∧
      (gridData true a).length = (g.dims.1 - 1) * (g.dims.2.1 - 1) * (g.dims.2.2 - 1) ∧
      ∀ i t j : ℕ, i < a.ni → t + 1 < vk'.length → j < a.nj → ∃ (s : ℕ) (b0 b1 : ℝ), s < a.nk ∧ vs[s]? = some b0 ∧ vs[s + 1]? = some b1 ∧
        (∀ x, a.get s j i = some x → (gridData true a)[(j * (g.dims.2.1 - 1) + t) * (g.dims.1 - 1) + i]? = some x) ∧
        ∀ di dt dj : ℕ, di ≤ 1 → dt ≤ 1 → dj ≤ 1 → ∃ r th z : ℝ, vi'[i + di]? = some r ∧ vk'[t + dt]? = some th ∧ vj[j + dj]? = some z ∧
          (b0 ≤ b1 → b0 ≤ th ∧ th ≤ b1) ∧
          g.points[((j + dj) * g.dims.2.1 + (t + dt)) * g.dims.1 + (i + di)]? =
            some (o.add ((ax.smul (z / ax.norm)).add (((u.smul (Real.cos (th * 2 * Real.pi))).add (w.smul (Real.sin (th * 2 * Real.pi)))).smul r))) := by
  obtain ⟨vi', vs, vk', u, w, hR, hS, hD, h1, h2, h3, h4, h5, h6, hdim, -, hpt⟩ := cylinder_point_partial hax h
  obtain ⟨hlen, hbt⟩ := drawn_between hD (nk := a.nk) (by rw [hS.1, lk])
  have li' : vi'.length = a.ni + 1 := by rw [hR.1, li]
  have hT : (if a.nk ≤ 2 then 20 else a.nk) = thetaInts a.nk := by
    unfold thetaInts
    by_cases h : a.nk ≤ 2
    · rw [if_pos h, if_pos (by omega)]
    · rw [if_neg h, if_neg (by omega)]
  have hdim' : g.dims = (a.ni + 1, thetaInts a.nk + 1, a.nj + 1) := by rw [hdim, li', hlen, lj]
  refine ⟨vi', vs, vk', u, w, hR, hS, h1, h2, h3, h4, h5, h6, by rw [hdim', hlen], ?_, ?_⟩
  · rw [c48_length a hk hj hi, hT, hdim']
    simp only [Nat.add_sub_cancel]
    ring
  · intro i t j hi' ht hj'
    have ht' : t < thetaInts a.nk := by omega
    obtain ⟨b0, b1, t0, t1, e0, e1, g0, g1, hb, -⟩ := hbt t ht'
    have hs : t / (thetaInts a.nk / a.nk) < a.nk := by
      have := (List.getElem?_eq_some_iff.mp e1).1
      rw [hS.1, lk] at this
      omega
    refine ⟨t / (thetaInts a.nk / a.nk), b0, b1, hs, e0, e1, fun x hx => ?_, fun di dt dj hdi hdt hdj => ?_⟩
    · rw [hdim']
      simp only [Nat.add_sub_cancel]
      exact c48_cyl_grid a hk hj hi j t i hj' ht' hi' x hx
    · have k1 : vi'[i + di]? = some vi'[i + di] := List.getElem?_eq_getElem (by omega)
      have k3 : vj[j + dj]? = some vj[j + dj] := List.getElem?_eq_getElem (by omega)
      have k2 : ∃ th, vk'[t + dt]? = some th ∧ (b0 ≤ b1 → b0 ≤ th ∧ th ≤ b1) := by
        interval_cases dt
        · exact ⟨t0, g0, fun hh => ⟨(hb hh).1, (hb hh).2.1.trans (hb hh).2.2⟩⟩
        · exact ⟨t1, g1, fun hh => ⟨(hb hh).1.trans (hb hh).2.1, (hb hh).2.2⟩⟩
      obtain ⟨th, k2, kb⟩ := k2
      refine ⟨_, th, _, k1, k2, k3, kb, ?_⟩
      have := hpt (i + di) (t + dt) (j + dj) _ th _ k1 k2 k3
      rw [hdim', ← hlen, ← li']
      exact this

/-- **C219.** The same for a rectangular window: its cells carry the values of the voxels between the boundaries at their corners. -/
theorem box_in_voxel (rnd : ℝ → ℝ) (plus : ℝ → ℝ → ℝ) {vi vj vk : List ℝ} (o : V3) (a : Arr3) (hw : a.WF)
    (li : vi.length = a.ni + 1) (lj : vj.length = a.nj + 1) (lk : vk.length = a.nk + 1) :
    let g := cartesianGrid rnd plus vi vj vk (some o)
    (gridData false a).length = (g.dims.1 - 1) * (g.dims.2.1 - 1) * (g.dims.2.2 - 1) ∧
    ∀ k j i : ℕ, k < a.nk → j < a.nj → i < a.ni →
      (∀ x, a.get k j i = some x → (gridData false a)[(k * (g.dims.2.1 - 1) + j) * (g.dims.1 - 1) + i]? = some x) ∧
      ∀ di dj dk : ℕ, di ≤ 1 → dj ≤ 1 → dk ≤ 1 → ∃ x y z : ℝ, vi[i + di]? = some x ∧ vj[j + dj]? = some y ∧ vk[k + dk]? = some z ∧
        g.points[((k + dk) * g.dims.2.1 + (j + dj)) * g.dims.1 + (i + di)]? = some ⟨plus (rnd x) o.x, plus (rnd y) o.y, plus (rnd z) o.z⟩ := by
  intro g
  have hd : g.dims = (a.ni + 1, a.nj + 1, a.nk + 1) := by
    show (vi.length, vj.length, vk.length) = _
    rw [li, lj, lk]
  rw [hd]
  simp only [Nat.add_sub_cancel]
  refine ⟨?_, fun k j i hk hj hi => ⟨fun x hx => ?_, fun di dj dk h1 h2 h3 => ?_⟩⟩
  · show a.data.length = _
    rw [hw]; ring
  · unfold Arr3.get Arr3.idx at hx
    rw [if_pos ⟨hk, hj, hi⟩] at hx
    exact hx
  · have k1 : vi[i + di]? = some vi[i + di] := List.getElem?_eq_getElem (by omega)
    have k2 : vj[j + dj]? = some vj[j + dj] := List.getElem?_eq_getElem (by omega)
    have k3 : vk[k + dk]? = some vk[k + dk] := List.getElem?_eq_getElem (by omega)
    refine ⟨_, _, _, k1, k2, k3, ?_⟩
    have := cartesian_point rnd plus o k1 k2 k3
    rw [← li, ← lj]
    exact this

/-- a window of two sectors, with a value for each (example) -/
example : ∃ g, cylindricalGrid [0, 1] [0, 1] [0, 1 / 4, 1] (some ⟨0, 0, 0⟩) (some ⟨0, 0, 1⟩) (some ⟨1, 0, 0⟩) = .ok g := by
  refine cylinder_made _ _ _ ?_ ?_ (by simp) (by simp)
  · unfold V3.norm V3.dot; simp
  · intro hr
    exact absurd hr (by unfold Refused; simp)

end F4Enix.Grid3
