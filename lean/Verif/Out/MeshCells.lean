import Verif.Out.MeshtalGridProps
/-!
# The cells of a drawn mesh tally

Together: the arrays of C38, the points of C66 and the split of C67. A cell of the grid shows the value of the
voxel of the file that it is part of.
-/
namespace F4Enix.Mesh
open F4Enix

/-- the position the grid gives to the boundaries `x`, `y`, `z` of its three axes: a box at its boundaries, a
cylinder at radius, height and angle (in turns), both moved by the origin (specification) -/
def placed (cs sn : ℚ → ℚ) (cyl : Bool) (trsf : Option Trsf) (x y z : ℚ) : Vec :=
  if cyl then ⟨x * cs z + (originOf trsf).x, x * sn z + (originOf trsf).y, y + (originOf trsf).z⟩
  else (⟨x, y, z⟩ : Vec).add (originOf trsf)

theorem placed_point (cs sn : ℚ → ℚ) (m : MeshData) (trsf : Option Trsf) {i j k : Nat}
    {x y z : ℚ} (hx : m.x1[i]? = some x) (hy : m.x2[j]? = some y) (hz : m.x3[k]? = some z) :
    (gridPoints cs sn m trsf)[(k * m.x2.length + j) * m.x1.length + i]? = some (placed cs sn m.cyl trsf x y z) := by
  unfold placed
  cases hc : m.cyl with
  | true => rw [if_pos rfl]; exact cyl_point cs sn trsf hc hx hy hz
  | false => rw [if_neg (by simp)]; exact rect_point cs sn trsf hc hx hy hz

/-- the number of points is the product of the numbers of boundaries -/
theorem points_length (cs sn : ℚ → ℚ) (m : MeshData) (trsf : Option Trsf) :
    (gridPoints cs sn m trsf).length = m.x3.length * (m.x2.length * m.x1.length) := by
  unfold gridPoints
  cases m.cyl <;> simp [List.length_flatMap]

theorem sorted_le {l : List ℚ} (h : l.Pairwise (· < ·)) {c : Nat} {a b : ℚ} (ha : l[c]? = some a)
    (hb : l[c + 1]? = some b) : a < b := by
  obtain ⟨h1, rfl⟩ := List.getElem?_eq_some_iff.1 ha
  obtain ⟨h2, rfl⟩ := List.getElem?_eq_some_iff.1 hb
  exact List.pairwise_iff_getElem.1 h _ _ h1 h2 (by omega)

/-- **C220.** For every time and energy bin the grid of the mesh of a file has an array of values and one of
errors, with one number for every cell between the points of the grid; the numbers of a cell are those of a
voxel of the file, and the eight corners of the cell are placed between the boundaries of that voxel. -/
theorem cell_in_mesh_voxel (cs sn : ℚ → ℚ) {m : MeshData} {f : FMesh} {trsf : Option Trsf} {labels : Option (Str × Str)}
    (h : mkFmesh cs sn m trsf labels = .ok f) (hl : (labels.getD columnLabels).1 ≠ (labels.getD columnLabels).2)
    (hs : m.x3.Pairwise (· < ·)) (ha : m.cyl = true → ∀ a, m.x3[0]? = some a → a < 1 / 2)
    {t e : Nat} (ht : t < m.nt) (he : e < m.ne) :
    ∃ v w : List ℚ,
      Dict.get? f.arrays ((labels.getD columnLabels).1 ++ suffix m.nt m.ne t e) = some v ∧
      Dict.get? f.arrays ((labels.getD columnLabels).2 ++ suffix m.nt m.ne t e) = some w ∧
      v.length = (f.mesh.x3.length - 1) * ((m.x2.length - 1) * (m.x1.length - 1)) ∧ w.length = v.length ∧
      ∀ c b a : Nat, c + 1 < f.mesh.x3.length → b + 1 < m.x2.length → a + 1 < m.x1.length →
        ∃ (c0 : Nat) (lo0 hi0 : ℚ), m.x3[c0]? = some lo0 ∧ m.x3[c0 + 1]? = some hi0 ∧
          v[(c * (m.x2.length - 1) + b) * (m.x1.length - 1) + a]? = some (m.data [t, e, c0, b, a]).1 ∧
          w[(c * (m.x2.length - 1) + b) * (m.x1.length - 1) + a]? = some (m.data [t, e, c0, b, a]).2 ∧
          ∀ dc db da : Nat, dc ≤ 1 → db ≤ 1 → da ≤ 1 → ∃ x y z : ℚ, m.x1[a + da]? = some x ∧ m.x2[b + db]? = some y ∧
            f.mesh.x3[c + dc]? = some z ∧ lo0 ≤ z ∧ z ≤ hi0 ∧
            f.points[((c + dc) * m.x2.length + (b + db)) * m.x1.length + (a + da)]? =
              some (placed cs sn m.cyl trsf x y z) := by
  unfold mkFmesh at h
  simp only at h
  cases hm : splitTheta m with
  | error x => rw [hm] at h; simp at h
  | ok m' =>
    rw [hm] at h
    simp only [Except.ok.injEq] at h
    subst h
    simp only
    generalize labels.getD columnLabels = l at *
    obtain ⟨e1, e2, ec, eb, et, hv⟩ := split_values hm
    have hs' : m'.x3.Pairwise (· < ·) := by
      by_cases q : m.cyl = true
      · exact split_sorted hm hs (ha q)
      · unfold splitTheta at hm
        rw [if_neg q] at hm
        simp only [Except.ok.injEq] at hm
        rw [← hm]; exact hs
    have hv' : ∀ (c : Nat) (lo hi : ℚ), m'.x3[c]? = some lo → m'.x3[c + 1]? = some hi →
        ∃ (c0 : Nat) (lo0 hi0 : ℚ), m.x3[c0]? = some lo0 ∧ m.x3[c0 + 1]? = some hi0 ∧ lo0 ≤ lo ∧ hi ≤ hi0 ∧
          ∀ t e b a, m'.data [t, e, c, b, a] = m.data [t, e, c0, b, a] := by
      intro c lo hi h1 h2
      by_cases q : m.cyl = true
      · cases h0 : m.x3[0]? with
        | none =>
          rw [List.getElem?_eq_none_iff] at h0
          have : m.x3 = [] := List.length_eq_zero_iff.1 (by omega)
          unfold splitTheta at hm
          rw [if_pos q, this] at hm
          simp at hm
        | some a0 => exact hv a0 h0 (ha q a0 h0).le c lo hi h1 h2
      · unfold splitTheta at hm
        rw [if_neg q] at hm
        simp only [Except.ok.injEq] at hm
        subst hm
        exact ⟨c, lo, hi, h1, h2, le_refl _, le_refl _, fun _ _ _ _ => rfl⟩
    have nt' : m'.nt = m.nt := by unfold MeshData.nt; rw [et]
    have ne' : m'.ne = m.ne := by unfold MeshData.ne; rw [eb]
    have nd := grid_names_nodup m' l hl
    obtain ⟨_, hg⟩ := grid_complete m' l
    obtain ⟨⟨v, v1, v2⟩, w, w1, w2⟩ := hg t e (by rw [nt']; exact ht) (by rw [ne']; exact he)
    obtain ⟨av, _⟩ := array_exact m' l hl (t := t) (e := e) (by rw [nt']; exact ht) (by rw [ne']; exact he) v1
    obtain ⟨_, aw⟩ := array_exact m' l hl (t := t) (e := e) (by rw [nt']; exact ht) (by rw [ne']; exact he) w1
    have av' := av rfl
    have aw' := aw rfl
    simp only at av' aw'
    unfold MeshData.nx1 MeshData.nx2 MeshData.nx3 at v2 w2 av' aw'
    rw [e1, e2] at v2 w2 av' aw'
    refine ⟨v, w, ?_, ?_, v2, by rw [w2, v2], ?_⟩
    · rw [← nt', ← ne']; exact Dict.get?_of_mem nd v1
    · rw [← nt', ← ne']; exact Dict.get?_of_mem nd w1
    intro c b a hc hb hx
    have p3 : ∀ i, i < m'.x3.length → m'.x3[i]? = some (m'.x3.getD i 0) := by
      intro i hi
      simp [List.getD, List.getElem?_eq_getElem hi]
    obtain ⟨c0, lo0, hi0, q1, q2, q3, q4, q5⟩ := hv' c _ _ (p3 c (by omega)) (p3 (c + 1) hc)
    have mid := sorted_le hs' (p3 c (by omega)) (p3 (c + 1) hc)
    refine ⟨c0, lo0, hi0, q1, q2, ?_, ?_, ?_⟩
    · rw [av' c b a (by omega) (by omega) (by omega), q5]
    · rw [aw' c b a (by omega) (by omega) (by omega), q5]
    intro dc db da h1 h2 h3
    have l1 : a + da < m.x1.length := by omega
    have l2 : b + db < m.x2.length := by omega
    refine ⟨_, _, _, List.getElem?_eq_getElem l1, List.getElem?_eq_getElem l2, p3 (c + dc) (by omega), ?_, ?_, ?_⟩
    · obtain rfl | rfl : dc = 0 ∨ dc = 1 := by omega
      · exact q3
      · exact le_trans q3 mid.le
    · obtain rfl | rfl : dc = 0 ∨ dc = 1 := by omega
      · exact le_trans mid.le q4
      · exact q4
    · have := placed_point cs sn m' trsf (i := a + da) (j := b + db) (k := c + dc)
        (by rw [e1]; exact List.getElem?_eq_getElem l1) (by rw [e2]; exact List.getElem?_eq_getElem l2)
        (p3 (c + dc) (by omega))
      rw [e1, e2, ec] at this
      exact this

/-- every voxel of the file is drawn: by a row of cells from its lower to its upper boundary, all with its values -/
theorem voxel_drawn (cs sn : ℚ → ℚ) {m : MeshData} {f : FMesh} {trsf : Option Trsf} {labels : Option (Str × Str)}
    (h : mkFmesh cs sn m trsf labels = .ok f) {c0 : Nat} (hc : c0 + 1 < m.x3.length) :
    ∃ c c1, c ≤ c1 ∧ c1 + 1 < f.mesh.x3.length ∧ f.mesh.x3[c]? = m.x3[c0]? ∧ f.mesh.x3[c1 + 1]? = m.x3[c0 + 1]? ∧
      ∀ k, c ≤ k → k ≤ c1 → ∀ t e b a, f.mesh.data [t, e, k, b, a] = m.data [t, e, c0, b, a] := by
  unfold mkFmesh at h
  simp only at h
  cases hm : splitTheta m with
  | error x => rw [hm] at h; simp at h
  | ok m' =>
    rw [hm] at h
    simp only [Except.ok.injEq] at h
    subst h
    simp only
    have same : m' = m → ∃ c c1, c ≤ c1 ∧ c1 + 1 < m'.x3.length ∧ m'.x3[c]? = m.x3[c0]? ∧ m'.x3[c1 + 1]? = m.x3[c0 + 1]? ∧
        ∀ k, c ≤ k → k ≤ c1 → ∀ t e b a, m'.data [t, e, k, b, a] = m.data [t, e, c0, b, a] := by
      rintro rfl
      refine ⟨c0, c0, le_refl _, hc, rfl, rfl, ?_⟩
      intro k h1 h2
      obtain rfl : k = c0 := by omega
      intros; rfl
    unfold splitTheta at hm
    by_cases q : m.cyl = true
    · rw [if_pos q] at hm
      cases hx : m.x3 with
      | nil => rw [hx] at hm; simp at hm
      | cons a0 r =>
        cases r with
        | nil => rw [hx] at hm; simp at hm
        | cons b0 rest =>
          rw [hx] at hm
          simp only at hm
          by_cases hb : 1 / 2 < b0
          · rw [if_pos hb] at hm
            simp only [Except.ok.injEq] at hm
            subst hm
            rw [hx] at hc
            simp only [List.length_cons] at hc
            cases c0 with
            | zero =>
              refine ⟨0, 1, by omega, by simp, rfl, rfl, ?_⟩
              intro k _ h2
              obtain rfl | rfl : k = 0 ∨ k = 1 := by omega
              · intros; rfl
              · intros; rfl
            | succ c0 =>
              refine ⟨c0 + 2, c0 + 2, le_refl _, by simp only [List.length_cons]; omega, rfl, rfl, ?_⟩
              intro k h1 h2
              obtain rfl : k = c0 + 2 := by omega
              intros; rfl
          · rw [if_neg hb] at hm
            simp only [Except.ok.injEq] at hm
            rw [hx] at same
            exact same hm.symm
    · rw [if_neg q] at hm
      simp only [Except.ok.injEq] at hm
      exact same hm.symm

/-- a cylinder of two rings, one height and one sector of a whole turn (example) -/
def ringMesh : MeshData :=
  { cyl := true, x1 := [0, 1, 2], x2 := [0, 5], x3 := [0, 1], ebin := { data := [0, 1], tag := .erg }
    tbin := { data := [0, 100], tag := .tme }, data := fun i => ((i.getD 4 0 : ℚ), (1 : ℚ)) }

/-- the grid of the sample has two sectors, both with the values of the only sector of the file -/
example : (match mkFmesh (fun _ => 1) (fun _ => 0) ringMesh none none with
      | .ok f => decide (f.mesh.x3 = [0, 1 / 2, 1] ∧ Dict.get? f.arrays columnLabels.1 = some [0, 1, 0, 1])
      | .error _ => false) = true ∧
    ringMesh.x3.Pairwise (· < ·) ∧ columnLabels.1 ≠ columnLabels.2 ∧ (∀ a, ringMesh.x3[0]? = some a → a < 1 / 2) ∧
    0 < ringMesh.nt ∧ 0 < ringMesh.ne := by
  refine ⟨by decide +kernel, by decide +kernel, by decide +kernel, ?_, by decide +kernel, by decide +kernel⟩
  intro a h
  simp only [ringMesh, List.getElem?_cons_zero, Option.some.injEq] at h
  subst h; norm_num

end F4Enix.Mesh
