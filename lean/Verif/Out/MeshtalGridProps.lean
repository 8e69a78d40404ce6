import Verif.Out.MeshtalGrid
import Verif.Out.MeshtalProps
import Verif.Out.MeshtalLabels
import Mathlib.Tactic.LinearCombination
import Mathlib.Tactic.FieldSimp
/-!
# Theorems about the grids of mesh tallies and what is derived from them (C66-C72)
-/
namespace F4Enix.Mesh
open F4Enix

/-! ### positions (C66) -/

theorem flatMap_get {α β : Type} (l : List α) (f : α → List β) (m : Nat) (h : ∀ a ∈ l, (f a).length = m)
    (c q : Nat) (hq : q < m) : (l.flatMap f)[c * m + q]? = l[c]?.bind (fun a => (f a)[q]?) := by
  induction l generalizing c with
  | nil => simp
  | cons a l ih =>
    rw [List.flatMap_cons]
    have ha := h a (by simp)
    cases c with
    | zero =>
      rw [List.getElem?_append_left (by rw [ha]; omega)]
      simp
    | succ c =>
      have e : (c + 1) * m + q = m + (c * m + q) := by rw [Nat.add_mul]; omega
      rw [e, ← ha, List.getElem?_append_right (by omega), ha]
      simp only [Nat.add_sub_cancel_left, List.getElem?_cons_succ]
      exact ih (fun b hb => h b (by simp [hb])) c

/-- nested flatMap: three lists, the last one fastest -/
theorem grid_get (X Y Z : List ℚ) (P : ℚ → ℚ → ℚ → Vec) (i j k : Nat) (x y z : ℚ)
    (hx : X[i]? = some x) (hy : Y[j]? = some y) (hz : Z[k]? = some z) :
    (Z.flatMap (fun z => Y.flatMap (fun y => X.map (fun x => P x y z))))[(k * Y.length + j) * X.length + i]? =
      some (P x y z) := by
  have hi : i < X.length := (List.getElem?_eq_some_iff.1 hx).1
  have hj : j < Y.length := (List.getElem?_eq_some_iff.1 hy).1
  have len : ∀ z, (Y.flatMap (fun y => X.map (fun x => P x y z))).length = Y.length * X.length := by
    intro z
    clear hy hj
    induction Y with
    | nil => simp
    | cons y Y ih => rw [List.flatMap_cons, List.length_append, ih, List.length_map, List.length_cons]; ring
  have e : (k * Y.length + j) * X.length + i = k * (Y.length * X.length) + (j * X.length + i) := by ring
  have hq : j * X.length + i < Y.length * X.length := by
    have := Nat.mul_le_mul_right X.length (show j + 1 ≤ Y.length by omega)
    rw [Nat.add_mul] at this; omega
  rw [e, flatMap_get _ _ _ (fun z _ => len z) _ _ hq, hz]
  simp only [Option.bind_some]
  rw [flatMap_get _ _ X.length (fun y _ => by simp) _ _ hi, hy]
  simp [hx]

/-- displacement of the grid (specification) -/
def originOf : Option Trsf → Vec
  | none => Vec.zero
  | some t => t.origin

/-- **C66 (rectangular).** The grid point numbered `(k, j, i)`, first axis fastest, is at the corresponding
boundaries, moved by the origin. -/
theorem rect_point (cs sn : ℚ → ℚ) {m : MeshData} (trsf : Option Trsf) (hc : m.cyl = false) {i j k : Nat}
    {x y z : ℚ} (hx : m.x1[i]? = some x) (hy : m.x2[j]? = some y) (hz : m.x3[k]? = some z) :
    (gridPoints cs sn m trsf)[(k * m.x2.length + j) * m.x1.length + i]? = some ((⟨x, y, z⟩ : Vec).add (originOf trsf)) := by
  have e : gridPoints cs sn m trsf =
      m.x3.flatMap (fun z => m.x2.flatMap (fun y => m.x1.map (fun x => (⟨x, y, z⟩ : Vec).add (originOf trsf)))) := by
    cases trsf <;> simp only [gridPoints, hc, Bool.false_eq_true, if_false] <;> rfl
  rw [e]
  exact grid_get _ _ _ (fun x y z => (⟨x, y, z⟩ : Vec).add (originOf trsf)) i j k x y z hx hy hz

/-- where the point of radius `r`, height `z` and angle `t` (in turns) of a cylindrical mesh lies: the mesh
has its base at `o`, its axis along `axis` and the origin of the angles along `vec` (specification) -/
def cylPos (cs sn : ℚ → ℚ) (o axis vec : Vec) (r z t : ℚ) : Vec :=
  let w := axis.cross vec
  ⟨o.x + z * axis.x + r * cs t * vec.x + r * sn t * w.x,
   o.y + z * axis.y + r * cs t * vec.y + r * sn t * w.y,
   o.z + z * axis.z + r * cs t * vec.z + r * sn t * w.z⟩

/-- every point of the grid of a cylindrical mesh -/
theorem cyl_point (cs sn : ℚ → ℚ) {m : MeshData} (trsf : Option Trsf) (hc : m.cyl = true) {i j k : Nat}
    {r z t : ℚ} (hr : m.x1[i]? = some r) (hz : m.x2[j]? = some z) (ht : m.x3[k]? = some t) :
    (gridPoints cs sn m trsf)[(k * m.x2.length + j) * m.x1.length + i]? =
      some ⟨r * cs t + (originOf trsf).x, r * sn t + (originOf trsf).y, z + (originOf trsf).z⟩ := by
  have e : gridPoints cs sn m trsf =
      m.x3.flatMap (fun t => m.x2.flatMap (fun z => m.x1.map (fun r =>
        (⟨r * cs t + (originOf trsf).x, r * sn t + (originOf trsf).y, z + (originOf trsf).z⟩ : Vec)))) := by
    cases trsf <;> simp only [gridPoints, hc, if_true] <;> rfl
  rw [e]
  exact grid_get _ _ _ (fun r z t => (⟨r * cs t + (originOf trsf).x, r * sn t + (originOf trsf).y,
    z + (originOf trsf).z⟩ : Vec)) i j k r z t hr hz ht

/-- **C66 (upright cylinder).** With the axis along z and the angles counted from x the points are where the
file says. -/
theorem upright_point_partial (cs sn : ℚ → ℚ) {m : MeshData} (o : Vec) (rot : Vec × Vec × Vec) (hc : m.cyl = true)
    {i j k : Nat} {r z t : ℚ} (hr : m.x1[i]? = some r) (hz : m.x2[j]? = some z) (ht : m.x3[k]? = some t) :
    (gridPoints cs sn m (some ⟨o, rot⟩))[(k * m.x2.length + j) * m.x1.length + i]? =
      some (cylPos cs sn o ⟨0, 0, 1⟩ ⟨1, 0, 0⟩ r z t) := by
  rw [cyl_point cs sn _ hc hr hz ht]
  simp only [originOf, cylPos, Vec.cross, Option.some.injEq, Vec.mk.injEq]
  refine ⟨?_, ?_, ?_⟩ <;> ring

/-- **C66 fails for every other axis**: the grid is the same whatever the axis and reference direction. -/
theorem axis_ignored (cs sn : ℚ → ℚ) (m : MeshData) (o a v a' v' : Vec) (t t' : Option Trsf)
    (h : getTransformation o a (some v) = .ok t) (h' : getTransformation o a' (some v') = .ok t')
    (ho : 1 / 1000000000000000000000000 ≤ o.dot o) :
    gridPoints cs sn m t = gridPoints cs sn m t' := by
  have key : ∀ a v t, getTransformation o a (some v) = .ok t → ∃ rot, t = some ⟨o, rot⟩ := by
    intro a v t h
    unfold getTransformation at h
    simp only at h
    by_cases q : (decide (|a.z - 1| < 1 / 1000000000000) && decide (|a.x - 1| < 1 / 1000000000000)) = true
    · rw [if_pos q, if_neg (by simpa using ho)] at h
      simp only [Except.ok.injEq] at h
      exact ⟨_, h.symm⟩
    · rw [if_neg q] at h
      simp only [Except.ok.injEq] at h
      exact ⟨_, h.symm⟩
  obtain ⟨_, rfl⟩ := key a v t h
  obtain ⟨_, rfl⟩ := key a' v' t' h'
  rfl

/-- the first mesh of the repository's `meshtal_cyl`: axis along x; one point of the grid and where it should be -/
theorem tilted_wrong (cs sn : ℚ → ℚ) (h0 : cs 0 = 1) (h1 : sn 0 = 0) :
    ∃ (m : MeshData) (t : Option Trsf), m.cyl = true ∧
      getTransformation ⟨-50, -50, -50⟩ ⟨1, 0, 0⟩ (some ⟨0, 0, 1⟩) = .ok t ∧
      m.x1[1]? = some 50 ∧ m.x2[1]? = some 5 ∧ m.x3[0]? = some 0 ∧
      (gridPoints cs sn m t)[(0 * m.x2.length + 1) * m.x1.length + 1]? = some ⟨0, -50, -45⟩ ∧
      cylPos cs sn ⟨-50, -50, -50⟩ ⟨1, 0, 0⟩ ⟨0, 0, 1⟩ 50 5 0 = ⟨-45, -50, 0⟩ := by
  refine ⟨{ cyl := true, x1 := [0, 50], x2 := [0, 5], x3 := [0, 1 / 2, 1], ebin := { data := [0, 1], tag := .erg }
            tbin := { data := [0, 1], tag := .tme }, data := fun _ => (0, 0) },
    some ⟨⟨-50, -50, -50⟩, ⟨0, 0, 1⟩, ⟨0, -1, 0⟩, ⟨1, 0, 0⟩⟩, rfl, by decide +kernel, rfl, rfl, rfl, ?_, ?_⟩
  · rw [cyl_point cs sn _ rfl (r := 50) (z := 5) (t := 0) rfl rfl rfl, h0, h1]
    norm_num [originOf]
  · simp only [cylPos, h0, h1, Vec.cross]
    norm_num

/-- files of MCNP5 (no reference direction) with an axis that is not z cannot be read -/
theorem tilted_mcnp5_refused (o a : Vec) (h : 1 / 1000000000000 ≤ |a.z - 1|) :
    getTransformation o a none = .error .attributeError := by
  unfold getTransformation
  simp only
  rw [if_neg (by simpa using h)]

/-- a rectangular source mesh away from the origin or turned cannot be read -/
theorem moved_rec_refused (o vx vy : Vec) (h : 1 / 1000000000000000000000000 ≤ o.dot o) :
    getTransformationRec o vx vy = .error .unboundLocal := by
  unfold getTransformationRec
  rw [if_neg (by intro hh; exact absurd hh.2.2 (not_lt.2 h))]

/-! ### splitting of the first angular bin (C67) -/

/-- **C67.** The grid shows, in every angular bin of the split mesh, the values of the bin of the file that
contains it; other meshes are unchanged. -/
theorem split_values {m m' : MeshData} (h : splitTheta m = .ok m') :
    m'.x1 = m.x1 ∧ m'.x2 = m.x2 ∧ m'.cyl = m.cyl ∧ m'.ebin = m.ebin ∧ m'.tbin = m.tbin ∧
    (∀ a, m.x3[0]? = some a → a ≤ 1 / 2 → ∀ (c : Nat) (lo hi : ℚ), m'.x3[c]? = some lo → m'.x3[c + 1]? = some hi →
      ∃ (c0 : Nat) (lo0 hi0 : ℚ), m.x3[c0]? = some lo0 ∧ m.x3[c0 + 1]? = some hi0 ∧ lo0 ≤ lo ∧ hi ≤ hi0 ∧
        ∀ t e b a, m'.data [t, e, c, b, a] = m.data [t, e, c0, b, a]) := by
  unfold splitTheta at h
  by_cases hc : m.cyl = true
  · rw [if_pos hc] at h
    cases hx : m.x3 with
    | nil => rw [hx] at h; simp at h
    | cons a0 r =>
      cases r with
      | nil => rw [hx] at h; simp at h
      | cons b0 rest =>
        rw [hx] at h
        simp only at h
        by_cases hb : 1 / 2 < b0
        · rw [if_pos hb] at h
          simp only [Except.ok.injEq] at h
          subst h
          refine ⟨rfl, rfl, rfl, rfl, rfl, ?_⟩
          intro a ha hle c lo hi hlo hhi
          simp only [List.getElem?_cons_zero, Option.some.injEq] at ha
          subst ha
          cases c with
          | zero =>
            simp only [List.getElem?_cons_zero, Option.some.injEq, Nat.zero_add, List.getElem?_cons_succ] at hlo hhi
            refine ⟨0, a0, b0, rfl, rfl, ?_, ?_, fun t e b a => rfl⟩
            · rw [hlo]
            · rw [← hhi]; exact hb.le
          | succ c =>
            cases c with
            | zero =>
              simp only [List.getElem?_cons_succ, List.getElem?_cons_zero, Option.some.injEq, Nat.zero_add] at hlo hhi
              refine ⟨0, a0, b0, rfl, rfl, ?_, ?_, fun t e b a => rfl⟩
              · rw [← hlo]; exact hle
              · rw [hhi]
            | succ c =>
              simp only [List.getElem?_cons_succ] at hlo hhi
              exact ⟨c + 1, lo, hi, by simpa using hlo, by simpa using hhi, le_refl _, le_refl _, fun t e b a => rfl⟩
        · rw [if_neg hb] at h
          simp only [Except.ok.injEq] at h
          subst h
          refine ⟨rfl, rfl, rfl, rfl, rfl, ?_⟩
          intro a _ _ c lo hi hlo hhi
          exact ⟨c, lo, hi, by rw [← hx]; exact hlo, by rw [← hx]; exact hhi, le_refl _, le_refl _, fun t e b a => rfl⟩
  · rw [if_neg hc] at h
    simp only [Except.ok.injEq] at h
    subst h
    refine ⟨rfl, rfl, rfl, rfl, rfl, ?_⟩
    intro a _ _ c lo hi hlo hhi
    exact ⟨c, lo, hi, hlo, hhi, le_refl _, le_refl _, fun t e b a => rfl⟩

/-- the split happens once: a mesh made from a split mesh is not split again -/
theorem split_idempotent {m m' : MeshData} (h : splitTheta m = .ok m') : splitTheta m' = .ok m' := by
  have hh := h
  unfold splitTheta at h
  by_cases hc : m.cyl = true
  · rw [if_pos hc] at h
    cases hx : m.x3 with
    | nil => rw [hx] at h; simp at h
    | cons a0 r =>
      cases r with
      | nil => rw [hx] at h; simp at h
      | cons b0 rest =>
        rw [hx] at h
        simp only at h
        by_cases hb : 1 / 2 < b0
        · rw [if_pos hb] at h
          simp only [Except.ok.injEq] at h
          subst h
          unfold splitTheta
          simp only [hc, if_true]
          rw [if_neg (lt_irrefl _)]
        · rw [if_neg hb] at h
          simp only [Except.ok.injEq] at h
          subst h
          exact hh
  · rw [if_neg hc] at h
    simp only [Except.ok.injEq] at h
    subst h
    exact hh

/-- after the split the boundaries of a sorted mesh are still sorted -/
theorem split_sorted {m m' : MeshData} (h : splitTheta m = .ok m') (hs : m.x3.Pairwise (· < ·))
    (ha : ∀ a, m.x3[0]? = some a → a < 1 / 2) : m'.x3.Pairwise (· < ·) := by
  unfold splitTheta at h
  by_cases hc : m.cyl = true
  · rw [if_pos hc] at h
    cases hx : m.x3 with
    | nil => rw [hx] at h; simp at h
    | cons a0 r =>
      cases r with
      | nil => rw [hx] at h; simp at h
      | cons b0 rest =>
        rw [hx] at h hs
        simp only at h
        by_cases hb : 1 / 2 < b0
        · rw [if_pos hb] at h
          simp only [Except.ok.injEq] at h
          subst h
          have h0 : a0 < 1 / 2 := ha a0 (by rw [hx]; rfl)
          rw [List.pairwise_cons] at hs
          obtain ⟨p1, p2⟩ := hs
          rw [List.pairwise_cons] at p2
          simp only [List.pairwise_cons, List.mem_cons]
          refine ⟨?_, ?_, p2.1, p2.2⟩
          · rintro y (rfl | rfl | hy)
            · exact h0
            · exact p1 _ (by simp)
            · exact p1 _ (by simp [hy])
          · rintro y (rfl | hy)
            · exact hb
            · exact lt_trans hb (p2.1 y hy)
        · rw [if_neg hb] at h
          simp only [Except.ok.injEq] at h
          subst h
          rw [hx]; exact hs
  · rw [if_neg hc] at h
    simp only [Except.ok.injEq] at h
    subst h
    exact hs

/-! ### filtered meshes (C68) -/

theorem gridPoints_move (cs sn : ℚ → ℚ) (m : MeshData) (t : Trsf) :
    gridPoints cs sn m (some t) = (gridPoints cs sn m none).map (fun p => p.add t.origin) := by
  unfold gridPoints
  simp only [Vec.zero, add_zero]
  by_cases hc : m.cyl = true
  · rw [if_pos hc, if_pos hc]
    simp only [List.map_flatMap, List.map_map]
    rfl
  · rw [if_neg hc, if_neg hc]
    simp only [List.map_flatMap, List.map_map]
    rfl

theorem gridPoints_bins (cs sn : ℚ → ℚ) {m m' : MeshData} (t : Option Trsf) (h1 : m'.x1 = m.x1) (h2 : m'.x2 = m.x2)
    (h3 : m'.x3 = m.x3) (hc : m'.cyl = m.cyl) : gridPoints cs sn m' t = gridPoints cs sn m t := by
  unfold gridPoints
  rw [h1, h2, h3, hc]

theorem splitTheta_congr {m m' n n' : MeshData} (hm : splitTheta m = .ok m') (hn : splitTheta n = .ok n')
    (h3 : n.x3 = m.x3) (hc : n.cyl = m.cyl) : n'.x3 = m'.x3 := by
  unfold splitTheta at hm hn
  rw [hc, h3] at hn
  by_cases q : m.cyl = true
  · rw [if_pos q] at hm hn
    cases hx : m.x3 with
    | nil => rw [hx] at hm; simp at hm
    | cons a r =>
      cases r with
      | nil => rw [hx] at hm; simp at hm
      | cons b rest =>
        rw [hx] at hm hn
        simp only at hm hn
        by_cases hb : 1 / 2 < b
        · rw [if_pos hb] at hm hn
          simp only [Except.ok.injEq] at hm hn
          rw [← hm, ← hn]
        · rw [if_neg hb] at hm hn
          simp only [Except.ok.injEq] at hm hn
          rw [← hm, ← hn, h3]
  · rw [if_neg q] at hm hn
    simp only [Except.ok.injEq] at hm hn
    rw [← hm, ← hn, h3]

/-- **C68 (what holds).** A filtered mesh has the boundaries of the mesh it was made from, and the data and
arrays of the selected bins. -/
theorem filtered_data_partial {cs sn : ℚ → ℚ} {junk : Data} {m0 : MeshData} {trsf : Option Trsf}
    {l0 : Option (Str × Str)} {f f' : FMesh} {l : Str × Str} {eb tb : Option ℤ}
    (hf : mkFmesh cs sn m0 trsf l0 = .ok f) (h : filteredMesh cs sn junk f l eb tb = .ok f') :
    getEtbin junk f.mesh eb tb = .ok f'.mesh ∧ f'.mesh.x1 = f.mesh.x1 ∧ f'.mesh.x2 = f.mesh.x2 ∧
    f'.mesh.x3 = f.mesh.x3 ∧ f'.arrays = gridArrays f'.mesh l ∧ f'.points = gridPoints cs sn f.mesh none := by
  unfold mkFmesh at hf
  cases hs : splitTheta m0 with
  | error e => rw [hs] at hf; simp at hf
  | ok m =>
    rw [hs] at hf
    simp only [Except.ok.injEq] at hf
    subst hf
    unfold filteredMesh at h
    simp only at h
    cases hg : getEtbin junk m eb tb with
    | error e => rw [hg] at h; simp at h
    | ok g =>
      rw [hg] at h
      simp only at h
      unfold mkFmesh at h
      obtain ⟨d1, d2, d3, d4, _⟩ := etbin_data hg
      have hi := split_idempotent hs
      have hsg : splitTheta g = .ok g := by
        unfold splitTheta at hi ⊢
        rw [d1, d4]
        by_cases q : m.cyl = true
        · rw [if_pos q] at hi ⊢
          cases hx : m.x3 with
          | nil => rw [hx] at hi; simp at hi
          | cons a r =>
            cases r with
            | nil => rw [hx] at hi; simp at hi
            | cons b rest =>
              rw [hx] at hi
              simp only at hi ⊢
              by_cases hb : 1 / 2 < b
              · rw [if_pos hb] at hi
                simp only [Except.ok.injEq] at hi
                have := congrArg (fun m => m.x3.length) hi
                simp only [hx, List.length_cons] at this
                omega
              · rw [if_neg hb]
        · rw [if_neg q]
      rw [hsg] at h
      simp only [Except.ok.injEq] at h
      subst h
      exact ⟨rfl, d2, d3, d4, rfl, gridPoints_bins cs sn none d2 d3 d4 d1⟩

/-- **C68 fails for every mesh with a transformation**: the points of the filtered mesh are those of the mesh
moved back by the origin. -/
theorem filtered_moved {cs sn : ℚ → ℚ} {junk : Data} {m0 : MeshData} {t : Trsf}
    {l0 : Option (Str × Str)} {f f' : FMesh} {l : Str × Str} {eb tb : Option ℤ}
    (hf : mkFmesh cs sn m0 (some t) l0 = .ok f) (h : filteredMesh cs sn junk f l eb tb = .ok f') :
    f.points = f'.points.map (fun p => p.add t.origin) ∧ f'.trsf = none := by
  obtain ⟨_, _, _, _, _, hp⟩ := filtered_data_partial hf h
  have ht : f'.trsf = none := by
    unfold filteredMesh at h
    cases hg : getEtbin junk f.mesh eb tb with
    | error e => rw [hg] at h; simp at h
    | ok g =>
      rw [hg] at h
      simp only [mkFmesh] at h
      cases hs : splitTheta g with
      | error e => rw [hs] at h; simp at h
      | ok g' =>
        rw [hs] at h
        simp only [Except.ok.injEq] at h
        rw [← h]
  refine ⟨?_, ht⟩
  unfold mkFmesh at hf
  cases hs : splitTheta m0 with
  | error e => rw [hs] at hf; simp at hf
  | ok m =>
    rw [hs] at hf
    simp only [Except.ok.injEq] at hf
    subst hf
    rw [hp]
    exact gridPoints_move cs sn m t

/-! ### collapsed grids (C69) -/

theorem collapse_ok {fs : List (FMesh × Str × Str)} {pts : List Vec} {d : Dict Str (List ℚ)}
    (h : collapseGrids fs = .ok (pts, d)) :
    ∃ f n rest, fs = (f, n) :: rest ∧ pts = f.points ∧ (∀ g ∈ rest, sameMesh f.mesh g.1.mesh = true) ∧
      (∀ g ∈ fs, g.1.arrays.map Prod.fst = [columnLabels.1, columnLabels.2]) ∧
      d = fs.foldl (fun d g => Dict.set (Dict.set d g.2.1 ((Dict.get? g.1.arrays columnLabels.1).getD []))
        g.2.2 ((Dict.get? g.1.arrays columnLabels.2).getD [])) [] := by
  cases fs with
  | nil => simp [collapseGrids] at h
  | cons fn rest =>
    obtain ⟨f, n⟩ := fn
    simp only [collapseGrids] at h
    by_cases h1 : (rest.all (fun g => sameMesh f.mesh g.1.mesh)) = false
    · rw [if_pos h1] at h; simp at h
    · rw [if_neg h1] at h
      by_cases h2 : (((f, n) :: rest).any (fun g => decide (g.1.arrays.map Prod.fst ≠ [columnLabels.1, columnLabels.2]))) = true
      · rw [if_pos h2] at h; simp at h
      · rw [if_neg h2] at h
        simp only [Except.ok.injEq, Prod.mk.injEq] at h
        refine ⟨f, n, rest, rfl, h.1.symm, ?_, ?_, ?_⟩
        · simpa using h1
        · intro g hg
          by_contra hne
          exact h2 (List.any_eq_true.2 ⟨g, hg, by simpa using hne⟩)
        · rw [← h.2]; rfl

theorem foldl_names (fs : List (FMesh × Str × Str)) (V E : FMesh → List ℚ) (d : Dict Str (List ℚ)) (k : Str)
    (h : ∀ g ∈ fs, g.2.1 ≠ k ∧ g.2.2 ≠ k) :
    Dict.get? (fs.foldl (fun d g => Dict.set (Dict.set d g.2.1 (V g.1)) g.2.2 (E g.1)) d) k = Dict.get? d k := by
  induction fs generalizing d with
  | nil => rfl
  | cons g fs ih =>
    rw [List.foldl_cons, ih _ (fun g hg => h g (by simp [hg]))]
    have := h g (by simp)
    rw [Dict.get?_set_ne _ _ this.2, Dict.get?_set_ne _ _ this.1]

/-- all the new names (specification) -/
def newNames (fs : List (FMesh × Str × Str)) : List Str := fs.flatMap (fun g => [g.2.1, g.2.2])

theorem foldl_lookup (fs : List (FMesh × Str × Str)) (V E : FMesh → List ℚ) (d : Dict Str (List ℚ))
    (hn : (newNames fs).Nodup) (g : FMesh × Str × Str) (hg : g ∈ fs) :
    Dict.get? (fs.foldl (fun d g => Dict.set (Dict.set d g.2.1 (V g.1)) g.2.2 (E g.1)) d) g.2.1 = some (V g.1) ∧
    Dict.get? (fs.foldl (fun d g => Dict.set (Dict.set d g.2.1 (V g.1)) g.2.2 (E g.1)) d) g.2.2 = some (E g.1) := by
  induction fs generalizing d with
  | nil => simp at hg
  | cons f fs ih =>
    have e : newNames (f :: fs) = f.2.1 :: f.2.2 :: newNames fs := rfl
    rw [e, List.nodup_cons, List.nodup_cons] at hn
    obtain ⟨n1, n2, n3⟩ := hn
    simp only [List.mem_cons, not_or] at n1
    rw [List.foldl_cons]
    rcases List.mem_cons.1 hg with rfl | hg
    · have mem : ∀ g' ∈ fs, g'.2.1 ∈ newNames fs ∧ g'.2.2 ∈ newNames fs := by
        intro g' hg'
        exact ⟨List.mem_flatMap.2 ⟨g', hg', by simp⟩, List.mem_flatMap.2 ⟨g', hg', by simp⟩⟩
      constructor
      · rw [foldl_names fs V E _ g.2.1 (fun g' hg' => ⟨fun h => n1.2 (h ▸ (mem g' hg').1), fun h => n1.2 (h ▸ (mem g' hg').2)⟩)]
        rw [Dict.get?_set_ne _ _ (fun h => n1.1 h.symm), Dict.get?_set, if_pos rfl]
      · rw [foldl_names fs V E _ g.2.2 (fun g' hg' => ⟨fun h => n2 (h ▸ (mem g' hg').1), fun h => n2 (h ▸ (mem g' hg').2)⟩)]
        rw [Dict.get?_set, if_pos rfl]
    · exact ih _ n3 hg

/-- **C69 (fields).** When the grids collapse, the new grid holds for every mesh its values and its errors under
the names asked for, and the meshes have one energy and one time bin each and the same boundaries. -/
theorem collapse_fields_partial {fs : List (FMesh × Str × Str)} {pts : List Vec} {d : Dict Str (List ℚ)}
    (h : collapseGrids fs = .ok (pts, d)) (hn : (newNames fs).Nodup)
    (ha : ∀ g ∈ fs, g.1.arrays = gridArrays g.1.mesh columnLabels ∧ 0 < g.1.mesh.nt ∧ 0 < g.1.mesh.ne)
    {g : FMesh × Str × Str} (hg : g ∈ fs) :
    Dict.get? d g.2.1 = some (ravel g.1.mesh 0 0 Prod.fst) ∧ Dict.get? d g.2.2 = some (ravel g.1.mesh 0 0 Prod.snd) ∧
    g.1.mesh.nt = 1 ∧ g.1.mesh.ne = 1 ∧ ∃ f, (∃ n rest, fs = (f, n) :: rest) ∧ pts = f.points ∧
      f.mesh.shape = g.1.mesh.shape ∧ f.mesh.cyl = g.1.mesh.cyl ∧ Near f.mesh.x1 g.1.mesh.x1 ∧
      Near f.mesh.x2 g.1.mesh.x2 ∧ Near f.mesh.x3 g.1.mesh.x3 := by
  obtain ⟨f, n, rest, hfs, hp, hsame, hnames, hd⟩ := collapse_ok h
  obtain ⟨ga, gt, ge⟩ := ha g hg
  have hlen := congrArg List.length (hnames g hg)
  rw [ga, List.length_map, (grid_complete g.1.mesh columnLabels).1] at hlen
  simp only [List.length_cons, List.length_nil] at hlen
  have hmul : g.1.mesh.nt * g.1.mesh.ne = 1 := by omega
  have ht : g.1.mesh.nt = 1 := Nat.eq_one_of_mul_eq_one_right hmul
  have he : g.1.mesh.ne = 1 := Nat.eq_one_of_mul_eq_one_left hmul
  have harr : g.1.arrays = [(columnLabels.1, ravel g.1.mesh 0 0 Prod.fst), (columnLabels.2, ravel g.1.mesh 0 0 Prod.snd)] := by
    rw [ga]
    unfold gridArrays
    rw [ht, he]
    simp only [loops, List.range_succ, List.range_zero, List.nil_append, List.flatMap_cons, List.flatMap_nil,
      List.append_nil, List.map_cons, List.map_nil, List.getD_cons_zero, List.getD_cons_succ]
    simp [getLabels, lab]
  have hl := foldl_lookup fs (fun g => (Dict.get? g.arrays columnLabels.1).getD [])
    (fun g => (Dict.get? g.arrays columnLabels.2).getD []) [] hn g hg
  rw [← hd, harr] at hl
  refine ⟨hl.1, hl.2, ht, he, f, ⟨n, rest, hfs⟩, hp, ?_⟩
  have hs : sameMesh f.mesh g.1.mesh = true := by
    rw [hfs] at hg
    rcases List.mem_cons.1 hg with rfl | hg
    · exact sameMesh_refl _
    · exact hsame g hg
  obtain ⟨s1, s2, s3, s4, s5⟩ := (sameMesh_iff _ _).1 hs
  exact ⟨s2, s1, s3, s4, s5⟩

/-- **C69 (success).** Meshes with one energy and one time bin each and the boundaries of the first one
(within the tolerance) do collapse, onto the points of the first one. -/
theorem collapse_succeeds {f : FMesh} {n : Str × Str} {rest : List (FMesh × Str × Str)}
    (ha : ∀ g ∈ (f, n) :: rest, g.1.arrays = gridArrays g.1.mesh columnLabels ∧ g.1.mesh.nt = 1 ∧ g.1.mesh.ne = 1)
    (hs : ∀ g ∈ rest, f.mesh.shape = g.1.mesh.shape ∧ f.mesh.cyl = g.1.mesh.cyl ∧ Near f.mesh.x1 g.1.mesh.x1 ∧
      Near f.mesh.x2 g.1.mesh.x2 ∧ Near f.mesh.x3 g.1.mesh.x3) :
    ∃ d, collapseGrids ((f, n) :: rest) = .ok (f.points, d) := by
  have h1 : (rest.all (fun g => sameMesh f.mesh g.1.mesh)) = true := by
    rw [List.all_eq_true]
    intro g hg
    obtain ⟨s1, s2, s3, s4, s5⟩ := hs g hg
    exact (sameMesh_iff _ _).2 ⟨s2, s1, s3, s4, s5⟩
  have h2 : ¬ (((f, n) :: rest).any (fun g => decide (g.1.arrays.map Prod.fst ≠ [columnLabels.1, columnLabels.2]))) = true := by
    rw [List.any_eq_true]
    rintro ⟨g, hg, hne⟩
    rw [decide_eq_true_eq] at hne
    apply hne
    obtain ⟨ga, gt, ge⟩ := ha g hg
    rw [ga]
    unfold gridArrays
    rw [gt, ge]
    simp only [loops, List.range_succ, List.range_zero, List.nil_append, List.flatMap_cons, List.flatMap_nil,
      List.append_nil, List.map_cons, List.map_nil, List.getD_cons_zero, List.getD_cons_succ]
    simp [getLabels, lab]
  simp only [collapseGrids]
  rw [if_neg (by rw [h1]; simp), if_neg h2]
  exact ⟨_, rfl⟩

/-- **C69 fails for the position**: two meshes with the same boundaries, one of them somewhere else, collapse. -/
theorem collapse_elsewhere (cs sn : ℚ → ℚ) : ∃ f g : FMesh,
    mkFmesh cs sn (tinyMesh 0 [0, 1]) none none = .ok f ∧
    mkFmesh cs sn (tinyMesh 0 [0, 1]) (some ⟨⟨1000, 0, 0⟩, ⟨1, 0, 0⟩, ⟨0, 1, 0⟩, ⟨0, 0, 1⟩⟩) none = .ok g ∧
    f.points ≠ g.points ∧
    ∃ d, collapseGrids [(f, "a".toList, "b".toList), (g, "c".toList, "d".toList)] = .ok (f.points, d) := by
  refine ⟨_, _, rfl, rfl, ?_, ?_⟩
  · intro h
    have h1 := rect_point cs sn (m := tinyMesh 0 [0, 1]) none rfl (i := 0) (j := 0) (k := 0) rfl rfl rfl
    have h2 := rect_point cs sn (m := tinyMesh 0 [0, 1]) (some ⟨⟨1000, 0, 0⟩, ⟨1, 0, 0⟩, ⟨0, 1, 0⟩, ⟨0, 0, 1⟩⟩) rfl
      (i := 0) (j := 0) (k := 0) rfl rfl rfl
    simp only at h
    rw [h, h2] at h1
    revert h1
    decide +kernel
  · have hn : (gridArrays (tinyMesh 0 [0, 1]) columnLabels).map Prod.fst = [columnLabels.1, columnLabels.2] := by
      decide +kernel
    simp only [collapseGrids]
    rw [if_neg (by simp [sameMesh_refl]), if_neg (by simp [hn])]
    exact ⟨_, rfl⟩

/-! ### one-dimensional meshes (C71) -/

theorem suffix_nil {nt ne t e : Nat} (ht : t < nt) (he : e < ne) (h : suffix nt ne t e = []) : nt = 1 ∧ ne = 1 := by
  unfold suffix at h
  rw [List.append_eq_nil_iff] at h
  obtain ⟨h1, h2⟩ := h
  constructor
  · by_contra hn
    rw [if_pos (by omega)] at h1; simp at h1
  · by_contra hn
    rw [if_pos (by omega)] at h2; simp at h2

theorem get_labels {m : MeshData} {v : List ℚ} :
    (Dict.get? (gridArrays m columnLabels) columnLabels.1 = some v → m.nt = 1 ∧ m.ne = 1 ∧ v = ravel m 0 0 Prod.fst) ∧
    (Dict.get? (gridArrays m columnLabels) columnLabels.2 = some v → m.nt = 1 ∧ m.ne = 1 ∧ v = ravel m 0 0 Prod.snd) := by
  have ne : ∀ s : Str, columnLabels.1 ≠ columnLabels.2 ++ s ∧ columnLabels.2 ≠ columnLabels.1 ++ s := by
    intro s
    have h1 : columnLabels.1 = 'V' :: columnLabels.1.tail := by decide +kernel
    have h2 : columnLabels.2 = 'E' :: columnLabels.2.tail := by decide +kernel
    rw [h1, h2]
    refine ⟨?_, ?_⟩ <;> intro h <;> injection h with h3 _ <;> revert h3 <;> decide
  constructor <;> intro h
  · obtain ⟨t, e, ht, he, hx | hx⟩ := mem_gridArrays.1 (Dict.mem_of_get? h)
    · simp only [Prod.mk.injEq] at hx
      obtain ⟨a, b⟩ := suffix_nil ht he (List.self_eq_append_right.1 hx.1)
      have t0 : t = 0 := by omega
      have e0 : e = 0 := by omega
      subst t0 e0
      exact ⟨a, b, hx.2⟩
    · simp only [Prod.mk.injEq] at hx
      exact absurd hx.1 (ne _).1
  · obtain ⟨t, e, ht, he, hx | hx⟩ := mem_gridArrays.1 (Dict.mem_of_get? h)
    · simp only [Prod.mk.injEq] at hx
      exact absurd hx.1 (ne _).2
    · simp only [Prod.mk.injEq] at hx
      obtain ⟨a, b⟩ := suffix_nil ht he (List.self_eq_append_right.1 hx.1)
      have t0 : t = 0 := by omega
      have e0 : e = 0 := by omega
      subst t0 e0
      exact ⟨a, b, hx.2⟩

theorem ravel_get {m : MeshData} {t e c b a : Nat} (j : ℚ × ℚ → ℚ) (hc : c < m.nx3) (hb : b < m.nx2) (ha : a < m.nx1) :
    (ravel m t e j)[(c * m.nx2 + b) * m.nx1 + a]? = some (j (m.data [t, e, c, b, a])) := by
  unfold ravel
  have hi : InLoops [m.nx3, m.nx2, m.nx1] [c, b, a] := .cons hc (.cons hb (.cons ha .nil))
  have hr : rank [m.nx3, m.nx2, m.nx1] [c, b, a] = (c * m.nx2 + b) * m.nx1 + a := by
    simp only [rank, List.foldr_cons, List.foldr_nil]
    ring
  rw [← hr, List.getElem?_map, loops_get hi]
  rfl

/-- row `i` of the frame: the upper boundary of bin `i` of the axis and the value and error of the voxel (specification) -/
def RowsAre (m : MeshData) (n : Nat) (bins : List ℚ) (voxel : Nat → List Nat) (idx vals errs : List ℚ) : Prop :=
  ∀ i, i < n → idx[i]? = bins[i + 1]? ∧ vals[i]? = some (m.data (voxel i)).1 ∧ errs[i]? = some (m.data (voxel i)).2

/-- **C71.** When the conversion succeeds, the frame lists the upper boundaries of the only axis with more than
one bin (or of the energies) with the values and errors of its bins. -/
theorem convert_exact {f : FMesh} {col : Str} {idx vals errs : List ℚ}
    (ha : f.arrays = gridArrays f.mesh columnLabels) (h : convert2tally f = .ok (col, idx, vals, errs)) :
    (col = "Energy".toList ∧ f.mesh.nx1 = 1 ∧ f.mesh.nx2 = 1 ∧ idx.length = f.mesh.ne - 1 ∧
      RowsAre f.mesh (f.mesh.ne - 1) f.mesh.ebin.data (fun i => [0, i, 0, 0, 0]) idx vals errs) ∨
    (col = "Cor A".toList ∧ f.mesh.ne = 1 ∧ f.mesh.nt = 1 ∧ f.mesh.nx2 = 1 ∧ (f.mesh.nx3 = 1 ∨ f.mesh.nx3 = 2) ∧
      RowsAre f.mesh f.mesh.nx1 f.mesh.x1 (fun i => [0, 0, 0, 0, i]) idx vals errs) ∨
    (col = "Cor B".toList ∧ f.mesh.ne = 1 ∧ f.mesh.nt = 1 ∧ f.mesh.nx1 = 1 ∧ (f.mesh.nx3 = 1 ∨ f.mesh.nx3 = 2) ∧
      RowsAre f.mesh f.mesh.nx2 f.mesh.x2 (fun i => [0, 0, 0, i, 0]) idx vals errs) ∨
    (col = "Cor C".toList ∧ f.mesh.ne = 1 ∧ f.mesh.nt = 1 ∧ f.mesh.nx1 = 1 ∧ f.mesh.nx2 = 1 ∧
      RowsAre f.mesh f.mesh.nx3 f.mesh.x3 (fun i => [0, 0, i, 0, 0]) idx vals errs) := by
  have grid : ∀ (c : Str) (n : Nat) (bins : List ℚ) (vox : Nat → List Nat),
      (∀ (j : ℚ × ℚ → ℚ) i, i < n → (ravel f.mesh 0 0 j)[i]? = some (j (f.mesh.data (vox i)))) →
      (match Dict.get? f.arrays columnLabels.1 with
        | none => Except.error PyErr.keyError
        | some v =>
          match Dict.get? f.arrays columnLabels.2 with
          | none => Except.error PyErr.keyError
          | some e => if bins.tail.length = (v.take n).length ∧ (v.take n).length = (e.take n).length then
              Except.ok (c, bins.tail, v.take n, e.take n) else Except.error PyErr.valueError) =
        Except.ok (col, idx, vals, errs) →
      col = c ∧ f.mesh.ne = 1 ∧ f.mesh.nt = 1 ∧ RowsAre f.mesh n bins vox idx vals errs := by
    intro c n bins vox hv hh
    rw [ha] at hh
    cases h1 : Dict.get? (gridArrays f.mesh columnLabels) columnLabels.1 with
    | none => rw [h1] at hh; simp at hh
    | some v =>
      rw [h1] at hh
      simp only at hh
      cases h2 : Dict.get? (gridArrays f.mesh columnLabels) columnLabels.2 with
      | none => rw [h2] at hh; simp at hh
      | some e =>
        rw [h2] at hh
        simp only at hh
        obtain ⟨t1, e1, rfl⟩ := get_labels.1 h1
        obtain ⟨_, _, rfl⟩ := get_labels.2 h2
        by_cases hq : bins.tail.length = ((ravel f.mesh 0 0 Prod.fst).take n).length ∧
            ((ravel f.mesh 0 0 Prod.fst).take n).length = ((ravel f.mesh 0 0 Prod.snd).take n).length
        · rw [if_pos hq] at hh
          simp only [Except.ok.injEq, Prod.mk.injEq] at hh
          obtain ⟨rfl, rfl, rfl, rfl⟩ := hh
          refine ⟨rfl, e1, t1, fun i hi => ⟨?_, ?_, ?_⟩⟩
          · rw [List.getElem?_tail]
          · rw [List.getElem?_take_of_lt hi, hv _ i hi]
          · rw [List.getElem?_take_of_lt hi, hv _ i hi]
        · rw [if_neg hq] at hh; simp at hh
  unfold convert2tally at h
  simp only at h
  by_cases c1 : f.mesh.nx1 = 1 ∧ f.mesh.nx2 = 1 ∧ 2 < f.mesh.ebin.data.length
  · rw [if_pos c1] at h
    by_cases c2 : (f.mesh.cyl = true ∧ f.mesh.nx3 = 2) ∨ f.mesh.nx3 = 1
    · rw [if_pos c2] at h
      by_cases c3 : f.mesh.ebin.data.tail.length = ((List.range (f.mesh.ne - 1)).map (fun e => (f.mesh.data [0, e, 0, 0, 0]).1)).length ∧
          ((List.range (f.mesh.ne - 1)).map (fun e => (f.mesh.data [0, e, 0, 0, 0]).1)).length =
          ((List.range (f.mesh.ne - 1)).map (fun e => (f.mesh.data [0, e, 0, 0, 0]).2)).length
      · rw [if_pos c3] at h
        simp only [Except.ok.injEq, Prod.mk.injEq] at h
        obtain ⟨rfl, rfl, rfl, rfl⟩ := h
        refine .inl ⟨rfl, c1.1, c1.2.1, by simpa using c3.1, fun i hi => ⟨?_, ?_, ?_⟩⟩
        · rw [List.getElem?_tail]
        · rw [List.getElem?_map, List.getElem?_range hi]; rfl
        · rw [List.getElem?_map, List.getElem?_range hi]; rfl
      · rw [if_neg c3] at h; simp at h
    · rw [if_neg c2] at h; simp at h
  · rw [if_neg c1] at h
    by_cases c2 : f.mesh.nx1 = 1 ∧ f.mesh.nx2 = 1
    · rw [if_pos c2] at h
      obtain ⟨r1, r2, r3, r4⟩ := grid "Cor C".toList _ _ (fun i => [0, 0, i, 0, 0]) (by
        intro j i hi
        have := ravel_get (m := f.mesh) (t := 0) (e := 0) j hi (show 0 < f.mesh.nx2 by omega) (show 0 < f.mesh.nx1 by omega)
        rw [c2.1, c2.2] at this
        simpa using this) h
      exact .inr (.inr (.inr ⟨r1, r2, r3, c2.1, c2.2, r4⟩))
    · rw [if_neg c2] at h
      by_cases c3 : f.mesh.nx1 = 1 ∧ f.mesh.nx3 = 1
      · rw [if_pos c3] at h
        obtain ⟨r1, r2, r3, r4⟩ := grid "Cor B".toList _ _ (fun i => [0, 0, 0, i, 0]) (by
          intro j i hi
          have := ravel_get (m := f.mesh) (t := 0) (e := 0) j (show 0 < f.mesh.nx3 by omega) hi (show 0 < f.mesh.nx1 by omega)
          rw [c3.1] at this
          simpa using this) h
        exact .inr (.inr (.inl ⟨r1, r2, r3, c3.1, .inl c3.2, r4⟩))
      · rw [if_neg c3] at h
        by_cases c4 : f.mesh.nx2 = 1 ∧ f.mesh.nx3 = 1
        · rw [if_pos c4] at h
          obtain ⟨r1, r2, r3, r4⟩ := grid "Cor A".toList _ _ (fun i => [0, 0, 0, 0, i]) (by
            intro j i hi
            have := ravel_get (m := f.mesh) (t := 0) (e := 0) j (show 0 < f.mesh.nx3 by omega) (show 0 < f.mesh.nx2 by omega) hi
            simpa using this) h
          exact .inr (.inl ⟨r1, r2, r3, c4.1, .inl c4.2, r4⟩)
        · rw [if_neg c4] at h
          by_cases c5 : f.mesh.nx1 = 1 ∧ f.mesh.nx3 = 2 ∧ f.mesh.cyl = true
          · rw [if_pos c5] at h
            obtain ⟨r1, r2, r3, r4⟩ := grid "Cor B".toList _ _ (fun i => [0, 0, 0, i, 0]) (by
              intro j i hi
              have := ravel_get (m := f.mesh) (t := 0) (e := 0) j (show 0 < f.mesh.nx3 by omega) hi (show 0 < f.mesh.nx1 by omega)
              rw [c5.1] at this
              simpa using this) h
            exact .inr (.inr (.inl ⟨r1, r2, r3, c5.1, .inr c5.2.1, r4⟩))
          · rw [if_neg c5] at h
            by_cases c6 : f.mesh.nx2 = 1 ∧ f.mesh.nx3 = 2 ∧ f.mesh.cyl = true
            · rw [if_pos c6] at h
              obtain ⟨r1, r2, r3, r4⟩ := grid "Cor A".toList _ _ (fun i => [0, 0, 0, 0, i]) (by
                intro j i hi
                have := ravel_get (m := f.mesh) (t := 0) (e := 0) j (show 0 < f.mesh.nx3 by omega) (show 0 < f.mesh.nx2 by omega) hi
                simpa using this) h
              exact .inr (.inl ⟨r1, r2, r3, c6.1, .inr c6.2.1, r4⟩)
            · rw [if_neg c6] at h; simp at h

/-- a mesh with several bins along one axis and several energy bins is never converted -/
theorem convert_energies_refused {f : FMesh} (ha : f.arrays = gridArrays f.mesh columnLabels)
    (he : f.mesh.ne ≠ 1) (hx : ¬(f.mesh.nx1 = 1 ∧ f.mesh.nx2 = 1)) : ∃ e, convert2tally f = .error e := by
  cases h : convert2tally f with
  | error e => exact ⟨e, rfl⟩
  | ok r =>
    obtain ⟨col, idx, vals, errs⟩ := r
    rcases convert_exact ha h with h | h | h | h
    · exact absurd ⟨h.2.1, h.2.2.1⟩ hx
    · exact absurd h.2.1 he
    · exact absurd h.2.1 he
    · exact absurd h.2.1 he

/-- along z with several energies the failure is an unassigned variable -/
theorem convert_z_energies {f : FMesh} (h1 : f.mesh.nx1 = 1) (h2 : f.mesh.nx2 = 1)
    (he : 2 < f.mesh.ebin.data.length) (h3 : 2 < f.mesh.nx3) : convert2tally f = .error .unboundLocal := by
  unfold convert2tally
  simp only
  rw [if_pos ⟨h1, h2, he⟩, if_neg (by omega)]

/-- one-dimensional sample -/
example : ((mkFmesh id id { tinyMesh 0 [0, 1] with x2 := [0, 1, 5], data := fun i => ((i.getD 3 0 : ℚ), 7) } none none).bind
    convert2tally).toOption = some ("Cor B".toList, [1, 5], [0, 1], [7, 7]) := by
  decide +kernel

/-! ### information (C70) -/

/-- **C70 fails** for every mesh whose axes differ, and holds only for the others -/
theorem info_wrong (m : MeshData) : infoBins m = (m.x1, m.x2, m.x3) ↔ m.x2 = m.x1 ∧ m.x3 = m.x1 := by
  unfold infoBins
  simp only [Prod.mk.injEq, true_and]
  exact ⟨fun h => ⟨h.1.symm, h.2.symm⟩, fun h => ⟨h.1.symm, h.2.symm⟩⟩

/-! ### transformation cards (C72) -/

/-- the card is used if it is a transformation card with 4 or 13 numbers and, with 13, its matrix is regular -/
theorem transform_refused (cosd : ℚ → ℚ) (tr : TrCard) (pts : List Vec)
    (h : tr.isTr = false ∨ (tr.nvalues ≠ 4 ∧ tr.nvalues ≠ 13)) : applyTransformation cosd tr pts = .error .valueError := by
  unfold applyTransformation
  by_cases h1 : tr.isTr = false
  · rw [if_pos h1]
  · rw [if_neg h1, if_pos (h.resolve_left h1)]

/-- **C72 (translation).** A card with four numbers moves every point by the displacement. -/
theorem translation_exact (cosd : ℚ → ℚ) (tr : TrCard) (pts : List Vec) (h : tr.isTr = true) (h4 : tr.nvalues = 4) :
    applyTransformation cosd tr pts = .ok (pts.map (fun p => p.add tr.o)) := by
  unfold applyTransformation
  rw [if_neg (by simp [h]), if_neg (by simp [h4]), if_neg (by simp [h4])]

/-- unit rows at right angles (specification) -/
def Orthonormal (b : Vec × Vec × Vec) : Prop :=
  b.1.dot b.1 = 1 ∧ b.2.1.dot b.2.1 = 1 ∧ b.2.2.dot b.2.2 = 1 ∧ b.1.dot b.2.1 = 0 ∧ b.1.dot b.2.2 = 0 ∧
  b.2.1.dot b.2.2 = 0

/-- the inverse of the transposed matrix is what the name says: its rows are dual to the rows of the matrix -/
theorem invTranspose_dual {b : Vec × Vec × Vec} (h : det b ≠ 0) :
    (invTranspose b).1.dot b.1 = 1 ∧ (invTranspose b).1.dot b.2.1 = 0 ∧ (invTranspose b).1.dot b.2.2 = 0 ∧
    (invTranspose b).2.1.dot b.1 = 0 ∧ (invTranspose b).2.1.dot b.2.1 = 1 ∧ (invTranspose b).2.1.dot b.2.2 = 0 ∧
    (invTranspose b).2.2.dot b.1 = 0 ∧ (invTranspose b).2.2.dot b.2.1 = 0 ∧ (invTranspose b).2.2.dot b.2.2 = 1 := by
  obtain ⟨⟨a1, a2, a3⟩, ⟨b1, b2, b3⟩, ⟨c1, c2, c3⟩⟩ := b
  simp only [invTranspose, Vec.dot, Vec.cross]
  have D : det (⟨a1, a2, a3⟩, ⟨b1, b2, b3⟩, ⟨c1, c2, c3⟩) =
      a1 * (b2 * c3 - b3 * c2) + a2 * (b3 * c1 - b1 * c3) + a3 * (b1 * c2 - b2 * c1) := by
    simp only [det, Vec.dot, Vec.cross]
  generalize det (⟨a1, a2, a3⟩, ⟨b1, b2, b3⟩, ⟨c1, c2, c3⟩) = d at *
  refine ⟨?_, ?_, ?_, ?_, ?_, ?_, ?_, ?_, ?_⟩ <;> field_simp <;> first | ring1 | (rw [D]; ring1)

theorem det_sq_one {b : Vec × Vec × Vec} (h : Orthonormal b) : det b * det b = 1 := by
  obtain ⟨⟨a1, a2, a3⟩, ⟨b1, b2, b3⟩, ⟨c1, c2, c3⟩⟩ := b
  obtain ⟨h1, h2, h3, h4, h5, h6⟩ := h
  simp only [Vec.dot] at h1 h2 h3 h4 h5 h6
  have gram : det (⟨a1, a2, a3⟩, ⟨b1, b2, b3⟩, ⟨c1, c2, c3⟩) * det (⟨a1, a2, a3⟩, ⟨b1, b2, b3⟩, ⟨c1, c2, c3⟩) =
      (a1 * a1 + a2 * a2 + a3 * a3) * ((b1 * b1 + b2 * b2 + b3 * b3) * (c1 * c1 + c2 * c2 + c3 * c3) -
        (b1 * c1 + b2 * c2 + b3 * c3) ^ 2) -
      (a1 * b1 + a2 * b2 + a3 * b3) * ((a1 * b1 + a2 * b2 + a3 * b3) * (c1 * c1 + c2 * c2 + c3 * c3) -
        (b1 * c1 + b2 * c2 + b3 * c3) * (a1 * c1 + a2 * c2 + a3 * c3)) +
      (a1 * c1 + a2 * c2 + a3 * c3) * ((a1 * b1 + a2 * b2 + a3 * b3) * (b1 * c1 + b2 * c2 + b3 * c3) -
        (b1 * b1 + b2 * b2 + b3 * b3) * (a1 * c1 + a2 * c2 + a3 * c3)) := by
    simp only [det, Vec.dot, Vec.cross]; ring
  rw [gram, h1, h2, h3, h4, h5, h6]; ring

/-- a vector at given projections on orthonormal rows -/
theorem orthonormal_expand {b : Vec × Vec × Vec} (h : Orthonormal b) (hd : det b ≠ 0) :
    invTranspose b = b := by
  obtain ⟨d1, d2, d3, d4, d5, d6, d7, d8, d9⟩ := invTranspose_dual hd
  obtain ⟨h1, h2, h3, h4, h5, h6⟩ := h
  -- two vectors with the same products with three independent ones are equal
  have uniq : ∀ u v : Vec, u.dot b.1 = v.dot b.1 → u.dot b.2.1 = v.dot b.2.1 → u.dot b.2.2 = v.dot b.2.2 → u = v := by
    intro u v e1 e2 e3
    obtain ⟨⟨a1, a2, a3⟩, ⟨b1, b2, b3⟩, ⟨c1, c2, c3⟩⟩ := b
    obtain ⟨u1, u2, u3⟩ := u
    obtain ⟨v1, v2, v3⟩ := v
    simp only [Vec.dot] at e1 e2 e3
    simp only [det, Vec.dot, Vec.cross] at hd
    simp only [Vec.mk.injEq]
    refine ⟨?_, ?_, ?_⟩
    · apply mul_left_cancel₀ hd
      linear_combination (b2 * c3 - b3 * c2) * e1 + (c2 * a3 - c3 * a2) * e2 + (a2 * b3 - a3 * b2) * e3
    · apply mul_left_cancel₀ hd
      linear_combination (b3 * c1 - b1 * c3) * e1 + (c3 * a1 - c1 * a3) * e2 + (a3 * b1 - a1 * b3) * e3
    · apply mul_left_cancel₀ hd
      linear_combination (b1 * c2 - b2 * c1) * e1 + (c1 * a2 - c2 * a1) * e2 + (a1 * b2 - a2 * b1) * e3
  have comm : ∀ u v : Vec, u.dot v = v.dot u := by intro u v; simp only [Vec.dot]; ring
  refine Prod.ext ?_ (Prod.ext ?_ ?_)
  · exact uniq _ _ (by rw [d1, h1]) (by rw [d2, h4]) (by rw [d3, h5])
  · exact uniq _ _ (by rw [d4, comm, h4]) (by rw [d5, h2]) (by rw [d6, h6])
  · exact uniq _ _ (by rw [d7, comm, h5]) (by rw [d8, comm, h6]) (by rw [d9, h3])

/-- squared distance (specification) -/
def dist2 (p q : Vec) : ℚ := (p.sub q).dot (p.sub q)

theorem mulVec_isometry {b : Vec × Vec × Vec} (h : Orthonormal b) (p q : Vec) :
    dist2 (mulVec b p) (mulVec b q) = dist2 p q := by
  have hd : det b * det b = 1 := det_sq_one h
  have hd0 : det b ≠ 0 := by intro h0; rw [h0] at hd; simp at hd
  have hb := orthonormal_expand h hd0
  obtain ⟨⟨a1, a2, a3⟩, ⟨b1, b2, b3⟩, ⟨c1, c2, c3⟩⟩ := b
  -- the columns are orthonormal too: row i = cofactor row i / det
  simp only [invTranspose, Vec.cross, Prod.mk.injEq, Vec.mk.injEq] at hb
  obtain ⟨⟨x1, x2, x3⟩, ⟨y1, y2, y3⟩, ⟨z1, z2, z3⟩⟩ := hb
  rw [div_eq_iff hd0] at x1 x2 x3 y1 y2 y3 z1 z2 z3
  have D : det (⟨a1, a2, a3⟩, ⟨b1, b2, b3⟩, ⟨c1, c2, c3⟩) =
      a1 * (b2 * c3 - b3 * c2) + a2 * (b3 * c1 - b1 * c3) + a3 * (b1 * c2 - b2 * c1) := by
    simp only [det, Vec.dot, Vec.cross]
  generalize hdd : det (⟨a1, a2, a3⟩, ⟨b1, b2, b3⟩, ⟨c1, c2, c3⟩) = d at *
  have n1 : a1 * a1 + b1 * b1 + c1 * c1 = 1 := by
    apply mul_left_cancel₀ hd0
    linear_combination -a1 * x1 - b1 * y1 - c1 * z1 - D
  have n2 : a2 * a2 + b2 * b2 + c2 * c2 = 1 := by
    apply mul_left_cancel₀ hd0
    linear_combination -a2 * x2 - b2 * y2 - c2 * z2 - D
  have n3 : a3 * a3 + b3 * b3 + c3 * c3 = 1 := by
    apply mul_left_cancel₀ hd0
    linear_combination -a3 * x3 - b3 * y3 - c3 * z3 - D
  have n4 : a1 * a2 + b1 * b2 + c1 * c2 = 0 := by
    apply mul_left_cancel₀ hd0
    linear_combination -a1 * x2 - b1 * y2 - c1 * z2
  have n5 : a1 * a3 + b1 * b3 + c1 * c3 = 0 := by
    apply mul_left_cancel₀ hd0
    linear_combination -a1 * x3 - b1 * y3 - c1 * z3
  have n6 : a2 * a3 + b2 * b3 + c2 * c3 = 0 := by
    apply mul_left_cancel₀ hd0
    linear_combination -a2 * x3 - b2 * y3 - c2 * z3
  obtain ⟨p1, p2, p3⟩ := p
  obtain ⟨q1, q2, q3⟩ := q
  simp only [dist2, mulVec, Vec.sub, Vec.dot]
  linear_combination (p1 - q1) ^ 2 * n1 + (p2 - q2) ^ 2 * n2 + (p3 - q3) ^ 2 * n3 +
    2 * (p1 - q1) * (p2 - q2) * n4 + 2 * (p1 - q1) * (p3 - q3) * n5 + 2 * (p2 - q2) * (p3 - q3) * n6

/-- the matrix of a card: its rows, or the cosines of its angles for a `*TR` card (specification) -/
def cardMatrix (cosd : ℚ → ℚ) (tr : TrCard) : Vec × Vec × Vec :=
  if tr.star then
    (⟨cosd tr.rows.1.x, cosd tr.rows.1.y, cosd tr.rows.1.z⟩,
     ⟨cosd tr.rows.2.1.x, cosd tr.rows.2.1.y, cosd tr.rows.2.1.z⟩,
     ⟨cosd tr.rows.2.2.x, cosd tr.rows.2.2.y, cosd tr.rows.2.2.z⟩)
  else tr.rows

/-- **C72 (rotation).** A card with thirteen numbers whose matrix is orthonormal moves the grid rigidly: the
origin goes to the displacement, all distances are kept, and every point `p` goes to `B p + o`. -/
theorem rototranslation_rigid (cosd : ℚ → ℚ) (tr : TrCard) (pts : List Vec) (h : tr.isTr = true)
    (h13 : tr.nvalues = 13) (ho : Orthonormal (cardMatrix cosd tr)) :
    ∃ g : Vec → Vec, applyTransformation cosd tr pts = .ok (pts.map g) ∧ g Vec.zero = tr.o ∧
      (∀ p q, dist2 (g p) (g q) = dist2 p q) ∧ ∀ p, g p = (mulVec (cardMatrix cosd tr) p).add tr.o := by
  have hd : det (cardMatrix cosd tr) ≠ 0 := by
    intro h0
    have := det_sq_one ho
    rw [h0] at this; simp at this
  have key : applyTransformation cosd tr pts =
      .ok (pts.map (fun p => (mulVec (cardMatrix cosd tr) p).add tr.o)) := by
    unfold applyTransformation
    rw [if_neg (by simp [h]), if_neg (by simp [h13]), if_pos h13]
    simp only
    have e : ((if tr.star = true then (⟨cosd tr.rows.1.x, cosd tr.rows.1.y, cosd tr.rows.1.z⟩ : Vec) else tr.rows.1),
        (if tr.star = true then (⟨cosd tr.rows.2.1.x, cosd tr.rows.2.1.y, cosd tr.rows.2.1.z⟩ : Vec) else tr.rows.2.1),
        (if tr.star = true then (⟨cosd tr.rows.2.2.x, cosd tr.rows.2.2.y, cosd tr.rows.2.2.z⟩ : Vec) else tr.rows.2.2)) =
        cardMatrix cosd tr := by
      unfold cardMatrix
      by_cases hs : tr.star = true
      · simp only [hs, if_true]
      · simp only [hs]; rfl
    rw [e, if_neg hd, orthonormal_expand ho hd]
  refine ⟨_, key, ?_, ?_, fun p => rfl⟩
  · obtain ⟨⟨o1, o2, o3⟩⟩ : ∃ o, o = tr.o := ⟨_, rfl⟩
    simp only [mulVec, Vec.zero, Vec.dot, Vec.add, mul_zero, add_zero, zero_add]
  · intro p q
    rw [← mulVec_isometry ho p q]
    simp only [dist2, Vec.sub, Vec.add, Vec.dot]
    ring

/-- a quarter turn about z and a displacement -/
example : Orthonormal (cardMatrix id { isTr := true, nvalues := 13, star := false, o := ⟨1, 2, 3⟩
                                       rows := (⟨0, 1, 0⟩, ⟨-1, 0, 0⟩, ⟨0, 0, 1⟩) }) ∧
    applyTransformation id { isTr := true, nvalues := 13, star := false, o := ⟨1, 2, 3⟩
                             rows := (⟨0, 1, 0⟩, ⟨-1, 0, 0⟩, ⟨0, 0, 1⟩) } [⟨1, 0, 0⟩] = .ok [⟨1, 1, 3⟩] := by
  refine ⟨?_, by decide +kernel⟩
  simp only [Orthonormal, cardMatrix, Vec.dot]
  norm_num

end F4Enix.Mesh
