import Verif.Out.Meshtal
import Verif.Base.TextLemmas
import Mathlib.Tactic.NormNum
import Mathlib.Tactic.Ring
/-!
# Theorems about mesh selection, labels and comparison (C37-C39)
-/
namespace F4Enix.Mesh
open F4Enix

/-! ### C37: selection -/

/-- position meant by an optional Python index on an axis of `n` bins: `none` keeps the position `i` of
the new mesh, a negative index counts from the end (specification) -/
def position (n : Nat) (sel : Option ℤ) (i : Nat) : Nat :=
  match sel with
  | none => i
  | some k => (if k < 0 then k + n else k).toNat

/-- is the index acceptable? (specification) -/
def InRange (n : Nat) (sel : Option ℤ) : Prop := ∀ k, sel = some k → -(n : ℤ) ≤ k ∧ k < n

theorem binIndex_ok {n : Nat} {i : ℤ} (h : -(n : ℤ) ≤ i ∧ i < n) :
    binIndex n i = .ok (if i < 0 then i + n else i).toNat ∧ (if i < 0 then i + n else i).toNat < n := by
  unfold binIndex
  split_ifs with h1 h2 h3 <;> first | (refine ⟨rfl, ?_⟩; omega) | omega

theorem binIndex_refused {n : Nat} {i : ℤ} (h : ¬(-(n : ℤ) ≤ i ∧ i < n)) : binIndex n i = .error .typeError := by
  unfold binIndex
  split_ifs <;> first | rfl | omega

theorem count_select (b : EBin) (i : Nat) (h : i < b.count) : (selectBin b i).count = 1 := by
  obtain ⟨data, tag, ex⟩ := b
  cases tag <;> simp only [EBin.count, EBin.bound, EBin.total, selectBin] at h ⊢ <;>
    split_ifs at h ⊢ <;> simp_all <;> (try split_ifs at * <;> simp_all) <;> omega

/-- the boundaries (or the value) of the selected bin -/
theorem selectBin_bins (b : EBin) (i : Nat) (h : i < b.count) :
    (selectBin b i).tag = b.tag ∧
    (b.bound = true → b.total = true → i + 1 = b.count → (selectBin b i).data = [b.data.headD 0, b.data.getLastD 0]) ∧
    (b.bound = true → ¬(b.total = true ∧ i + 1 = b.count) →
      ∃ lo hi, b.data[i]? = some lo ∧ b.data[i + 1]? = some hi ∧ (selectBin b i).data = [lo, hi]) ∧
    (b.bound = false → ¬(b.total = true ∧ i + 1 = b.count) →
      ∃ x, b.data[i]? = some x ∧ (selectBin b i).data = [x]) := by
  refine ⟨?_, ?_, ?_, ?_⟩
  · unfold selectBin; split_ifs <;> rfl
  · intro h1 h2 h3
    unfold selectBin
    rw [if_pos ⟨h2, h3⟩, if_pos h1]
  · intro h1 h2
    have hl : i + 1 < b.data.length := by
      obtain ⟨data, tag, ex⟩ := b
      cases tag <;> simp only [EBin.count, EBin.bound, EBin.total] at h h1 h2 ⊢ <;>
        first | (simp at h1; done) | (split_ifs at h h2 <;> simp_all <;> omega)
    refine ⟨b.data[i], b.data[i + 1], List.getElem?_eq_getElem (by omega), List.getElem?_eq_getElem hl, ?_⟩
    unfold selectBin
    rw [if_neg h2, if_pos h1]
    simp only
    rw [List.drop_eq_getElem_cons (by omega), List.drop_eq_getElem_cons hl]
    rfl
  · intro h1 h2
    have hl : i < b.data.length := by
      obtain ⟨data, tag, ex⟩ := b
      cases tag <;> simp only [EBin.count, EBin.bound, EBin.total] at h h1 h2 ⊢ <;>
        first | (simp at h1; done) | (split_ifs at h h2 <;> simp_all <;> omega)
    refine ⟨b.data[i], List.getElem?_eq_getElem hl, ?_⟩
    unfold selectBin
    rw [if_neg h2, if_neg (by simp [h1])]
    simp only
    rw [List.drop_eq_getElem_cons hl]
    rfl

/-- the bins of an axis after an optional selection (proof) -/
def newBin (b : EBin) : Option ℤ → EBin
  | none => b
  | some k => selectBin b (position b.count (some k) 0)

theorem axisSelect_ok {b : EBin} {sel : Option ℤ} (h : InRange b.count sel) :
    axisSelect b sel = .ok (position b.count sel 0, newBin b sel) := by
  cases sel with
  | none => rfl
  | some k =>
    have := (binIndex_ok (h k rfl)).1
    simp only [axisSelect]
    rw [this]
    rfl

theorem axisSelect_refused {b : EBin} {sel : Option ℤ} (h : ¬ InRange b.count sel) :
    axisSelect b sel = .error .typeError := by
  cases sel with
  | none => exact absurd (fun k hk => by simp at hk) h
  | some k =>
    have hk : ¬(-(b.count : ℤ) ≤ k ∧ k < b.count) := by
      intro hk
      exact h (fun j hj => by cases hj; exact hk)
    simp only [axisSelect]
    rw [binIndex_refused hk]

/-- **C37 (refusal).** The selection succeeds exactly when both indices are in range, and raises
`TypeError` otherwise. -/
theorem etbin_refused (junk : Data) (m : MeshData) (eb tb : Option ℤ) :
    ((∃ m', getEtbin junk m eb tb = .ok m') ↔ InRange m.ne eb ∧ InRange m.nt tb) ∧
    (¬(InRange m.ne eb ∧ InRange m.nt tb) → getEtbin junk m eb tb = .error .typeError) := by
  unfold getEtbin
  by_cases h1 : InRange m.ebin.count eb
  · rw [axisSelect_ok h1]
    by_cases h2 : InRange m.tbin.count tb
    · rw [axisSelect_ok h2]
      exact ⟨⟨fun _ => ⟨h1, h2⟩, fun _ => ⟨_, rfl⟩⟩, fun h => absurd ⟨h1, h2⟩ h⟩
    · rw [axisSelect_refused h2]
      exact ⟨⟨fun ⟨m', h⟩ => by simp at h, fun h => absurd h.2 h2⟩, fun _ => rfl⟩
  · rw [axisSelect_refused h1]
    exact ⟨⟨fun ⟨m', h⟩ => by simp at h, fun h => absurd h.1 h1⟩, fun _ => rfl⟩

theorem position_lt {n : Nat} {sel : Option ℤ} (h : InRange n sel) (hs : sel ≠ none) (i : Nat) :
    position n sel i < n := by
  cases sel with
  | none => exact absurd rfl hs
  | some k => exact (binIndex_ok (h k rfl)).2

/-- **C37 (data).** The new mesh has one bin on every axis with an index and all the bins on the others,
the same geometry, and holds at every bin exactly the data of the selected bin of the old mesh. -/
theorem etbin_data {junk : Data} {m m' : MeshData} {eb tb : Option ℤ} (h : getEtbin junk m eb tb = .ok m') :
    m'.cyl = m.cyl ∧ m'.x1 = m.x1 ∧ m'.x2 = m.x2 ∧ m'.x3 = m.x3 ∧
    m'.ne = (if eb = none then m.ne else 1) ∧ m'.nt = (if tb = none then m.nt else 1) ∧
    (eb = none → m'.ebin = m.ebin) ∧ (tb = none → m'.tbin = m.tbin) ∧
    (∀ k, eb = some k → m'.ebin = selectBin m.ebin (position m.ne eb 0)) ∧
    (∀ k, tb = some k → m'.tbin = selectBin m.tbin (position m.nt tb 0)) ∧
    ∀ t e c b a, t < m'.nt → e < m'.ne →
      m'.data [t, e, c, b, a] = m.data [position m.nt tb t, position m.ne eb e, c, b, a] := by
  obtain ⟨r1, r2⟩ := (etbin_refused junk m eb tb).1.1 ⟨m', h⟩
  have hE : (newBin m.ebin eb).count =
      (if eb = none then m.ne else 1) := by
    cases eb with
    | none => rfl
    | some k => exact count_select _ _ (position_lt r1 (by simp) 0)
  have hT : (newBin m.tbin tb).count =
      (if tb = none then m.nt else 1) := by
    cases tb with
    | none => rfl
    | some k => exact count_select _ _ (position_lt r2 (by simp) 0)
  unfold getEtbin at h
  rw [axisSelect_ok r1] at h
  simp only at h
  rw [axisSelect_ok r2] at h
  simp only [Except.ok.injEq] at h
  have pE : ∀ i, eb ≠ none → position m.ebin.count eb i = position m.ebin.count eb 0 := by
    intro i hi
    cases eb with
    | none => exact absurd rfl hi
    | some k => rfl
  have pT : ∀ i, tb ≠ none → position m.tbin.count tb i = position m.tbin.count tb 0 := by
    intro i hi
    cases tb with
    | none => exact absurd rfl hi
    | some k => rfl
  subst h
  refine ⟨rfl, rfl, rfl, rfl, hE, hT, ?_, ?_, ?_, ?_, ?_⟩
  · rintro rfl; rfl
  · rintro rfl; rfl
  · rintro k rfl; rfl
  · rintro k rfl; rfl
  · intro t e c b a ht he
    simp only [MeshData.nt, MeshData.ne] at ht he
    simp only
    rw [hE] at he
    rw [hT] at ht
    rw [hE, hT]
    by_cases he0 : eb = none <;> by_cases ht0 : tb = none
    · rw [if_pos he0] at he ⊢
      rw [if_pos ht0] at ht ⊢
      have e1 : position m.ne eb e = e := by rw [he0]; rfl
      have e2 : position m.nt tb t = t := by rw [ht0]; rfl
      have e3 : position m.ebin.count eb 0 = 0 := by rw [he0]; rfl
      have e4 : position m.tbin.count tb 0 = 0 := by rw [ht0]; rfl
      rw [e1, e2, e3, e4]
      split_ifs with q1 q2 q3 q4 q5 q6
      · rw [q2.1, q2.2]
      · omega
      · rw [q4]
      · omega
      · rw [q6]
      · omega
      · rfl
    · rw [if_pos he0] at he ⊢
      rw [if_neg ht0] at ht ⊢
      have e1 : position m.ne eb e = e := by rw [he0]; rfl
      have e2 : position m.nt tb t = position m.tbin.count tb 0 := pT t ht0
      have e3 : position m.ebin.count eb 0 = 0 := by rw [he0]; rfl
      rw [e1, e2, e3]
      have t0 : t = 0 := by omega
      split_ifs with q1 q2 q3 q4 q5 <;> first | omega | (exact absurd rfl q5) | skip
      · rw [q2.2]
      · rfl
      all_goals simp_all
    · rw [if_neg he0] at he ⊢
      rw [if_pos ht0] at ht ⊢
      have e1 : position m.ne eb e = position m.ebin.count eb 0 := pE e he0
      have e2 : position m.nt tb t = t := by rw [ht0]; rfl
      have e4 : position m.tbin.count tb 0 = 0 := by rw [ht0]; rfl
      rw [e1, e2, e4]
      have t0 : e = 0 := by omega
      split_ifs with q1 q2 q3 q4 q5 <;> first | omega | skip
      · rw [q2.1]
      · rfl
      all_goals simp_all
    · rw [if_neg he0] at he ⊢
      rw [if_neg ht0] at ht ⊢
      have e1 : position m.ne eb e = position m.ebin.count eb 0 := pE e he0
      have e2 : position m.nt tb t = position m.tbin.count tb 0 := pT t ht0
      rw [e1, e2, if_pos ⟨rfl, rfl⟩, if_pos (by omega)]

/-! ### C39: same mesh -/

/-- two lists of boundaries nowhere differ by more than the tolerance (specification) -/
def Near (a b : List ℚ) : Prop := ∀ (i : Nat) (x y : ℚ), a[i]? = some x → b[i]? = some y → |x - y| ≤ 1 / 1000000000000

theorem farApart_iff (a b : List ℚ) : farApart a b = false ↔ Near a b := by
  unfold farApart Near
  induction a generalizing b with
  | nil => simp
  | cons x a ih =>
    cases b with
    | nil => simp
    | cons y b =>
      simp only [List.zipWith_cons_cons, List.any_cons, id, Bool.or_eq_false_iff, decide_eq_false_iff_not, not_lt]
      rw [ih]
      constructor
      · rintro ⟨h1, h2⟩ i p q hp hq
        cases i with
        | zero => simp at hp hq; rw [← hp, ← hq]; exact h1
        | succ i => exact h2 i p q (by simpa using hp) (by simpa using hq)
      · intro h
        exact ⟨h 0 x y rfl rfl, fun i p q hp hq => h (i + 1) p q (by simpa using hp) (by simpa using hq)⟩

/-- **C39.** Two meshes are the same exactly when they have the same kind of geometry, the same numbers
of bins and no boundary differs by more than the tolerance. -/
theorem sameMesh_iff (m n : MeshData) : sameMesh m n = true ↔
    m.cyl = n.cyl ∧ m.shape = n.shape ∧ Near m.x1 n.x1 ∧ Near m.x2 n.x2 ∧ Near m.x3 n.x3 := by
  unfold sameMesh
  rw [← farApart_iff, ← farApart_iff, ← farApart_iff]
  by_cases h1 : m.cyl = n.cyl <;> by_cases h2 : m.shape = n.shape <;> cases h3 : farApart m.x1 n.x1 <;>
    cases h4 : farApart m.x2 n.x2 <;> cases h5 : farApart m.x3 n.x3 <;> simp_all

theorem sameMesh_refl (m : MeshData) : sameMesh m m = true := by
  rw [sameMesh_iff]
  have : ∀ a : List ℚ, Near a a := by
    intro a i x y hx hy
    rw [hx] at hy
    cases hy
    norm_num
  exact ⟨rfl, rfl, this _, this _, this _⟩

theorem sameMesh_symm (m n : MeshData) : sameMesh m n = sameMesh n m := by
  have : ∀ m n, sameMesh m n = true → sameMesh n m = true := by
    intro m n h
    rw [sameMesh_iff] at h ⊢
    have hs : ∀ a b : List ℚ, Near a b → Near b a := by
      intro a b h i x y hx hy
      have := h i y x hy hx
      rwa [abs_sub_comm] at this
    exact ⟨h.1.symm, h.2.1.symm, hs _ _ h.2.2.1, hs _ _ h.2.2.2.1, hs _ _ h.2.2.2.2⟩
  cases h1 : sameMesh m n <;> cases h2 : sameMesh n m <;> simp_all

/-- a small mesh with the boundary `d` on the first axis and the energies `es` (example) -/
def tinyMesh (d : ℚ) (es : List ℚ) : MeshData :=
  { cyl := false, x1 := [0, 1 + d], x2 := [0, 1], x3 := [0, 1], ebin := { data := es, tag := .erg }
    tbin := { data := [0, 100], tag := .tme }, data := fun _ => (1, 0) }

/-- the relation is not transitive, and it does not look at the energies -/
theorem sameMesh_limits : sameMesh (tinyMesh 0 [0, 1]) (tinyMesh (1 / 1000000000000) [0, 1]) = true ∧
    sameMesh (tinyMesh (1 / 1000000000000) [0, 1]) (tinyMesh (2 / 1000000000000) [0, 1]) = true ∧
    sameMesh (tinyMesh 0 [0, 1]) (tinyMesh (2 / 1000000000000) [0, 1]) = false ∧
    sameMesh (tinyMesh 0 [0, 1]) (tinyMesh 0 [0, 20]) = true := by
  decide +kernel

/-- a selection that is not trivial: three energy bins and a total, the second-last and the last bin -/
example : (getEtbin (fun _ => (0, 0)) { tinyMesh 0 [0, 1, 2, 3] with data := fun i => ((i.getD 1 0 : ℚ), 0) }
      (some (-2)) none).toOption.map (fun m => (m.ebin.data, m.data [0, 0, 0, 0, 0])) = some ([2, 3], (2, 0)) ∧
    (getEtbin (fun _ => (0, 0)) { tinyMesh 0 [0, 1, 2, 3] with data := fun i => ((i.getD 1 0 : ℚ), 0) }
      (some 3) none).toOption.map (fun m => (m.ebin.data, m.data [0, 0, 0, 0, 0])) = some ([0, 3], (3, 0)) ∧
    (getEtbin (fun _ => (0, 0)) (tinyMesh 0 [0, 1, 2, 3]) (some 4) none).toOption.isNone = true ∧
    (getEtbin (fun _ => (0, 0)) (tinyMesh 0 [0, 1, 2, 3]) (some (-5)) none).toOption.isNone = true := by
  decide +kernel

end F4Enix.Mesh
