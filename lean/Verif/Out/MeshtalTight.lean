import Verif.Out.MeshtalGridProps
import Verif.Out.MeshtalLabels
import Mathlib.Tactic.Linarith
/-!
# Further theorems about mesh tallies

Written after edits of the model had survived the first theorems: the number of bins in terms of the
boundaries, and the exact outcome of reading the transformation line.
-/
namespace F4Enix.Mesh
open F4Enix

/-- **C38** (bins from boundaries) For axes with `n1 + 1`, `n2 + 1` and `n3 + 1` boundaries every
array has `n3 * n2 * n1` numbers; the one at `(c * n2 + b) * n1 + a` is that of the voxel between
boundaries `a` and `a + 1`, `b` and `b + 1`, `c` and `c + 1`. -/
theorem array_boundaries (m : MeshData) (l : Str × Str) (hl : l.1 ≠ l.2) {n1 n2 n3 : Nat}
    (h1 : m.x1.length = n1 + 1) (h2 : m.x2.length = n2 + 1) (h3 : m.x3.length = n3 + 1)
    {t e : Nat} (ht : t < m.nt) (he : e < m.ne) :
    (∃ v, (l.1 ++ suffix m.nt m.ne t e, v) ∈ gridArrays m l ∧ v.length = n3 * (n2 * n1)) ∧
    (∃ v, (l.2 ++ suffix m.nt m.ne t e, v) ∈ gridArrays m l ∧ v.length = n3 * (n2 * n1)) ∧
    ∀ x ∈ gridArrays m l,
      (x.1 = l.1 ++ suffix m.nt m.ne t e → ∀ c b a, c < n3 → b < n2 → a < n1 →
        x.2[(c * n2 + b) * n1 + a]? = some (m.data [t, e, c, b, a]).1) ∧
      (x.1 = l.2 ++ suffix m.nt m.ne t e → ∀ c b a, c < n3 → b < n2 → a < n1 →
        x.2[(c * n2 + b) * n1 + a]? = some (m.data [t, e, c, b, a]).2) := by
  have e1 : m.nx1 = n1 := by unfold MeshData.nx1; omega
  have e2 : m.nx2 = n2 := by unfold MeshData.nx2; omega
  have e3 : m.nx3 = n3 := by unfold MeshData.nx3; omega
  obtain ⟨_, hc⟩ := grid_complete m l
  have ha : ∀ x, x ∈ gridArrays m l → _ := fun x hx => array_exact m l hl ht he (x := x) hx
  rw [e1, e2, e3] at hc
  simp only [e1, e2, e3] at ha
  exact ⟨(hc t e ht he).1, (hc t e ht he).2, ha⟩

/-- **C66** (reading the axis, MCNP6) For a unit axis the reading succeeds and keeps the origin, the
reference direction, the axis and their cross product. -/
theorem transformation_mcnp6 (o a v : Vec) (ha : a.dot a = 1) :
    getTransformation o a (some v) = .ok (some ⟨o, v, a.cross v, a⟩) := by
  unfold getTransformation
  simp only
  rw [if_neg]
  intro h
  rw [Bool.and_eq_true, decide_eq_true_eq, decide_eq_true_eq, abs_lt, abs_lt] at h
  obtain ⟨⟨hz, _⟩, ⟨hx, _⟩⟩ := h
  have hd : a.x * a.x + a.y * a.y + a.z * a.z = 1 := ha
  nlinarith [mul_self_nonneg a.y]

/-- **C66** (reading the axis, MCNP5) For an axis along z the reading succeeds; there is no
transformation exactly if the origin is at zero (within `1e-12`), otherwise it is the translation to
the origin, without rotation. -/
theorem transformation_mcnp5 (o a : Vec) (ha : |a.z - 1| < 1 / 1000000000000) :
    (o.dot o < 1 / 1000000000000000000000000 → getTransformation o a none = .ok none) ∧
    (1 / 1000000000000000000000000 ≤ o.dot o → getTransformation o a none =
      .ok (some ⟨o, ⟨1, 0, 0⟩, ⟨0, 1, 0⟩, ⟨0, 0, 1⟩⟩)) := by
  unfold getTransformation
  simp only
  rw [if_pos (by simpa using ha)]
  refine ⟨fun h => by rw [if_pos (by simpa using h)], fun h => by rw [if_neg (by simpa using h)]⟩

/-- **C66** (rectangular source meshes) The line is accepted exactly if the mesh is not moved and its
first two axes are x and y (within `1e-12`). -/
theorem transformation_rec_iff (o vx vy : Vec) :
    (getTransformationRec o vx vy = .ok none ↔
      |vx.x - 1| < 1 / 1000000000000 ∧ |vy.y - 1| < 1 / 1000000000000 ∧
        o.dot o < 1 / 1000000000000000000000000) ∧
    (¬ (|vx.x - 1| < 1 / 1000000000000 ∧ |vy.y - 1| < 1 / 1000000000000 ∧
        o.dot o < 1 / 1000000000000000000000000) →
      getTransformationRec o vx vy = .error .unboundLocal) := by
  unfold getTransformationRec
  refine ⟨⟨fun h => ?_, fun h => by rw [if_pos h]⟩, fun h => by rw [if_neg h]⟩
  by_contra hn
  rw [if_neg hn] at h
  cases h

example : getTransformation ⟨-50, -50, -50⟩ ⟨1, 0, 0⟩ (some ⟨0, 0, 1⟩) =
    .ok (some ⟨⟨-50, -50, -50⟩, ⟨0, 0, 1⟩, ⟨0, -1, 0⟩, ⟨1, 0, 0⟩⟩) := by decide +kernel
example : (⟨3/5, 0, 4/5⟩ : Vec).dot ⟨3/5, 0, 4/5⟩ = 1 := by decide +kernel

end F4Enix.Mesh
