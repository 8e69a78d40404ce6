import Verif.Base.Text
import Mathlib.Data.List.Forall2
import Mathlib.Data.Rat.Defs
import Mathlib.Algebra.Order.Field.Basic
import Mathlib.Tactic.Linarith
import Mathlib.Tactic.NormNum
/-!
# Equality of the vectors of a mesh (`Vectors.__eq__`, models.py:40-48)
-/
namespace F4Enix.WW
open F4Enix

/-- `np.testing.assert_array_almost_equal` of two arrays of one dimension raises nothing: the same length, and all differences below `1.5e-6`
(numpy, models.py:40-48) -/
def almostEqual (a b : List ℚ) : Bool :=
  decide (a.length = b.length) && (a.zip b).all (fun p => decide (|p.1 - p.2| < 3 / 2000000))

/-- the vectors of a mesh (models.py:26-36) -/
structure Vecs where
  i : List ℚ
  j : List ℚ
  k : List ℚ
  deriving DecidableEq, Repr

/-- `Vectors.__eq__` (models.py:40-48) -/
def Vecs.eq (a b : Vecs) : Bool := almostEqual a.i b.i && almostEqual a.j b.j && almostEqual a.k b.k

/-- the same number of boundaries, each within `1.5e-6` of the other (specification) -/
def NearLists (a b : List ℚ) : Prop := List.Forall₂ (fun x y => |x - y| < 3 / 2000000) a b

theorem almostEqual_iff (a b : List ℚ) : almostEqual a b = true ↔ NearLists a b := by
  unfold almostEqual NearLists
  simp only [Bool.and_eq_true, decide_eq_true_eq, List.all_eq_true]
  induction a generalizing b with
  | nil =>
    cases b with
    | nil => simp
    | cons y b => simp
  | cons x a ih =>
    cases b with
    | nil => simp
    | cons y b =>
      rw [List.forall₂_cons, ← ih b]
      simp only [List.length_cons, Nat.add_right_cancel_iff, List.zip_cons_cons, List.mem_cons, forall_eq_or_imp]
      tauto

/-- **C204** (what equality is). Two groups of vectors are equal exactly when they have the same numbers of boundaries and each boundary is within
`1.5e-6` of its counterpart. -/
theorem vecs_eq_iff (a b : Vecs) : a.eq b = true ↔ NearLists a.i b.i ∧ NearLists a.j b.j ∧ NearLists a.k b.k := by
  unfold Vecs.eq
  simp only [Bool.and_eq_true, almostEqual_iff]
  tauto

theorem nearLists_refl (a : List ℚ) : NearLists a a := List.forall₂_same.2 (fun x _ => by simp)

theorem nearLists_symm {a b : List ℚ} (h : NearLists a b) : NearLists b a := by
  unfold NearLists at *
  induction h with
  | nil => exact .nil
  | cons h _ ih => exact .cons (by rwa [abs_sub_comm]) ih

/-- **C204 (partial).** Vectors with the same boundaries are equal, equality goes both ways, and vectors with different numbers of boundaries are not
equal. -/
theorem vecs_eq_partial (a b : Vecs) :
    (a = b → a.eq b = true) ∧ a.eq b = b.eq a ∧
      (a.eq b = true → a.i.length = b.i.length ∧ a.j.length = b.j.length ∧ a.k.length = b.k.length) := by
  refine ⟨?_, ?_, ?_⟩
  · rintro rfl
    exact (vecs_eq_iff a a).2 ⟨nearLists_refl _, nearLists_refl _, nearLists_refl _⟩
  · rw [Bool.eq_iff_iff, vecs_eq_iff, vecs_eq_iff]
    exact ⟨fun h => ⟨nearLists_symm h.1, nearLists_symm h.2.1, nearLists_symm h.2.2⟩, fun h => ⟨nearLists_symm h.1, nearLists_symm h.2.1, nearLists_symm h.2.2⟩⟩
  · intro h
    obtain ⟨h1, h2, h3⟩ := (vecs_eq_iff a b).1 h
    exact ⟨h1.length_eq, h2.length_eq, h3.length_eq⟩

/-- **C204 fails** (different meshes are equal). All meshes of the same size with boundaries below `7.5e-7` are equal to each other. -/
theorem vecs_small_equal {a b : Vecs} (hi : a.i.length = b.i.length) (hj : a.j.length = b.j.length) (hk : a.k.length = b.k.length)
    (ha : ∀ x, x ∈ a.i ∨ x ∈ a.j ∨ x ∈ a.k → |x| < 3 / 4000000) (hb : ∀ x, x ∈ b.i ∨ x ∈ b.j ∨ x ∈ b.k → |x| < 3 / 4000000) : a.eq b = true := by
  have key : ∀ l l' : List ℚ, l.length = l'.length → (∀ x ∈ l, |x| < 3 / 4000000) → (∀ x ∈ l', |x| < 3 / 4000000) → NearLists l l' := by
    intro l
    induction l with
    | nil =>
      intro l' h _ _
      cases l' with
      | nil => exact .nil
      | cons => simp at h
    | cons x l ih =>
      intro l' h h1 h2
      cases l' with
      | nil => simp at h
      | cons y l' =>
        refine .cons ?_ (ih l' (by simpa using h) (fun x hx => h1 x (List.mem_cons_of_mem _ hx)) (fun x hx => h2 x (List.mem_cons_of_mem _ hx)))
        have a1 := abs_lt.1 (h1 x (by simp))
        have a2 := abs_lt.1 (h2 y (by simp))
        rw [abs_lt]
        constructor <;> linarith [a1.1, a1.2, a2.1, a2.2]
  refine (vecs_eq_iff a b).2 ⟨key _ _ hi ?_ ?_, key _ _ hj ?_ ?_, key _ _ hk ?_ ?_⟩
  · exact fun x hx => ha x (Or.inl hx)
  · exact fun x hx => hb x (Or.inl hx)
  · exact fun x hx => ha x (Or.inr (Or.inl hx))
  · exact fun x hx => hb x (Or.inr (Or.inl hx))
  · exact fun x hx => ha x (Or.inr (Or.inr hx))
  · exact fun x hx => hb x (Or.inr (Or.inr hx))

/-- **C204 fails** (no equivalence). For every mesh with a boundary there are two others, the first equal to it, the second equal to the first, but not to
the mesh. -/
theorem vecs_not_transitive {a : Vecs} {x : ℚ} {l : List ℚ} (h : a.i = x :: l) :
    ∃ b c : Vecs, a.eq b = true ∧ b.eq c = true ∧ a.eq c = false := by
  refine ⟨{ a with i := (x + 1 / 1000000) :: l }, { a with i := (x + 2 / 1000000) :: l }, ?_, ?_, ?_⟩
  · rw [vecs_eq_iff]
    refine ⟨?_, nearLists_refl _, nearLists_refl _⟩
    rw [h]
    refine .cons ?_ (nearLists_refl l)
    rw [abs_lt]
    constructor <;> linarith
  · rw [vecs_eq_iff]
    refine ⟨.cons ?_ (nearLists_refl l), nearLists_refl _, nearLists_refl _⟩
    rw [abs_lt]
    constructor <;> linarith
  · rw [Bool.eq_false_iff]
    intro hn
    rw [vecs_eq_iff] at hn
    have h1 := hn.1
    rw [h] at h1
    obtain ⟨h2, -⟩ := List.forall₂_cons.1 h1
    rw [abs_lt] at h2
    linarith [h2.1]

/-- two meshes of angstroms, one ten times the other, are equal; two of metres that differ by a millimetre are not -/
example : Vecs.eq ⟨[0, 1 / 10 ^ 8], [0, 1 / 10 ^ 8], [0, 1 / 10 ^ 8]⟩ ⟨[0, 1 / 10 ^ 7], [0, 1 / 10 ^ 7], [0, 1 / 10 ^ 7]⟩ = true ∧
    Vecs.eq ⟨[0, 100], [0, 100], [0, 100]⟩ ⟨[0, 100], [0, 1001 / 10], [0, 100]⟩ = false := by decide +kernel

end F4Enix.WW
