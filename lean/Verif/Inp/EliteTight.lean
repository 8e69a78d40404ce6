import Verif.Inp.EliteProps
/-!
# Boundary planes: which plane a card describes, and the angles tried (C97-C99)
-/
namespace F4Enix.Elite
open F4Enix

variable {K : Type} [Field K] [LinearOrder K]

/-- the plane `{x | a x + b y + c z = d}` of a card in MCNP: `P a b c d`, `PX d`, `PY d`, `PZ d` (specification) -/
def planeSet (s : Surf K) (x : K × K × K) : Prop :=
  match s.stype, s.coefs with
  | .p, a :: b :: c :: d :: _ => a * x.1 + b * x.2.1 + c * x.2.2 = d
  | .px, d :: _ => x.1 = d
  | .py, d :: _ => x.2.1 = d
  | .pz, d :: _ => x.2.2 = d
  | _, _ => False

omit [LinearOrder K] in
/-- the normal and constant taken from a card describe the plane of the card; for planes normal to an axis the normal is
the unit vector -/
theorem planeOf_plane {s : Surf K} {n : K × K × K} {d : K} (h : planeOf s = some (.ok (n, d))) :
    (∀ x : K × K × K, planeSet s x ↔ n.1 * x.1 + n.2.1 * x.2.1 + n.2.2 * x.2.2 = d) ∧
    (s.stype = .px → n = (1, 0, 0)) ∧ (s.stype = .py → n = (0, 1, 0)) ∧ (s.stype = .pz → n = (0, 0, 1)) := by
  unfold planeOf at h
  unfold planeSet
  split at h <;> simp_all <;> obtain ⟨rfl, rfl⟩ := h <;> simp

omit [LinearOrder K] in
/-- a plane card with too few numbers is an `IndexError`; only planes are looked at -/
theorem planeOf_short {s : Surf K} : (planeOf s = none ↔ s.stype = .other) ∧
    (planeOf s = some (.error .indexError) ↔
      (s.stype = .p ∧ s.coefs.length < 4) ∨ ((s.stype = .px ∨ s.stype = .py ∨ s.stype = .pz) ∧ s.coefs = [])) := by
  obtain ⟨num, st, cs, tr, stars, last⟩ := s
  cases st <;> rcases cs with _ | ⟨a, _ | ⟨b, _ | ⟨c, _ | ⟨d, l⟩⟩⟩⟩ <;> simp [planeOf]

/-- each angle is tried with the opposite one, taken from `(0, 360]` -/
theorem withReverse_angles (angles : List ℤ) :
    (∀ x, x ∈ withReverse angles ↔ ∃ a ∈ angles, x = a ∨ (180 < a ∧ x = a - 180) ∨ (a ≤ 180 ∧ x = a + 180)) ∧
    (withReverse angles).length = 2 * angles.length := by
  constructor
  · intro x
    simp only [withReverse, List.mem_flatMap, List.mem_cons, List.not_mem_nil, or_false]
    constructor
    · rintro ⟨a, ha, h⟩
      refine ⟨a, ha, ?_⟩
      split at h <;> omega
    · rintro ⟨a, ha, h⟩
      refine ⟨a, ha, ?_⟩
      split <;> omega
  · induction angles with
    | nil => rfl
    | cons a l ih =>
      simp only [withReverse, List.flatMap_cons, List.length_append, List.length_cons, List.length_nil] at ih ⊢
      omega

/-- a plane through the origin with a transformation that is not there is a `KeyError`; with a pure translation it is no
boundary -/
theorem isBoundary_trans {e : Env K} {tol : K} {angle : ℤ} {s : Surf K} {n : K × K × K} {d : K} {t : ℕ}
    (h : planeOf s = some (.ok (n, d))) (hd : 0 - tol ≤ d ∧ d ≤ 0 + tol) (ht : s.tr = some t) :
    (e.trans t = none → isBoundary e tol angle s = .error .keyError) ∧
    (e.trans t = some none → isBoundary e tol angle s = .ok false) := by
  have hc : checkTol tol [(d, 0)] = true := by simpa [checkTol] using hd
  constructor <;> intro he <;> unfold isBoundary <;> rw [h] <;> simp [hc, ht, he]

example : planeOf (⟨3, .py, [5], none, 0, 5⟩ : Surf ℚ) = some (.ok ((0, 1, 0), 5)) := by decide +kernel

end F4Enix.Elite
