import Verif.Base.Text
import Mathlib.Data.Rat.Defs
/-!
# The attributes of a mesh tally that a user can set (C215)

The setters of `Fmesh` (src/f4enix/output/meshtal/fmesh.py:301-364).
-/
namespace F4Enix.FmeshAttr
open F4Enix

/-- a Python value, as far as `isinstance` tells values apart here; a float of numpy with 64 bits is a `float`, a Boolean an `int`,
all other numbers of numpy are `other` (Python) -/
inductive PyVal where
  | none
  | text (s : Str)
  | bool (b : Bool)
  | int (z : ℤ)
  | float (q : ℚ)
  | other (n : ℕ)
  deriving DecidableEq

/-- `isinstance(value, (str, type(None)))` (fmesh.py:310, 323, 336) -/
def PyVal.isText : PyVal → Bool
  | .none => true
  | .text _ => true
  | _ => false

/-- `value is None or isinstance(value, (float, int))` (fmesh.py:349, 362) -/
def PyVal.isNumber : PyVal → Bool
  | .none => true
  | .bool _ => true
  | .int _ => true
  | .float _ => true
  | _ => false

/-- the five attributes (fmesh.py:301-364) -/
inductive Attr where
  | type | comments | particle | strength | cooling
  deriving DecidableEq

/-- their values (fmesh.py:278-285) -/
structure Attrs where
  type : PyVal := .none
  comments : PyVal := .none
  particle : PyVal := .none
  strength : PyVal := .none
  cooling : PyVal := .none
  deriving DecidableEq

/-- the getters (fmesh.py:301-355) -/
def Attrs.get (a : Attrs) : Attr → PyVal
  | .type => a.type
  | .comments => a.comments
  | .particle => a.particle
  | .strength => a.strength
  | .cooling => a.cooling

/-- the setters (fmesh.py:308-366): what is left behind, and whether there was a `TypeError` -/
def Attrs.assign (a : Attrs) (k : Attr) (v : PyVal) : Attrs × Option PyErr :=
  match k with
  | .type => if v.isText then ({ a with type := v }, none) else (a, some .typeError)
  | .comments => if v.isText then ({ a with comments := v }, none) else (a, some .typeError)
  | .particle => if v.isText then ({ a with particle := v }, none) else (a, some .typeError)
  | .strength => if v.isNumber then ({ a with strength := v }, none) else (a, some .typeError)
  | .cooling => if v.isNumber then ({ a with cooling := v }, none) else (a, some .typeError)

/-- assignments in a row, each of which may fail (fmesh.py:308-366) -/
def Attrs.run (a : Attrs) : List (Attr × PyVal) → Attrs
  | [] => a
  | (k, v) :: h => (a.assign k v).1.run h

/-- what may be assigned to an attribute: a text or nothing, a number or nothing (specification) -/
def Fits : Attr → PyVal → Prop
  | .type, v | .comments, v | .particle, v => v = .none ∨ ∃ s, v = .text s
  | .strength, v | .cooling, v => v = .none ∨ (∃ b, v = .bool b) ∨ (∃ z, v = .int z) ∨ ∃ q, v = .float q

theorem isText_iff (v : PyVal) : v.isText = true ↔ v = .none ∨ ∃ s, v = .text s := by
  cases v <;> simp [PyVal.isText]

theorem isNumber_iff (v : PyVal) :
    v.isNumber = true ↔ v = .none ∨ (∃ b, v = .bool b) ∨ (∃ z, v = .int z) ∨ ∃ q, v = .float q := by
  cases v <;> simp [PyVal.isNumber]

instance (k : Attr) (v : PyVal) : Decidable (Fits k v) :=
  match k with
  | .type | .comments | .particle => decidable_of_iff _ (isText_iff v)
  | .strength | .cooling => decidable_of_iff _ (isNumber_iff v)

/-- C215: a value that fits is taken and leaves the other attributes; any other value is a `TypeError` and changes nothing. -/
theorem assign_spec (a : Attrs) (k : Attr) (v : PyVal) :
    (Fits k v → (a.assign k v).2 = none ∧ (a.assign k v).1.get k = v ∧ ∀ k', k' ≠ k → (a.assign k v).1.get k' = a.get k') ∧
    (¬ Fits k v → a.assign k v = (a, some .typeError)) := by
  cases k <;> simp only [Fits, ← isText_iff, ← isNumber_iff, Attrs.assign] <;>
    refine ⟨fun h => ?_, fun h => by rw [if_neg h]⟩ <;> rw [if_pos h] <;>
    refine ⟨rfl, rfl, fun k' hk => ?_⟩ <;> cases k' <;> first | rfl | exact absurd rfl hk

/-- C215: after any number of assignments, refused ones included, an attribute holds the last value that was given to it and fits, or what
it held before. -/
theorem run_spec (a : Attrs) (h : List (Attr × PyVal)) (k : Attr) :
    (a.run h).get k = ((h.filter (fun e => decide (e.1 = k ∧ Fits k e.2))).getLast?.map Prod.snd).getD (a.get k) := by
  induction h generalizing a with
  | nil => rfl
  | cons e h ih =>
    obtain ⟨k', v⟩ := e
    show ((a.assign k' v).1.run h).get k = _
    rw [ih]
    by_cases hf : Fits k' v
    · obtain ⟨-, h1, h2⟩ := (assign_spec a k' v).1 hf
      by_cases hk : k' = k
      · subst hk
        rw [List.filter_cons, if_pos (by simp [hf]), h1]
        cases hl : (h.filter (fun e => decide (e.1 = k' ∧ Fits k' e.2))) with
        | nil => rfl
        | cons x l => rw [List.getLast?_cons_cons]; simp [List.getLast?_cons]
      · rw [List.filter_cons, if_neg (by simp [hk]), h2 k (Ne.symm hk)]
    · rw [(assign_spec a k' v).2 hf, List.filter_cons, if_neg (by
        simp only [decide_eq_true_eq, not_and]
        rintro rfl
        exact hf)]

/-- C215: the attributes always hold what their types say. -/
theorem run_fits (a : Attrs) (ha : ∀ k, Fits k (a.get k)) (h : List (Attr × PyVal)) (k : Attr) : Fits k ((a.run h).get k) := by
  rw [run_spec]
  cases hl : (h.filter (fun e => decide (e.1 = k ∧ Fits k e.2))).getLast? with
  | none => exact ha k
  | some e =>
    have := List.mem_of_getLast? hl
    rw [List.mem_filter, decide_eq_true_eq] at this
    exact this.2.2

/-- a new mesh holds nothing in all five (fmesh.py:280-285) -/
theorem new_fits (k : Attr) : Fits k (({} : Attrs).get k) := by
  cases k <;> exact Or.inl rfl

/-- a refused assignment between two accepted ones (example) -/
example : (({} : Attrs).run [(.strength, .float 2), (.strength, .text "3".toList), (.particle, .text "neutron".toList), (.particle, .int 1)]).get .strength =
    .float 2 := by decide +kernel

end F4Enix.FmeshAttr
