import Verif.Inp.Model
import Mathlib.Logic.Relation
/-!
# Specifications for the properties of `MCNPinput.py`
-/
namespace F4Enix.Inp
open F4Enix

/-- Cell `a` directly needs cell `b`: `b` is referred to by a complement on the card of `a`, or (when
fillers are followed) `a` is filled with a universe to which `b` belongs. (specification) -/
def Needs (cells : Dict Str Card) (fillers : Bool) (a b : ℤ) : Prop :=
  ∃ c, cells.get? (intStr a) = some c ∧
    ((b, Kind.cel) ∈ c.values.tail ∨
      (fillers = true ∧ ∃ f k c', c.fill = some f ∧ (k, c') ∈ cells ∧ c'.univ = some f ∧
        (c'.values.head?).map Prod.fst = some b))

/-- `b` is one of the requested cells or is needed, directly or not, by one of them. (specification) -/
def Closure (cells : Dict Str Card) (fillers : Bool) (requested : List ℤ) (b : ℤ) : Prop :=
  ∃ a ∈ requested, Relation.ReflTransGen (Needs cells fillers) a b

/-- No cell needs itself through other cells (a cell may name itself directly). (specification) -/
def Acyclic (cells : Dict Str Card) (fillers : Bool) : Prop :=
  ∀ a b, a ≠ b → Needs cells fillers a b → ¬ Relation.ReflTransGen (Needs cells fillers) b a

end F4Enix.Inp
