import Verif.Base.Text
import Mathlib.Algebra.Order.Field.Rat
/-!
# Model of `src/f4enix/input/ww_gvr/ratios_calculation.py`

3-D `numpy` arrays of finite floats are a shape and a row-major list of rationals (exact
arithmetic; overflow and rounding are in WW/Floats.lean). IEEE division by zero, infinities and `nan`
are modelled (`Fl`), because the code produces and filters them.
-/
namespace F4Enix.WW
open F4Enix

/-- A 3-D array of shape `(nk, nj, ni)`, data in row-major (C) order. (numpy) -/
structure Arr3 where
  nk : Nat
  nj : Nat
  ni : Nat
  data : List ℚ
  deriving DecidableEq

namespace Arr3

/-- the data fits the shape (specification) -/
def WF (a : Arr3) : Prop := a.data.length = a.nk * a.nj * a.ni

instance (a : Arr3) : Decidable a.WF := inferInstanceAs (Decidable (_ = _))

/-- row-major offset of `a[k, j, i]` (numpy) -/
def idx (a : Arr3) (k j i : Nat) : Nat := (k * a.nj + j) * a.ni + i

/-- `a[k, j, i]`; `none` outside the array (numpy) -/
def get (a : Arr3) (k j i : Nat) : Option ℚ :=
  if k < a.nk ∧ j < a.nj ∧ i < a.ni then a.data[a.idx k j i]? else none

/-- the array of the given shape filled by `f k j i`: the three nested `prange` loops, whose
iterations are independent (each writes its own element) (numpy, ratios_calculation.py:10-34) -/
def tab (nk nj ni : Nat) (f : Nat → Nat → Nat → ℚ) : Arr3 :=
  { nk := nk, nj := nj, ni := ni
    data := (List.range (nk * nj * ni)).map (fun p => f (p / (nj * ni)) (p / ni % nj) (p % ni)) }

/-- an element-wise numpy operation (numpy) -/
def map (f : ℚ → ℚ) (a : Arr3) : Arr3 := { a with data := a.data.map f }

end Arr3

/-- IEEE floats: finite (exact), the two infinities, not-a-number. Signed zeros are identified. (Python) -/
inductive Fl where
  | fin (q : ℚ)
  | pinf
  | ninf
  | nan
  deriving DecidableEq

namespace Fl

/-- IEEE division (numpy ufunc semantics: no exception). Simplification: a zero divisor counts as
`+0.0`, which is what `np.zeros` and non-negative data contain. (numpy, ratios_calculation.py:63-77) -/
def div : Fl → Fl → Fl
  | .nan, _ => .nan
  | _, .nan => .nan
  | .fin a, .fin b =>
    if b = 0 then (if a = 0 then .nan else if 0 < a then .pinf else .ninf) else .fin (a / b)
  | .fin _, .pinf => .fin 0
  | .fin _, .ninf => .fin 0
  | .pinf, .fin b => if 0 ≤ b then .pinf else .ninf
  | .ninf, .fin b => if 0 ≤ b then .ninf else .pinf
  | _, _ => .nan

/-- `x < 1` (ratios_calculation.py:63-77) -/
def ltOne : Fl → Bool
  | .fin a => a < 1
  | .ninf => true
  | _ => false

/-- `ratios[np.isfinite(ratios)]` on one element (ratios_calculation.py:63-77) -/
def finite? : Fl → Option ℚ
  | .fin a => some a
  | _ => none

end Fl

/-- `_find_neighbour_values` (ratios_calculation.py:36-60), the index list -/
def neighbourIndices (k j i : ℤ) : List (ℤ × ℤ × ℤ) :=
  [(k, j, i + 1), (k, j, i - 1), (k, j + 1, i), (k, j - 1, i), (k + 1, j, i), (k - 1, j, i)]

/-- one neighbour: its value if all three indices are valid, otherwise the `0.0` of `np.zeros`
(ratios_calculation.py:49-58) -/
def neighbourValue (a : Arr3) (p : ℤ × ℤ × ℤ) : ℚ :=
  if p.1 < 0 ∨ p.1 ≥ a.nk then 0
  else if p.2.1 < 0 ∨ p.2.1 ≥ a.nj then 0
  else if p.2.2 < 0 ∨ p.2.2 ≥ a.ni then 0
  else (a.get p.1.toNat p.2.1.toNat p.2.2.toNat).getD 0

/-- `_find_neighbour_values` (ratios_calculation.py:36-60) -/
def findNeighbours (a : Arr3) (k j i : Nat) : List ℚ :=
  (neighbourIndices k j i).map (neighbourValue a)

/-- `np.where(ratios < 1, 1 / ratios, ratios)` on `np.divide(value, neighbour)`
(ratios_calculation.py:67-70) -/
def ratioOf (value n : ℚ) : Fl :=
  let r := Fl.div (.fin value) (.fin n)
  if r.ltOne then Fl.div (.fin 1) r else r

/-- `_calculate_max_ratio_from_neighbours` (ratios_calculation.py:63-78): `np.max` of the finite
ratios, or 1 if there is none -/
def maxRatioFrom (value : ℚ) (ns : List ℚ) : ℚ :=
  match ns.filterMap (fun n => (ratioOf value n).finite?) with
  | [] => 1
  | r :: rs => rs.foldl max r

/-- `calculate_max_ratio_array` (ratios_calculation.py:9-33) -/
def maxRatioArray (a : Arr3) : Arr3 :=
  Arr3.tab a.nk a.nj a.ni (fun k j i => maxRatioFrom ((a.get k j i).getD 0) (findNeighbours a k j i))

end F4Enix.WW
