import Verif.Base.Text
import Mathlib.Algebra.Order.Field.Rat
import Mathlib.Data.Rat.Floor
/-!
# Model of `src/f4enix/input/ww_gvr/utils.py`

`numpy` arrays of floats are lists of rationals (exact arithmetic). The three vectors of a
`Vectors` object are treated alike by every function, so the functions are modelled on one vector.
-/
namespace F4Enix.WW
open F4Enix

/-- `int(x)` on a float: truncation towards zero. (Python, utils.py:12-64) -/
def truncQ (q : ℚ) : ℤ := q.num.tdiv q.den

/-- `np.insert(v, 1, 1.0)`: `IndexError` on an empty vector (utils.py:42) -/
def insertOne (v : List ℚ) : Except PyErr (List ℚ) :=
  match v with
  | [] => .error .indexError
  | x :: xs => .ok (x :: 1 :: xs)

/-- `[v[i] for i in range(len(v)) if i % 3 == 0]` (utils.py:43) -/
def coarseOf (v : List ℚ) : List ℚ :=
  ((List.range v.length).filter (fun i => i % 3 = 0)).filterMap (fun i => v[i]?)

/-- `[int(v[j + 2]) for j in range(len(v)) if j % 3 == 0 and j + 2 < len(v)]` (utils.py:44-50) -/
def fineOf (v : List ℚ) : List ℤ :=
  ((List.range v.length).filter (fun j => j % 3 = 0 ∧ j + 2 < v.length)).filterMap
    (fun j => (v[j + 2]?).map truncQ)

/-- `decompose_b2_vectors` (utils.py:12-64) on one vector -/
def decompose (v : List ℚ) : Except PyErr (List ℚ × List ℤ) :=
  match insertOne v with
  | .error e => .error e
  | .ok w => .ok (coarseOf w, fineOf w)

/-- the loop of `compose_b2_vectors` (utils.py:85-88) over `i in range(len(coarse) - 1)`;
`IndexError` if there are not enough fine counts -/
def composeLoop : List ℚ → List ℤ → Except PyErr (List ℚ)
  | [], _ => .ok []
  | [_], _ => .ok []
  | _ :: _ :: _, [] => .error .indexError
  | c :: c' :: cs, f :: fs =>
    match composeLoop (c' :: cs) fs with
    | .error e => .error e
    | .ok r => .ok (c :: 1 :: (f : ℚ) :: r)

/-- `compose_b2_vectors` (utils.py:67-99) on one vector: append the last coarse point and a marker
`1`, then `remove(1)`, i.e. delete the first element equal to `1`. `coarse_vector[-1]` raises
`IndexError` on an empty vector. -/
def compose (coarse : List ℚ) (fine : List ℤ) : Except PyErr (List ℚ) :=
  match composeLoop coarse fine with
  | .error e => .error e
  | .ok r =>
    match coarse.getLast? with
    | none => .error .indexError
    | some l => .ok ((r ++ [l, 1]).erase 1)

/-- `np.linspace(a, b, num).tolist()` for `num ≥ 0` (numpy, utils.py:102-138) -/
def linspace (a b : ℚ) (num : Nat) : List ℚ :=
  (List.range num).map
    (fun (i : Nat) => if num = 1 then a else a + (i : ℚ) * ((b - a) / ((num : ℚ) - 1)))

/-- the loop of `build_1d_vectors` (utils.py:127-130): `linspace(c_i, c_{i+1}, f_i + 1)[1:]`;
`ValueError` for a negative number of points, `IndexError` if a count is missing -/
def buildLoop : List ℚ → List ℤ → Except PyErr (List ℚ)
  | [], _ => .ok []
  | [_], _ => .ok []
  | _ :: _ :: _, [] => .error .indexError
  | c :: c' :: cs, f :: fs =>
    if f + 1 < 0 then .error .valueError
    else
      match buildLoop (c' :: cs) fs with
      | .error e => .error e
      | .ok r => .ok ((linspace c c' (f + 1).toNat).tail ++ r)

/-- `build_1d_vectors` (utils.py:102-138) on one vector -/
def build1d (coarse : List ℚ) (fine : List ℤ) : Except PyErr (List ℚ) :=
  match coarse with
  | [] => .error .indexError
  | c :: cs =>
    match buildLoop (c :: cs) fine with
    | .error e => .error e
    | .ok r => .ok (c :: r)

/-- `Geometry.i_ints` (geometry.py:181-193): `np.sum(fine)` -/
def ints (fine : List ℤ) : ℤ := fine.sum

/-- `Geometry.i_coarse_ints` (geometry.py:196-208): `len(coarse) - 1` -/
def coarseInts (coarse : List ℚ) : ℤ := (coarse.length : ℤ) - 1

end F4Enix.WW
