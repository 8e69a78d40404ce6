import Verif.Base.Tokens
import Verif.Base.Dict
import Verif.Base.Find
import Mathlib.Algebra.Order.Field.Basic
import Mathlib.Data.Rat.Floor
/-!
# Model of `src/f4enix/output/cuv_sampling_error.py`

Numbers are those of an ordered field; the square root and `float()` are parameters. A file is the list of its lines;
reading behind the end gives the empty text. A negative number to the power 0.5 is a complex number in Python; the model
stops there with `notFinite`.
-/
namespace F4Enix.CuvErr
open F4Enix

variable {K : Type} [Field K] [LinearOrder K]

/-- `calculate_volume_sampling_error` (cuv_sampling_error.py:62-67) -/
def samplingError (sqrt : K → K) (p : K) (n : ℤ) : Except PyErr K :=
  if n = 0 then .error .zeroDivision
  else if (p - p ^ 2) / (n : K) < 0 then .error .notFinite
  else if p = 0 then .error .zeroDivision
  else .ok (sqrt ((p - p ^ 2) / (n : K)) / p)

/-- the errors of the cells of a voxel (cuv_sampling_error.py:48-54): errors by cell, lines left -/
def readCells (sqrt : K → K) (pf : Str → Option K) (pts : ℤ) : Nat → Dict ℤ K → List Str → Except PyErr (Dict ℤ K × List Str)
  | 0, d, ls => .ok (d, ls)
  | n + 1, d, ls =>
    match tokens (ls.headD []) with
    | [] => .error .indexError
    | w :: ws =>
      match parseInt w with
      | none => .error .valueError
      | some c =>
        match ws with
        | [] => .error .indexError
        | v :: _ =>
          match pf v with
          | none => .error .valueError
          | some p =>
            match samplingError sqrt p pts with
            | .error e => .error e
            | .ok e => readCells sqrt pf pts n (Dict.set d c e) ls.tail

/-- `_read_voxel` (cuv_sampling_error.py:41-59) -/
def readVoxel (sqrt : K → K) (pf : Str → Option K) (pts : ℤ) (ls : List Str) : Except PyErr (ℤ × Dict ℤ K × List Str) :=
  match tokens (ls.headD []) with
  | [] => .error .indexError
  | w :: ws =>
    match parseInt w with
    | none => .error .valueError
    | some v =>
      match ws[4]? with
      | none => .error .indexError
      | some m =>
        match parseInt m with
        | none => .error .valueError
        | some n =>
          match readCells sqrt pf pts n.toNat [] ls.tail with
          | .error e => .error e
          | .ok (d, ls') => .ok (v - 1, d, ls'.drop (2 * n.toNat))

/-- `_read_cuv_data` (cuv_sampling_error.py:26-38): an `IndexError` ends the loop; the number of lines bounds the rounds -/
def readData (sqrt : K → K) (pf : Str → Option K) (pts : ℤ) : Nat → Dict ℤ (Dict ℤ K) → List Str → Except PyErr (Dict ℤ (Dict ℤ K))
  | 0, d, _ => .ok d
  | f + 1, d, ls =>
    match readVoxel sqrt pf pts ls with
    | .error .indexError => .ok d
    | .error e => .error e
    | .ok (v, c, ls') => readData sqrt pf pts f (Dict.set d v c) ls'

/-- `get_volume_sampling_error_from_cuv` (cuv_sampling_error.py:10-23) -/
def getErrors (sqrt : K → K) (pf : Str → Option K) (pts : ℤ) : List Str → Except PyErr (Dict ℤ (Dict ℤ K))
  | [] => .ok []
  | l :: ls =>
    if Find.contains "INDEX".toList l then readData sqrt pf pts (ls.length + 1) [] ls else getErrors sqrt pf pts ls

/-- `max(values, default=0)` (Python, cuv_sampling_error.py:76-93) -/
def maxDefault : List K → K
  | [] => 0
  | a :: l => l.foldl max a

/-- the array of `add_sampling_error_to_vtk` (cuv_sampling_error.py:75-93) -/
def errorArray (errs : Dict ℤ (Dict ℤ K)) (n : ℕ) : List K :=
  (List.range n).map (fun i : ℕ => maxDefault (((Dict.get? errs (i : ℤ)).getD []).map Prod.snd))

end F4Enix.CuvErr
