import Verif.Base.Dict
import Verif.Base.Text
import Mathlib.Algebra.Order.Round
import Mathlib.Algebra.Order.Field.Basic
import Mathlib.Data.Rat.Floor
/-!
# Model of `src/f4enix/input/ace.py`: cross sections of nuclides, mixtures and groups

Numbers are those of an ordered field `K`. Of the package `endf` only the following is used: a nuclide has reactions with
a cross section as a function of the energy, a list of products each, the components of a reaction, temperatures.
A tabulated function is a type `T` with its evaluation at the points of the energy grid. `np.logspace` is a parameter.
-/
namespace F4Enix.Ace
open F4Enix

variable {K : Type} [Field K]

/-! ### one nuclide -/

/-- a product of a reaction (ace.py:209-246) -/
structure Product (K : Type) where
  neutron : Bool
  total : Bool
  yield : K → K

/-- a reaction: cross section at the temperature chosen; products and derived products (ace.py:203-248) -/
structure Reaction (K : Type) where
  xs : K → K
  products : List (Product K)

/-- the nuclide: reactions by their MT number, the mean lethargy gain (ace.py:251-255) -/
structure Nuclide (K : Type) where
  reactions : Dict ℤ (Reaction K)
  xi : K

/-- the sum of the yields of prompt and delayed neutrons (ace.py:223-236); `none`: no product -/
def partYield : Option (K → K) → List (Product K) → Option (K → K)
  | f, [] => f
  | f, p :: ps =>
    if p.neutron = true ∧ p.total = false then
      match f with
      | none => partYield (some p.yield) ps
      | some f => partYield (some (fun x => p.yield x + f x)) ps
    else partYield f ps

/-- the cross section times the yield of neutrons (ace.py:205-248) -/
def withYield (r : Reaction K) : K → K :=
  match r.products.find? (fun p => p.neutron && p.total) with
  | some p => fun x => r.xs x * p.yield x
  | none =>
    match partYield none r.products with
    | some f => fun x => f x * r.xs x
    | none => r.xs

/-- the function of one component (ace.py:202-257); reaction 2 must be there -/
def component (n : Nuclide K) (yields : Bool) (mt : ℤ) : Except PyErr (K → K) :=
  if mt = 2 then
    match Dict.get? n.reactions 2 with
    | none => .error .keyError
    | some r => .ok r.xs
  else match Dict.get? n.reactions mt with
    | some r => .ok (if yields then withYield r else r.xs)
    | none =>
      if mt = -1 then .ok (fun _ => 1)
      else if mt = -2 then .ok (fun _ => n.xi)
      else .ok (fun _ => 0)

/-- all components (ace.py:165-169, 183, 191) -/
def components (n : Nuclide K) (yields : Bool) : List ℤ → Except PyErr (List (K → K))
  | [] => .ok []
  | mt :: mts =>
    match component n yields mt with
    | .error e => .error e
    | .ok f =>
      match components n yields mts with
      | .error e => .error e
      | .ok fs => .ok (f :: fs)

/-- the operations between the components: additions, the last one a product if the lethargy gain is among them
(ace.py:175-178); `true` is a product. The gain is only asked for by "slowing-down power" -/
def operations (mts : List ℤ) : List Bool :=
  if -2 ∈ mts then List.replicate (mts.length - 2) false ++ [true] else List.replicate (mts.length - 1) false

/-- the loop of `Combination.__call__` (ace.py:518-522) -/
def combineLoop (x acc : K) : List Bool → List (K → K) → Except PyErr K
  | [], _ => .ok acc
  | _ :: _, [] => .error .indexError
  | o :: os, f :: fs => combineLoop x (if o then acc * f x else acc + f x) os fs

/-- `Combination.__call__`; without components the function is zero (ace.py:258) -/
def combine (x : K) (ops : List Bool) : List (K → K) → Except PyErr K
  | [] => combineLoop x 0 ops []
  | f :: fs => combineLoop x (f x) ops fs

/-- the cross section of a nuclide for a type of reaction whose components are `mts` (ace.py:163-259) -/
def xsAt (n : Nuclide K) (yields : Bool) (mts : List ℤ) (x : K) : Except PyErr K :=
  match components n yields mts with
  | .error e => .error e
  | .ok fs => combine x (operations mts) fs

/-! ### the temperature -/

/-- Python's `round`: halves to the even number (Python, ace.py:117) -/
def pyRound (q : ℚ) : ℤ :=
  if q - ⌊q⌋ < 1 / 2 then ⌊q⌋ else if 1 / 2 < q - ⌊q⌋ then ⌊q⌋ + 1 else if ⌊q⌋ % 2 = 0 then ⌊q⌋ else ⌊q⌋ + 1

/-- `np.argmin` of the distances: the first nearest (numpy, ace.py:153-155) -/
def nearest (T : ℚ) : List ℤ → Option ℤ
  | [] => none
  | t :: ts =>
    match nearest T ts with
    | none => some t
    | some u => if |(t : ℚ) - T| ≤ |(u : ℚ) - T| then some t else some u

/-- the temperature chosen (ace.py:150-155). The temperatures of the library are texts `nK` with whole `n`; the factor of Boltzmann
is left out. -/
def chooseT (T : ℚ) (temps : List ℤ) : Except PyErr ℤ :=
  if pyRound T ∈ temps then .ok (pyRound T)
  else match nearest T temps with
    | none => .error .valueError
    | some t => .ok t

/-! ### mixtures -/

/-- a zaid of the mixture: element and isotope as one text, atom fraction (ace.py:278-279) -/
structure Zaid (K : Type) where
  nuc : Str
  frac : K

/-- the tables of all types of all nuclides (ace.py:276-290) -/
def loadAll {T : Type} (load : Str → Except PyErr (List T)) : Dict Str (List T) → List Str → Except PyErr (Dict Str (List T))
  | d, [] => .ok d
  | d, n :: ns =>
    match load n with
    | .error e => .error e
    | .ok ts => loadAll load (Dict.set d n ts) ns

/-- one line of the result (ace.py:307-328): `nuc` is the name left from before; the table is taken before the name of the zaid -/
def addValues {T : Type} (xs : Dict Str (List T)) (eval : T → ℕ → K) (line : ℕ) :
    Str → List (Zaid K) → (ℕ → K) → Except PyErr ((ℕ → K) × Str)
  | nuc, [], acc => .ok (acc, nuc)
  | nuc, z :: zs, acc =>
    match Dict.get? xs nuc with
    | none => .error .keyError
    | some ts =>
      match ts[line]? with
      | none => .error .indexError
      | some t => addValues xs eval line z.nuc zs (fun i => acc i + z.frac * eval t i)

/-- the lines of the result (ace.py:303-328); `unity` marks the types "unity" -/
def mixLines {T : Type} (xs : Dict Str (List T)) (eval : T → ℕ → K) (zs : List (Zaid K)) :
    Str → ℕ → List Bool → Except PyErr (List (ℕ → K))
  | _, _, [] => .ok []
  | nuc, line, true :: us =>
    match mixLines xs eval zs nuc (line + 1) us with
    | .error e => .error e
    | .ok rs => .ok ((fun _ => 1) :: rs)
  | nuc, line, false :: us =>
    match addValues xs eval line nuc zs (fun _ => 0) with
    | .error e => .error e
    | .ok (r, nuc') =>
      match mixLines xs eval zs nuc' (line + 1) us with
      | .error e => .error e
      | .ok rs => .ok (r :: rs)

/-- `_get_xs_zaid_list` (ace.py:266-330) without a group structure: an empty list of zaids has no grid -/
def mixture {T : Type} (load : Str → Except PyErr (List T)) (eval : T → ℕ → K) (unity : List Bool) (zs : List (Zaid K)) :
    Except PyErr (List (ℕ → K)) :=
  match zs.getLast? with
  | none => .error .indexError
  | some z =>
    match loadAll load [] (zs.map Zaid.nuc) with
    | .error e => .error e
    | .ok xs => mixLines xs eval zs z.nuc 0 unity

/-! ### groups -/

/-- `np.trapz(y, x)` (numpy, ace.py:321) -/
def trapz (f : K → K) : List K → K
  | a :: b :: r => (b - a) * (f a + f b) / 2 + trapz f (b :: r)
  | _ => 0

/-- the value of a group (ace.py:313-321): `none` is a division by zero (`nan` with a warning) -/
def groupValue [DecidableEq K] (points : K → K → List K) (f : K → K) (e0 e : K) : Option K :=
  if e - e0 = 0 then none else some (trapz f (points e0 e) / (e - e0))

/-- the loop over the boundaries: `prev` is the lowest energy of the table for the first of them (ace.py:312-322) -/
def groupValues [DecidableEq K] (points : K → K → List K) (f : K → K) : K → List K → List (Option K)
  | _, [] => []
  | prev, e :: es => groupValue points f prev e :: groupValues points f e es

end F4Enix.Ace
