import Verif.WW.Ratios
import Verif.Base.Dict
import Mathlib.Data.Rat.Floor
/-!
# Model of the `WW` class, `src/f4enix/input/ww_gvr/weight_window.py`

The object is a value; each method is a function to the new object or the exception raised. In-place
`numpy` updates (`*=`, `**=`, `/=`, masked assignment) produce the new array; the arrays of a `WW`
are never shared between two energies or particles, so this does not change what is observable.
`x ** y` on floats is a parameter `pw` (a power is in general irrational).
-/
namespace F4Enix.WW
open F4Enix

/-- `ParticleType` (models.py:21-23) -/
inductive Particle where
  | neutron
  | photon
  deriving DecidableEq, Repr

/-- `ValuesByParticle` (models.py:53-54) -/
abbrev Values := Dict Particle (Dict ℚ Arr3)

/-- Keys of the pyvista grid arrays (geometry.py:90, 108, 111): `f"WW {particle}, {energy:.2f} MeV"`,
`f"Ratio {particle}, {energy:.2f} MeV"`, `f"Max Ratio {particle}"`. The text is determined by the
particle and by the number of hundredths that `:.2f` prints. -/
inductive Label where
  | ww (p : Particle) (cents : ℤ)
  | ratio (p : Particle) (cents : ℤ)
  | maxRatio (p : Particle)
  deriving DecidableEq

/-- `f"{energy:.2f}"` as a number of hundredths: round half to even. (Python, geometry.py:74-90) -/
def cents (e : ℚ) : ℤ :=
  let x := e * 100
  let f := ⌊x⌋
  if x - f < 1 / 2 then f
  else if x - f = 1 / 2 then (if f % 2 = 0 then f else f + 1)
  else f + 1

/-- A `WW` object: the values, the cached ratios, the arrays of the pyvista grid, and whether the
geometry is cylindrical. (weight_window.py:26-491) -/
structure Window where
  values : Values
  ratios : Values
  grid : Dict Label (List ℚ)
  cyl : Bool

/-! ### the grid -/

/-- number of theta intervals of the pyvista grid: 1 or 2 intervals are extended to 20
(meshgrids.py:84-85, 107-121) -/
def thetaInts (nk : Nat) : Nat := if nk + 1 ≤ 3 then 20 else nk

/-- `np.repeat(values, e, axis=0)` (numpy, geometry.py:133-144) -/
def repeatK (a : Arr3) (e : Nat) : Arr3 :=
  Arr3.tab (a.nk * e) a.nj a.ni (fun k j i => (a.get (k / e) j i).getD 0)

/-- `values.swapaxes(0, 1)` (geometry.py:142; a copy: only its C-order flattening is used) -/
def swap01 (a : Arr3) : Arr3 := Arr3.tab a.nj a.nk a.ni (fun j k i => (a.get k j i).getD 0)

/-- `_prepare_values_for_cylindrical_grid` (geometry.py:133-144); `n_cells` of the grid is
`i_ints * thetaInts * j_ints` (meshgrids.py:124-140) and the arrays have the shape of the mesh -/
def prepareCyl (a : Arr3) : Arr3 :=
  let extended := a.ni * thetaInts a.nk * a.nj / (a.ni * a.nj * a.nk)
  swap01 (if extended > 1 then repeatK a extended else a)

/-- the flattened array stored by `fill_grid_array` (geometry.py:113-131) -/
def gridData (cyl : Bool) (a : Arr3) : List ℚ := if cyl then (prepareCyl a).data else a.data

/-- `fill_grid_values` (geometry.py:74-91), the loop over the energies of one particle -/
def fillValues1 (cyl : Bool) (p : Particle) (g : Dict Label (List ℚ)) (d : Dict ℚ Arr3) :
    Dict Label (List ℚ) :=
  d.foldl (fun g ea => g.set (.ww p (cents ea.1)) (gridData cyl ea.2)) g

/-- `fill_grid_values` (geometry.py:74-91) -/
def fillValues (cyl : Bool) (v : Values) (g : Dict Label (List ℚ)) : Dict Label (List ℚ) :=
  v.foldl (fun g pd => fillValues1 cyl pd.1 g pd.2) g

/-- `np.max(list_of_arrays, axis=0)`: `ValueError` for an empty list or different shapes (numpy, geometry.py:110) -/
def maxOver : List Arr3 → Except PyErr Arr3
  | [] => .error .valueError
  | [a] => .ok a
  | a :: b :: rest =>
    match maxOver (b :: rest) with
    | .error e => .error e
    | .ok m =>
      if a.nk = m.nk ∧ a.nj = m.nj ∧ a.ni = m.ni then
        .ok { a with data := List.zipWith max a.data m.data }
      else .error .valueError

/-- `fill_grid_ratios` (geometry.py:92-111), the loop over the energies of one particle -/
def fillRatios1 (cyl : Bool) (p : Particle) (g : Dict Label (List ℚ)) (d : Dict ℚ Arr3) :
    Except PyErr (Dict Label (List ℚ)) :=
  match maxOver (d.map Prod.snd) with
  | .error e => .error e
  | .ok m =>
    .ok ((d.foldl (fun g ea => g.set (.ratio p (cents ea.1)) (gridData cyl ea.2)) g).set
      (.maxRatio p) (gridData cyl m))

/-- `fill_grid_ratios` (geometry.py:92-111) -/
def fillRatios (cyl : Bool) : Values → Dict Label (List ℚ) → Except PyErr (Dict Label (List ℚ))
  | [], g => .ok g
  | (p, d) :: v, g =>
    match fillRatios1 cyl p g d with
    | .error e => .error e
    | .ok g' => fillRatios cyl v g'

/-! ### the object -/

/-- the `particles` property (weight_window.py:212-223) -/
def particlesOf (v : Values) : List Particle :=
  if v.length > 1 then [.neutron, .photon] else [.neutron]

/-- `_calculate_ratios` (weight_window.py:157-168) on the energies of one particle -/
def ratios1 (d : Dict ℚ Arr3) : Dict ℚ Arr3 := d.map (fun ea => (ea.1, maxRatioArray ea.2))

/-- `_calculate_ratios` (weight_window.py:157-168): `KeyError` if a particle of `particles` has no
values -/
def calcRatios (v : Values) : List Particle → Except PyErr Values
  | [] => .ok []
  | p :: ps =>
    match v.get? p with
    | none => .error .keyError
    | some d =>
      match calcRatios v ps with
      | .error e => .error e
      | .ok r => .ok ((p, ratios1 d) :: r)

/-- the `values` setter (weight_window.py:193-198) -/
def setValues (s : Window) (v : Values) : Except PyErr Window :=
  match calcRatios v (particlesOf v) with
  | .error e => .error e
  | .ok r =>
    match fillRatios s.cyl r (fillValues s.cyl v s.grid) with
    | .error e => .error e
    | .ok g => .ok { s with values := v, ratios := r, grid := g }

/-- `WW.__init__` (weight_window.py:27-52), with a fresh geometry (an empty grid) -/
def newWW (cyl : Bool) (v : Values) : Except PyErr Window :=
  setValues { values := [], ratios := [], grid := [], cyl := cyl } v

/-- the two loops `for particle in self.particles: for energy in self.energies[particle]:` applying
an element-wise in-place operation to every array. Every particle of `particles` has an entry in
every object that a constructor made. (weight_window.py:221-231) -/
def mapArrays (f : Arr3 → Arr3) (v : Values) : Values :=
  v.map (fun pd => if pd.1 ∈ particlesOf v then (pd.1, pd.2.map (fun ea => (ea.1, f ea.2))) else pd)

/-- `multiply` (weight_window.py:275-297) -/
def multiply (s : Window) (factor : ℚ) : Except PyErr Window :=
  if factor = 1 then .ok s
  else setValues s (mapArrays (Arr3.map (· * factor)) s.values)

/-- `soften` (weight_window.py:299-325) -/
def soften (pw : ℚ → ℚ → ℚ) (s : Window) (factor : ℚ) : Except PyErr Window :=
  if factor = 1 then .ok s
  else setValues s (mapArrays (Arr3.map (fun x => pw x factor)) s.values)

/-- `add_particle` (weight_window.py:327-358): `value * norm**soft` -/
def addParticle (pw : ℚ → ℚ → ℚ) (s : Window) (norm soft : ℚ) : Except PyErr Window :=
  if (particlesOf s.values).length = 2 then .error .valueError
  else
    match s.values.get? .neutron with
    | none => .error .keyError
    | some d =>
      setValues s (s.values.set .photon (d.map (fun ea => (ea.1, ea.2.map (· * pw norm soft)))))

/-- `remove_particle` (weight_window.py:360-375) -/
def removeParticle (s : Window) : Except PyErr Window :=
  if (particlesOf s.values).length = 1 then .error .valueError
  else
    match s.values.get? .neutron with
    | none => .error .keyError
    | some d => setValues s [(.neutron, d)]

/-- `values[mask] = 0.0` with `mask = ratios > max_ratio` (weight_window.py:393-394): `IndexError`
if the shapes differ -/
def mitigateArr (M : ℚ) (a r : Arr3) : Except PyErr Arr3 :=
  if a.nk = r.nk ∧ a.nj = r.nj ∧ a.ni = r.ni then
    .ok { a with data := List.zipWith (fun v q => if q > M then 0 else v) a.data r.data }
  else .error .indexError

/-- the loop over energies of `mitigate_long_histories` (weight_window.py:392-394) -/
def mitigate1 (M : ℚ) (r : Dict ℚ Arr3) : Dict ℚ Arr3 → Except PyErr (Dict ℚ Arr3)
  | [] => .ok []
  | (e, a) :: d =>
    match r.get? e with
    | none => .error .keyError
    | some q =>
      match mitigateArr M a q with
      | .error x => .error x
      | .ok a' =>
        match mitigate1 M r d with
        | .error x => .error x
        | .ok d' => .ok ((e, a') :: d')

/-- the loop over particles of `mitigate_long_histories` (weight_window.py:391-394) -/
def mitigateAll (M : ℚ) (r : Values) : Values → Except PyErr Values
  | [] => .ok []
  | (p, d) :: v =>
    match r.get? p with
    | none => .error .keyError
    | some q =>
      match mitigate1 M q d with
      | .error x => .error x
      | .ok d' =>
        match mitigateAll M r v with
        | .error x => .error x
        | .ok v' => .ok ((p, d') :: v')

/-- `mitigate_long_histories` (weight_window.py:377-397) -/
def mitigate (s : Window) (M : ℚ) : Except PyErr Window :=
  match mitigateAll M s.ratios s.values with
  | .error e => .error e
  | .ok v => setValues s v

/-- The mutating methods. (specification, weight_window.py:277-399) -/
inductive Op where
  | multiply (f : ℚ)
  | soften (f : ℚ)
  | addParticle (norm soft : ℚ)
  | removeParticle
  | mitigate (M : ℚ)

/-- one method call (specification, weight_window.py:277-399) -/
def step (pw : ℚ → ℚ → ℚ) (s : Window) : Op → Except PyErr Window
  | .multiply f => multiply s f
  | .soften f => soften pw s f
  | .addParticle n x => addParticle pw s n x
  | .removeParticle => removeParticle s
  | .mitigate M => mitigate s M

/-- a history of calls; a refused call raises and leaves the object as it was (specification) -/
def run (pw : ℚ → ℚ → ℚ) (s : Window) : List Op → Window
  | [] => s
  | o :: os =>
    match step pw s o with
    | .ok s' => run pw s' os
    | .error _ => run pw s os

/-! ### construction from parsed data -/

/-- `np.array(vals).reshape(len(energies), nfz, nfy, nfx)[j]` (numpy, weight_window.py:140-155) -/
def blockOf (nfz nfy nfx : Nat) (vals : List ℚ) (j : Nat) : Arr3 :=
  ⟨nfz, nfy, nfx, (vals.drop (j * (nfz * nfy * nfx))).take (nfz * nfy * nfx)⟩

/-- the inner loop of `_nested_to_values_by_particle` (weight_window.py:128-129): a repeated energy
overwrites the earlier one -/
def fillEnergies (nfz nfy nfx : Nat) (vals : List ℚ) : Nat → List ℚ → Dict ℚ Arr3 → Dict ℚ Arr3
  | _, [], d => d
  | j, e :: es, d => fillEnergies nfz nfy nfx vals (j + 1) es (d.set e (blockOf nfz nfy nfx vals j))

/-- `_nested_to_values_by_particle` (weight_window.py:119-138) for one particle: `ValueError` if the
numbers do not fit the shape -/
def nested1 (nfz nfy nfx : Nat) (energies vals : List ℚ) : Except PyErr (Dict ℚ Arr3) :=
  if vals.length = energies.length * nfz * nfy * nfx then
    .ok (fillEnergies nfz nfy nfx vals 0 energies [])
  else .error .valueError

/-- `_nested_to_values_by_particle` (weight_window.py:119-138): neutrons, and photons if `ni > 1` -/
def nested (ni : ℤ) (nfz nfy nfx : Nat) (energies values : List (List ℚ)) : Except PyErr Values :=
  match energies[0]?, values[0]? with
  | some e0, some v0 =>
    match nested1 nfz nfy nfx e0 v0 with
    | .error x => .error x
    | .ok d0 =>
      if ni > 1 then
        match energies[1]?, values[1]? with
        | some e1, some v1 =>
          match nested1 nfz nfy nfx e1 v1 with
          | .error x => .error x
          | .ok d1 => .ok [(.neutron, d0), (.photon, d1)]
        | _, _ => .error .indexError
      else .ok [(.neutron, d0)]
  | _, _ => .error .indexError

/-- `_format_nested_energies_and_values` (weight_window.py:140-155): energies and flattened values
per particle -/
def formatNested (v : Values) : List (List ℚ) × List (List ℚ) :=
  let ds := (particlesOf v).map (fun p => (v.get? p).getD [])
  (ds.map Dict.keys, ds.map (fun d => (d.map (fun ea => ea.2.data)).flatten))

/-- `np.max` of a non-empty list (numpy, weight_window.py:171-181) -/
def maxList : List ℚ → Option ℚ
  | [] => none
  | x :: xs => some (xs.foldl max x)

/-- `_convert_flux_values_to_gvr` (weight_window.py:171-181). `2 / (r + 1)` raises for `r = -1`;
a zero maximum makes numpy fill the arrays with `nan`/`inf`: outside the model (`notFinite`). -/
def toGvr (d : Dict ℚ Arr3) (r : ℚ) : Except PyErr (Dict ℚ Arr3) :=
  match maxList ((d.map (fun ea => ea.2.data)).flatten) with
  | none => .error .valueError
  | some m =>
    if m = 0 then .error .notFinite
    else if r + 1 = 0 then .error .zeroDivision
    else .ok (d.map (fun ea => (ea.1, (ea.2.map (· / m)).map (· * (2 / (r + 1))))))

/-- `create_gvr_from_meshtally_file` (weight_window.py:76-102) after the file was read -/
def createGvr (pw : ℚ → ℚ → ℚ) (cyl : Bool) (d : Dict ℚ Arr3) (r soft : ℚ) : Except PyErr Window :=
  match toGvr d r with
  | .error e => .error e
  | .ok d' =>
    match newWW cyl [(.neutron, d')] with
    | .error e => .error e
    | .ok s => if soft ≠ 1 then soften pw s soft else .ok s

end F4Enix.WW
