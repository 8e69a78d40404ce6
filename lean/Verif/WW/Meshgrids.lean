import Verif.Base.Text
import Mathlib.Analysis.SpecialFunctions.Trigonometric.Inverse
/-!
# Model of `src/f4enix/input/ww_gvr/meshgrids.py`

Numbers are real (exact); `rnd` is the rounding of `np.asarray(v, "float32")` and `plus` the sum that a grid of singles keeps when it
is translated (`Single32` in WW/MeshgridsSingle.lean says what they are). A `pv.StructuredGrid` is the list of its points (first
axis fastest) and its dimensions. `np.isclose(a, b)` is `|a - b| ≤ 1e-8 + 1e-5 * |b|`. Assumed of pyvista: `rotate_vector` about the
origin by an angle is the rotation of Rodrigues' formula; it does nothing for the angle 0 and raises `ValueError` for a vector of length 0
(`np.isclose(norm, 0)`) otherwise; `translate` adds the vector.
-/
namespace F4Enix.Grid3
open F4Enix

/-- a point or vector (numpy) -/
structure V3 where
  x : ℝ
  y : ℝ
  z : ℝ

namespace V3
noncomputable section
/-- `add` (numpy) -/
def add (a b : V3) : V3 := ⟨a.x + b.x, a.y + b.y, a.z + b.z⟩
/-- `smul` (numpy) -/
def smul (c : ℝ) (a : V3) : V3 := ⟨c * a.x, c * a.y, c * a.z⟩
/-- `np.dot` (numpy) -/
def dot (a b : V3) : ℝ := a.x * b.x + a.y * b.y + a.z * b.z
/-- `np.cross` (numpy) -/
def cross (a b : V3) : V3 := ⟨a.y * b.z - a.z * b.y, a.z * b.x - a.x * b.z, a.x * b.y - a.y * b.x⟩
/-- `np.linalg.norm` (numpy) -/
def norm (a : V3) : ℝ := Real.sqrt (dot a a)
end
end V3

noncomputable section

/-- `zAxis` (meshgrids.py:60-109) -/
def zAxis : V3 := ⟨0, 0, 1⟩
/-- `xAxis` (meshgrids.py:60-109) -/
def xAxis : V3 := ⟨1, 0, 0⟩

/-- a grid (pyvista) -/
structure SGrid where
  points : List V3
  dims : ℕ × ℕ × ℕ

/-- `np.isclose(a, b)` (numpy) -/
def isClose (a b : ℝ) : Prop := |a - b| ≤ 1 / 100000000 + 1 / 100000 * |b|

/-- `create_cartesian_grid` (meshgrids.py:25-58); the points are singles, and stay singles when they are translated -/
def cartesianGrid (rnd : ℝ → ℝ) (plus : ℝ → ℝ → ℝ) (vi vj vk : List ℝ) (origin : Option V3) : SGrid :=
  let p := (vk.map rnd).flatMap (fun z => (vj.map rnd).flatMap (fun y => (vi.map rnd).map (fun x => (⟨x, y, z⟩ : V3))))
  { points := match origin with
      | none => p
      | some o => p.map (fun q => ⟨plus q.x o.x, plus q.y o.y, plus q.z o.z⟩)
    dims := (vi.length, vj.length, vk.length) }

open Classical in
/-- `_correct_radius_vector` (meshgrids.py:170-174): `IndexError` on an empty vector, or on a single zero -/
def correctRadius (v : List ℝ) : Except PyErr (List ℝ) :=
  match v with
  | [] => .error .indexError
  | a :: r =>
    if isClose a 0 then
      match r with
      | [] => .error .indexError
      | b :: r => .ok (b * (1 / 100) :: b :: r)
    else .ok (a :: r)

open Classical in
/-- the first angle (meshgrids.py:180-181) -/
def fixFirst (v : List ℝ) : List ℝ :=
  match v with
  | [] => []
  | a :: r => if isClose a 0 then 0 :: r else a :: r

open Classical in
/-- the last angle (meshgrids.py:184-185) -/
def fixLast (v : List ℝ) : List ℝ :=
  match v.getLast? with
  | none => []
  | some l => if isClose l 1 then v.dropLast ++ [1] else v

/-- `_correct_theta_vector` (meshgrids.py:177-187): `IndexError` on an empty vector -/
def correctTheta (v : List ℝ) : Except PyErr (List ℝ) :=
  match v with
  | [] => .error .indexError
  | a :: r => .ok (fixLast (fixFirst (a :: r)))

/-- `np.linspace(a, b, n + 1)` (numpy, meshgrids.py:112-125) -/
def linspace (a b : ℝ) (n : ℕ) : List ℝ := (List.range (n + 1)).map (fun i : ℕ => a + (i : ℝ) * ((b - a) / (n : ℝ)))

/-- `_extend_theta_intervals` (meshgrids.py:112-125) -/
def extendTheta (v : List ℝ) : Except PyErr (List ℝ) :=
  match v with
  | [a, b] => .ok (linspace a b 20)
  | [a, b, c] => .ok (linspace a b 10 ++ (linspace b c 10).drop 1)
  | _ => .error .valueError

/-- `_create_cylindrical_grid_with_z_axis` (meshgrids.py:128-144) -/
def cylinderZ (vi vj vk : List ℝ) : SGrid :=
  { points := vj.flatMap (fun z => (vk.map (fun t => t * 2 * Real.pi)).flatMap (fun th =>
      vi.map (fun r => (⟨Real.cos th * r, Real.sin th * r, z⟩ : V3))))
    dims := (vi.length, vk.length, vj.length) }

/-- `_normalize_vector` (meshgrids.py:198-200) -/
def normalize (a : V3) : V3 := ⟨a.x / a.norm, a.y / a.norm, a.z / a.norm⟩

/-- `np.clip(x, -1, 1)` (numpy, meshgrids.py:190-195) -/
def clip (x : ℝ) : ℝ := min (max x (-1)) 1

/-- `_angle_between` (meshgrids.py:190-195), in radians -/
def angleBetween (a b : V3) : ℝ := Real.arccos (clip ((normalize a).dot (normalize b)))

/-- the rotation about the unit vector `n` by `th` (Rodrigues) (pyvista, meshgrids.py:159-167) -/
def rodrigues (n : V3) (th : ℝ) (p : V3) : V3 :=
  ((p.smul (Real.cos th)).add ((n.cross p).smul (Real.sin th))).add (n.smul (n.dot p * (1 - Real.cos th)))

open Classical in
/-- `grid.rotate_vector(vector, angle, inplace=True)` (pyvista, assumed as stated above) (pyvista, meshgrids.py:159-167) -/
def rotateVector (g : SGrid) (n : V3) (th : ℝ) : Except PyErr SGrid :=
  if th = 0 then .ok g
  else if isClose n.norm 0 then .error .valueError
  else .ok { g with points := g.points.map (rodrigues (normalize n) th) }

/-- `_rotate_to_vec` (meshgrids.py:147-156) -/
def rotateToVec (g : SGrid) (vec : V3) : Except PyErr SGrid := rotateVector g zAxis (angleBetween xAxis vec)

/-- `_rotate_to_axis` (meshgrids.py:159-167) -/
def rotateToAxis (g : SGrid) (axis : V3) : Except PyErr SGrid := rotateVector g (zAxis.cross axis) (angleBetween zAxis axis)

/-- the optional rotations and translation (meshgrids.py:97-104) -/
def orient (g : SGrid) (origin axis vec : Option V3) : Except PyErr SGrid :=
  match (match vec with | none => Except.ok g | some v => rotateToVec g v) with
  | .error e => .error e
  | .ok g =>
    match (match axis with | none => Except.ok g | some a => rotateToAxis g a) with
    | .error e => .error e
    | .ok g =>
      match origin with
      | none => .ok g
      | some o => .ok { g with points := g.points.map (fun q => q.add o) }

/-- `create_cylindrical_grid` (meshgrids.py:61-104) -/
def cylindricalGrid (vi vj vk : List ℝ) (origin axis vec : Option V3) : Except PyErr SGrid :=
  match correctRadius vi with
  | .error e => .error e
  | .ok vi =>
    match correctTheta vk with
    | .error e => .error e
    | .ok vk =>
      match (if vk.length ≤ 3 then extendTheta vk else Except.ok vk) with
      | .error e => .error e
      | .ok vk => orient (cylinderZ vi vj vk) origin axis vec

end
end F4Enix.Grid3
