import Verif.Base.Text
import Verif.WW.Vectors
import Mathlib.Data.Rat.Floor
/-!
# Model of the RSSA reader and plotter, `src/f4enix/output/rssa.py`

Byte level. Assumptions on the runtime: `np.fromfile(file, byte, n)` reads at most `n` bytes
(all of them if `n` is negative), `np.fromfile(file, int32, 1)[0]` reads four bytes, little endian two's
complement (`IndexError` when there are fewer), `np.frombuffer(data, T, 1, off)` reads one item at
`off` (`ValueError` when the buffer is too short). The decoding of eight bytes into a float, of bytes
into text, the angle `np.angle(x + 1j*y)`, the norm and the square root are parameters. Floats are
exact rationals: NaN and infinities are not modelled.
-/
namespace F4Enix.Rssa
open F4Enix

/-- a byte (Python) -/
abbrev Byte := Fin 256

/-- unsigned little endian value (numpy) -/
def leVal : List Byte → Nat
  | [] => 0
  | b :: bs => b.val + 256 * leVal bs

/-- two's complement little endian value (numpy `int32`, `int64`) (numpy) -/
def signedVal (bs : List Byte) : ℤ :=
  if 2 * leVal bs < 256 ^ bs.length then (leVal bs : ℤ) else (leVal bs : ℤ) - (256 : ℤ) ^ bs.length

/-- `np.fromfile(file, INT, 1)[0]` (numpy, rssa.py:419-427) -/
def readInt32 (file : List Byte) : Except PyErr (ℤ × List Byte) :=
  if file.length < 4 then .error .indexError
  else .ok (signedVal (file.take 4), file.drop 4)

/-- `_read_fortran_record` (rssa.py:419-427) -/
def readRecord (file : List Byte) : Except PyErr (List Byte × List Byte) :=
  match readInt32 file with
  | .error e => .error e
  | .ok (count1, file) =>
    let n := if count1 < 0 then file.length else count1.toNat
    match readInt32 (file.drop n) with
    | .error e => .error e
    | .ok (count2, rest) =>
      if count1 ≠ count2 then .error .valueError else .ok (file.take n, rest)

/-- `np.frombuffer(data, T, 1, off)[0]` for an integer type of `k` bytes (numpy, rssa.py:447-451) -/
def getInt (k : Nat) (data : List Byte) (off : Nat) : Except PyErr ℤ :=
  if data.length < off + k then .error .valueError
  else .ok (signedVal ((data.drop off).take k))

/-- consecutive groups of `k` items (`reshape(-1, k)` of a one-dimensional array whose length is a
multiple of `k`; `n` groups) (numpy, rssa.py:506-520) -/
def groups {α : Type} (k : Nat) : Nat → List α → List (List α)
  | 0, _ => []
  | n + 1, l => l.take k :: groups k n (l.drop k)

/-- `np.frombuffer(data, INT, offset=off)` (numpy, rssa.py:477) -/
def getInts (data : List Byte) (off : Nat) : Except PyErr (List ℤ) :=
  if data.length < off ∨ (data.length - off) % 4 ≠ 0 then .error .valueError
  else .ok ((groups 4 ((data.length - off) / 4) (data.drop off)).map signedVal)

/-- an entry of `parameters["surfaces"]` (rssa.py:467-478) -/
structure Surface where
  id : ℤ
  info : ℤ
  type : ℤ
  numParams : ℤ
  params : List ℤ
  deriving DecidableEq

/-- the `parameters` dictionary (rssa.py:492-502) -/
structure Params where
  np1 : ℤ
  nrss : ℤ
  nrcd : ℤ
  njsw : ℤ
  niss : ℤ
  niwr : ℤ
  mipts : ℤ
  kjaq : ℤ
  surfaces : List Surface
  deriving DecidableEq

/-- the body of the surface loop (rssa.py:468-478) -/
def readSurface (kjaq : ℤ) (data : List Byte) : Except PyErr Surface := do
  let id ← getInt 4 data 0
  let info ← if kjaq = 1 then getInt 4 data 4 else pure (-1)
  let type ← getInt 4 data 8
  let numParams ← getInt 4 data 12
  let params ← getInts data 16
  pure { id, info, type, numParams, params }

/-- the surface loop (rssa.py:466-478), `n` iterations -/
def readSurfaces (kjaq : ℤ) : Nat → List Byte → Except PyErr (List Surface × List Byte)
  | 0, file => .ok ([], file)
  | n + 1, file => do
    let (data, file) ← readRecord file
    let s ← readSurface kjaq data
    let (ss, file) ← readSurfaces kjaq n file
    pure (s :: ss, file)

/-- `"d1suned"` in ASCII (rssa.py:435) -/
def magic : List Byte := [100, 49, 115, 117, 110, 101, 100]

/-- substring test (Python, rssa.py:435) -/
def contains (sub : List Byte) : List Byte → Bool
  | [] => sub.isEmpty
  | b :: bs => sub.isPrefixOf (b :: bs) || contains sub bs

/-- `_read_header` (rssa.py:430-503); `utf8` tells whether the bytes are valid UTF-8 (otherwise
`decode` raises a `ValueError`) -/
def readHeader (utf8 : List Byte → Bool) (file : List Byte) : Except PyErr (Params × List Byte) := do
  let (d1, file) ← readRecord file
  if ¬ utf8 d1 then throw .valueError
  if ¬ contains magic d1 then throw .notImplemented
  let (d2, file) ← readRecord file
  let np1 ← getInt 8 d2 0
  let nrss ← getInt 8 d2 8
  let nrcd ← getInt 4 d2 16
  let njsw ← getInt 4 d2 20
  let niss ← getInt 8 d2 24
  if nrcd ≠ 11 then throw .notImplemented
  if ¬ np1 < 0 then throw .notImplemented
  let (d3, file) ← readRecord file
  let niwr ← getInt 4 d3 0
  let mipts ← getInt 4 d3 4
  let kjaq ← getInt 4 d3 8
  let (surfaces, file) ← readSurfaces kjaq njsw.toNat file
  if 0 < niwr then
    let _ ← readRecord file
    throw .notImplemented
  let (_, file) ← readRecord file
  pure ({ np1, nrss, nrcd, njsw, niss, niwr, mipts, kjaq, surfaces }, file)

/-- `_read_tracks` (rssa.py:506-520): records of 96 bytes, the first and last four of each thrown
away, the rest decoded as floats, eleven per row. `reshape` raises `ValueError` when the length is
not a multiple of 96. -/
def readTracks (f64 : List Byte → ℚ) (file : List Byte) : Except PyErr (List (List ℚ)) :=
  if file.length % 96 ≠ 0 then .error .valueError
  else
    let n := file.length / 96
    let payload := ((groups 96 n file).map (fun r => (r.take 92).drop 4)).flatten
    .ok (groups 11 n ((groups 8 (11 * n) payload).map f64))

/-- `RSSA._read_rssa` (rssa.py:95-103) -/
def readRssa (utf8 : List Byte → Bool) (f64 : List Byte → ℚ) (file : List Byte) :
    Except PyErr (Params × List (List ℚ)) := do
  let (p, file) ← readHeader utf8 file
  let t ← readTracks f64 file
  pure (p, t)

/-! ### masks -/

/-- column `k` of a track (rows have eleven entries) (rssa.py:360-364) -/
def col (k : Nat) (t : List ℚ) : ℚ := t.getD k 0

/-- `np.where(cond)[0]` (numpy, rssa.py:330-338) -/
def whereIdx (cond : List ℚ → Bool) (ts : List (List ℚ)) : List Nat :=
  (List.range ts.length).filter (fun i => cond (ts.getD i []))

/-- `mask_neutron_tracks` (rssa.py:329-338) -/
def maskNeutron (ts : List (List ℚ)) : List Nat := whereIdx (fun t => |col 1 t| < 900000000) ts

/-- `mask_photon_tracks` (rssa.py:340-349) -/
def maskPhoton (ts : List (List ℚ)) : List Nat :=
  whereIdx (fun t => 900000000 ≤ |col 1 t|) ts

/-- `_get_particle_mask` (rssa.py:351-357) -/
def particleMask (particle : Str) (ts : List (List ℚ)) : Except PyErr (List Nat) :=
  if particle = "n".toList then .ok (maskNeutron ts)
  else if particle = "p".toList then .ok (maskPhoton ts)
  else .error .valueError

/-- `np.intersect1d` of two increasing lists of indices (numpy, rssa.py:136) -/
def intersect (a b : List Nat) : List Nat := a.filter (· ∈ b)

/-! ### the current map -/

/-- `np.min` (`ValueError` on an empty array) (numpy, rssa.py:105-122) -/
def minOf : List ℚ → Except PyErr ℚ
  | [] => .error .valueError
  | x :: xs => .ok (xs.foldl min x)

/-- `np.max` (numpy, rssa.py:105-122) -/
def maxOf : List ℚ → Except PyErr ℚ
  | [] => .error .valueError
  | x :: xs => .ok (xs.foldl max x)

/-- `.astype(int)`: truncation towards zero (numpy, rssa.py:523-537) -/
def trunc (q : ℚ) : ℤ := if 0 ≤ q then ⌊q⌋ else ⌈q⌉

/-- `_closest` (rssa.py:523-537) on one value; an axis of one point has no `axis[1]`; a step of zero
gives NaN, cast to the smallest integer, which is then out of bounds for the grid -/
def closest (axis : List ℚ) (v : ℚ) : Except PyErr ℤ :=
  match axis with
  | l0 :: l1 :: _ =>
    if l1 - l0 = 0 then .error .indexError
    else
      let idx := trunc ((v - l0) / (l1 - l0))
      .ok (if idx = (axis.length : ℤ) - 1 then (axis.length : ℤ) - 2 else idx)
  | _ => .error .indexError

/-- a position of an array of `n` items named by a Python index (negative ones count from the end) (numpy, rssa.py:153-154) -/
def pyIndex (n : Nat) (i : ℤ) : Except PyErr Nat :=
  if 0 ≤ i ∧ i < n then .ok i.toNat
  else if -(n : ℤ) ≤ i ∧ i < 0 then .ok (i + n).toNat
  else .error .indexError

/-- `np.add.at(grid, (i, j), w)` for one item (numpy, rssa.py:153-154) -/
def addAt (grid : List (List ℚ)) (i j : ℤ) (w : ℚ) : Except PyErr (List (List ℚ)) :=
  match pyIndex grid.length i with
  | .error e => .error e
  | .ok i =>
    match pyIndex (grid.getD i []).length j with
    | .error e => .error e
    | .ok j => .ok (grid.set i ((grid.getD i []).set j ((grid.getD i []).getD j 0 + w)))

/-- `np.add.at(grid, (zs, ts), ws)` (numpy, rssa.py:153-154) -/
def addAll (grid : List (List ℚ)) : List (ℤ × ℤ × ℚ) → Except PyErr (List (List ℚ))
  | [] => .ok grid
  | (i, j, w) :: l =>
    match addAt grid i j w with
    | .error e => .error e
    | .ok grid => addAll grid l

/-- `np.zeros((n, m))` (numpy, rssa.py:142-143) -/
def zeros (n m : Nat) : List (List ℚ) := List.replicate n (List.replicate m 0)

/-- `mapM` in `Except` (Python) -/
def mapE {α β : Type} (f : α → Except PyErr β) : List α → Except PyErr (List β)
  | [] => .ok []
  | x :: xs =>
    match f x with
    | .error e => .error e
    | .ok y =>
      match mapE f xs with
      | .error e => .error e
      | .ok ys => .ok (y :: ys)

/-- the two maps of `_generate_figures_current_cyl` and their axes (rssa.py:124-221) -/
structure Maps where
  zAxis : List ℚ
  thetaAxis : List ℚ
  values : List (List ℚ)
  errors : List (List ℚ)
  area : ℚ

/-- runtime functions used on coordinates (numpy, rssa.py:148, 158, 171) -/
structure Geo where
  /-- `np.angle(x + 1j*y)` -/
  angle : ℚ → ℚ → ℚ
  /-- `np.linalg.norm([x, y])` -/
  norm : ℚ → ℚ → ℚ
  /-- `np.sqrt` -/
  sqrt : ℚ → ℚ

/-- the track at an index of a mask (numpy, rssa.py:146-148) -/
def trackAt (ts : List (List ℚ)) (i : Nat) : List ℚ := ts.getD i []

/-- angle of a track (rssa.py:148) -/
def thetaOf (g : Geo) (t : List ℚ) : ℚ := g.angle (col 5 t) (col 6 t)

/-- `_calculate_grid_axes_cyl` (rssa.py:105-122) with a mask -/
def gridAxes (g : Geo) (sel : List (List ℚ)) (zInt thetaInt : Nat) :
    Except PyErr (List ℚ × List ℚ) := do
  let zmin ← minOf (sel.map (col 7))
  let zmax ← maxOf (sel.map (col 7))
  let tmin ← minOf (sel.map (thetaOf g))
  let tmax ← maxOf (sel.map (thetaOf g))
  pure (WW.linspace zmin zmax (zInt + 1), WW.linspace tmin tmax (thetaInt + 1))

/-- replace empty voxels by one and take `1 / sqrt` (rssa.py:170-171) -/
def errOf (g : Geo) (n : ℚ) : ℚ := 1 / g.sqrt (if n = 0 then 1 else n)

/-- `axis[1] - axis[0]` (rssa.py:165) -/
def stepOf : List ℚ → Except PyErr ℚ
  | a :: b :: _ => .ok (b - a)
  | _ => .error .indexError

/-- the particle mask, intersected with the geometric filter if there is one (rssa.py:134-136) -/
def selection (particle : Str) (mask : Option (List Nat)) (ts : List (List ℚ)) :
    Except PyErr (List (List ℚ)) :=
  match particleMask particle ts with
  | .error e => .error e
  | .ok pm =>
    match mask with
    | none => .ok (pm.map (trackAt ts))
    | some m => .ok ((intersect pm m).map (trackAt ts))

/-- `_generate_figures_current_cyl` (rssa.py:124-169), the numbers of the two maps; the drawing is not
modelled. An area of zero gives values that are not finite. `nps` is `parameters["np1"]`. -/
def currentMaps (g : Geo) (ts : List (List ℚ)) (nps : ℤ) (particle : Str) (zInt thetaInt : Nat)
    (intensity : ℚ) (mask : Option (List Nat)) : Except PyErr Maps := do
  let sel ← selection particle mask ts
  let (zAxis, thetaAxis) ← gridAxes g sel zInt thetaInt
  let zIdx ← mapE (closest zAxis) (sel.map (col 7))
  let tIdx ← mapE (closest thetaAxis) (sel.map (thetaOf g))
  let values ← addAll (zeros zInt thetaInt) (List.zip zIdx (List.zip tIdx (sel.map (col 2))))
  let counts ← addAll (zeros zInt thetaInt) (List.zip zIdx (List.zip tIdx (sel.map (fun _ => 1))))
  let radius := g.norm (col 5 (trackAt ts 0)) (col 6 (trackAt ts 0))
  let dz ← stepOf zAxis
  let dt ← stepOf thetaAxis
  let area := |radius * dt * dz|
  if area = 0 ∨ nps = 0 then throw .notFinite
  pure { zAxis, thetaAxis, area
         values := values.map (fun r => r.map (fun v => v / area / |(nps : ℚ)| * intensity))
         errors := counts.map (fun r => r.map (errOf g)) }

/-- the geometric filter of `plot_cyl` (rssa.py:262-282). Without a `z_range` the variable `mask` is
still `None` when the `x_range` filter intersects it: comparing `None` with an index raises
`TypeError` (if no track passes the lower bound there is nothing to compare, and the empty object
array is refused as an index later on). -/
def plotMask (g : Geo) (ts : List (List ℚ)) (xRange zRange : Option (ℚ × ℚ)) :
    Except PyErr (Option (List Nat)) :=
  let radius := g.norm (col 5 (trackAt ts 0)) (col 6 (trackAt ts 0))
  let mask := zRange.map (fun r =>
    intersect (whereIdx (fun t => r.1 < col 7 t) ts) (whereIdx (fun t => col 7 t < r.2) ts))
  match xRange with
  | none => .ok mask
  | some r =>
    let mask1 := whereIdx (fun t => r.1 < radius * thetaOf g t) ts
    let mask2 := whereIdx (fun t => radius * thetaOf g t < r.2) ts
    match mask with
    | none => if mask1 = [] then .error .indexError else .error .typeError
    | some m => .ok (some (intersect (intersect m mask1) mask2))

/-- `plot_cyl` (rssa.py:223-303), without drawing and saving -/
def plotCyl (g : Geo) (ts : List (List ℚ)) (nps : ℤ) (particle : Str) (zInt thetaInt : Nat)
    (norm : ℚ) (xRange zRange : Option (ℚ × ℚ)) : Except PyErr Maps := do
  let mask ← plotMask g ts xRange zRange
  currentMaps g ts nps particle zInt thetaInt norm mask

/-- the files written by `plot_cyl` for a given name (rssa.py:293-302), without the folder -/
def savedFiles (filename : Str) : List Str :=
  let outval := filename ++ ".jpeg".toList
  let outerr := filename ++ "_errors.jpeg".toList
  [outval, outerr ++ "_errors.jpeg".toList]

end F4Enix.Rssa
