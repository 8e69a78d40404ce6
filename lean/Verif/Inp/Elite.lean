import Verif.Inp.CellText
import Mathlib.Algebra.Order.Field.Basic
/-!
# Model of `src/f4enix/input/elite.py`: sectors of E-Lite

The tables of `constants.py` (lines 137-170), `_set_sdef`, `_get_boundaries_angles`,
`_modify_graveyard`, `_set_boundaries`, `_check_tol` and `_modify_boundary`.

Real numbers are the elements of an ordered field `K`; sine and cosine of an angle in degrees and the
Euclidean norm are parameters (`Env`), so are the transformations (`_rotate_plane`) and the rounding of
`"{:.8f}".format`. Not modelled: the Excel file, the check of the envelopes, the extraction itself
(C10-C12) and the writing of the file.
-/
namespace F4Enix.Elite
open F4Enix F4Enix.CellText

/-- `SECTOR_NAMES` (constants.py:170): `s23` is the string `"2 & 3"` -/
inductive Sector where
  | s1 | s23 | s4 | s5 | s6 | s7 | s8 | s9
  deriving DecidableEq, Repr

/-- `SECTOR_BOUNDARIES` (constants.py:137-146) -/
def Sector.bounds : Sector → ℤ × ℤ
  | .s1 => (427024, 427016)
  | .s23 => (-437544, 437543)
  | .s4 => (451024, 451016)
  | .s5 => (459024, 459016)
  | .s6 => (467024, 467016)
  | .s7 => (475024, 475016)
  | .s8 => (483024, 483016)
  | .s9 => (491024, 491016)

/-- `SECTOR_BOUNDARIES_ANGLES` (constants.py:148-157) -/
def Sector.angles : Sector → ℤ × ℤ
  | .s1 => (10, 50)
  | .s23 => (50, 130)
  | .s4 => (130, 170)
  | .s5 => (170, -150)
  | .s6 => (-150, -110)
  | .s7 => (-110, -70)
  | .s8 => (-70, -30)
  | .s9 => (-30, 10)

/-- `PLASMA_CELLS` (constants.py:159-168) -/
def Sector.plasma : Sector → Nat
  | .s1 => 427001
  | .s23 => 435001
  | .s4 => 451001
  | .s5 => 459001
  | .s6 => 467001
  | .s7 => 475001
  | .s8 => 483001
  | .s9 => 491001

/-- `_set_sdef` (elite.py:204-217): the new texts of SI70 and SP70 -/
def setSdef (sectors : List Sector) : Str × Str :=
  sectors.foldl (fun t s =>
    (t.1 ++ natStr s.plasma ++ [' '], t.2 ++ (if s ≠ .s23 then ['1', ' '] else ['2', ' '])))
    ("SI70 L ".toList, "SP70 ".toList)

/-- the loop of `_get_boundaries_angles` (elite.py:284-293); `n` is `len(sectors)` -/
def anglesLoop (n : Nat) : Nat → List Sector → List ℤ
  | _, [] => []
  | k, s :: ss =>
    (if k = 0 then [s.angles.1] else []) ++ (if k = n - 1 then [s.angles.2] else []) ++
      anglesLoop n (k + 1) ss

/-- `_get_boundaries_angles` (elite.py:281-295) -/
def boundaryAngles (sectors : List Sector) : List ℤ := anglesLoop sectors.length 0 sectors

/-- the loop of `_modify_graveyard` (elite.py:299-328): `gy` and `outer` are `new_gy` and
`new_outercell`, not yet bound before the first sector -/
def graveyardLoop (graveyard outercell : Card) (n : Nat) : Nat → List Sector → Option (Card × Card) →
    Except PyErr (Option (Card × Card))
  | _, [], st => .ok st
  | k, s :: ss, st =>
    match (if k = 0 then
        match addSurface graveyard (-s.bounds.1) none .union with
        | .error e => Except.error e
        | .ok g => match addSurface outercell s.bounds.1 none .intersect with
          | .error e => .error e
          | .ok o => .ok (some (g, o))
      else .ok st) with
    | .error e => .error e
    | .ok st1 =>
      match (if k = n - 1 then
          match st1 with
          | none => Except.error PyErr.unboundLocal
          | some (g, o) => match addSurface g (-s.bounds.2) none .union with
            | .error e => .error e
            | .ok g' => match addSurface o s.bounds.2 none .intersect with
              | .error e => .error e
              | .ok o' => .ok (some (g', o'))
        else .ok st1) with
      | .error e => .error e
      | .ok st2 => graveyardLoop graveyard outercell n (k + 1) ss st2

/-- `_modify_graveyard(sectors, graveyard, outercell)` (elite.py:297-330): the new outer cell and the
new graveyard; without sectors the names are not bound -/
def modifyGraveyard (sectors : List Sector) (graveyard outercell : Card) : Except PyErr (Card × Card) :=
  match graveyardLoop graveyard outercell sectors.length 0 sectors none with
  | .error e => .error e
  | .ok none => .error .unboundLocal
  | .ok (some (g, o)) => .ok (o, g)

/-! ## boundary planes -/

/-- kinds of surfaces, as far as `_set_boundaries` looks at them (elite.py:221-279) -/
inductive SType where
  | p | px | py | pz | other
  deriving DecidableEq, Repr

/-- A surface card: number, kind, coefficients (`scoefs`), transformation, the `*` put before the
text, the last number of the text. (numjuggler, elite.py:221-279) -/
structure Surf (K : Type) where
  num : ℤ
  stype : SType
  coefs : List K
  tr : Option Nat
  stars : Nat
  last : K
  deriving DecidableEq, Repr

/-- What the functions use from elsewhere: trigonometry in degrees, the norm, the transformations
(missing, a pure translation, or a rotation of the normal) and the rounding to eight decimals. (elite.py:221-279) -/
structure Env (K : Type) where
  sn : ℤ → K
  cs : ℤ → K
  nrm : K × K × K → K
  trans : Nat → Option (Option (K × K × K → K × K × K))
  rnd : K → K

variable {K : Type} [Field K] [LinearOrder K]

/-- the normal and the constant of the plane (elite.py:247-259); `none` for another surface -/
def planeOf (s : Surf K) : Option (Except PyErr ((K × K × K) × K)) :=
  match s.stype, s.coefs with
  | .p, a :: b :: c :: d :: _ => some (.ok ((a, b, c), d))
  | .p, _ => some (.error .indexError)
  | .px, d :: _ => some (.ok ((1, 0, 0), d))
  | .py, d :: _ => some (.ok ((0, 1, 0), d))
  | .pz, d :: _ => some (.ok ((0, 0, 1), d))
  | .other, _ => none
  | _, [] => some (.error .indexError)

/-- `_check_tol` (elite.py:353-363) -/
def checkTol (tol : K) (l : List (K × K)) : Bool :=
  l.all (fun c => decide (c.2 - tol ≤ c.1 ∧ c.1 ≤ c.2 + tol))

/-- the normal of the boundary plane at an angle (elite.py:235-237) -/
def boundaryNormal (e : Env K) (angle : ℤ) : K × K × K := (-(e.sn angle), e.cs angle, 0)

/-- the pairs to compare (elite.py:221-279) -/
def pairs (a b : K × K × K) : List (K × K) := [(a.1, b.1), (a.2.1, b.2.1), (a.2.2, b.2.2)]

/-- is the surface one of the boundary planes? (elite.py:246-280) -/
def isBoundary (e : Env K) (tol : K) (angle : ℤ) (s : Surf K) : Except PyErr Bool :=
  match planeOf s with
  | none => .ok false
  | some (.error x) => .error x
  | some (.ok (n, d)) =>
    let u := (n.1 / e.nrm n, n.2.1 / e.nrm n, n.2.2 / e.nrm n)
    if checkTol tol [(d, 0)] then
      match s.tr with
      | none => .ok (checkTol tol (pairs u (boundaryNormal e angle)))
      | some t => match e.trans t with
        | none => .error .keyError
        | some none => .ok false
        | some (some f) => .ok (checkTol tol (pairs (f u) (boundaryNormal e angle)))
    else .ok false

/-- `tol_sign` (elite.py:366-393) -/
def tolSign (b : Bool) : K := if b then 1 else -1

/-- the sign of the translation (elite.py:384-390) -/
def moveSign (l : Nat) (angle : ℤ) (y : K) : K :=
  tolSign (decide (1 < l)) *
    tolSign (!decide ((90 < angle ∧ angle < 270) ∨ (-270 < angle ∧ angle < -90))) * tolSign (decide (0 < y))

/-- `_modify_boundary` (elite.py:365-393). Simplification: the last word of the card is its last
number (no comment after it). -/
def modifyBoundary (e : Env K) (inL0 : Bool) (angle : ℤ) (l : Nat) (tol : K) (s : Surf K) :
    Except PyErr (Surf K) :=
  if inL0 then .ok { s with stars := s.stars + 1 }
  else
    match s.coefs with
    | _ :: y :: _ => .ok { s with last := e.rnd (s.last + moveSign l angle y * 2 * tol) }
    | _ => .error .indexError

/-- one surface at one angle (elite.py:221-279) -/
def stepSurf (e : Env K) (tol : K) (l0 : ℤ → Bool) (l : Nat) (angle : ℤ) (s : Surf K) :
    Except PyErr (Surf K) :=
  match isBoundary e tol angle s with
  | .error x => .error x
  | .ok false => .ok s
  | .ok true => modifyBoundary e (l0 s.num) angle l tol s

/-- all the surfaces at one angle (elite.py:239-280) -/
def stepSurfs (e : Env K) (tol : K) (l0 : ℤ → Bool) (l : Nat) (angle : ℤ) :
    List (Surf K) → Except PyErr (List (Surf K))
  | [] => .ok []
  | s :: ss =>
    match stepSurf e tol l0 l angle s with
    | .error x => .error x
    | .ok s' =>
      match stepSurfs e tol l0 l angle ss with
      | .error x => .error x
      | .ok ss' => .ok (s' :: ss')

/-- the loop over the angles (elite.py:234) -/
def angleLoop (e : Env K) (tol : K) (l0 : ℤ → Bool) : Nat → List ℤ → List (Surf K) →
    Except PyErr (List (Surf K))
  | _, [], ss => .ok ss
  | l, a :: as, ss =>
    match stepSurfs e tol l0 l a ss with
    | .error x => .error x
    | .ok ss' => angleLoop e tol l0 (l + 1) as ss'

/-- each angle followed by the opposite one (elite.py:225-232) -/
def withReverse (angles : List ℤ) : List ℤ :=
  angles.flatMap (fun a => [a, if 180 < a then a - 180 else a + 180])

/-- `_set_boundaries` (elite.py:221-280). The nested loops are written angle by angle; `l0` says
which surface numbers belong to the envelopes. Simplification: `surf.values[0][0]` is the number of
the surface. -/
def setBoundaries (e : Env K) (angles : List ℤ) (tol : K) (l0 : ℤ → Bool) (ss : List (Surf K)) :
    Except PyErr (List (Surf K)) := angleLoop e tol l0 0 (withReverse angles) ss

end F4Enix.Elite
