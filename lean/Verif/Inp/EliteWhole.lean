import Verif.Inp.Elite
import Mathlib.LinearAlgebra.Matrix.NonsingularInverse
/-!
# Model of `Elite_Input.extract_sector` as a whole, `_initialize_elite` and `_rotate_plane` (`src/f4enix/input/elite.py`)

The pieces are those of `Verif/Inp/Model.lean` (extraction), `Verif/Inp/CellText.lean` (texts of cells) and `Verif/Inp/Elite.lean` (source,
boundaries, graveyard). The object is never changed but for the table read from the Excel file: cells, surfaces and data cards are copied
before they are edited (elite.py:141-147, `inplace=False`). Parameters: the text of the cells (`rows`), what numjuggler reads of a surface
(`shape`: kind, coefficients, transformation, last number; its number is the first number of the card).
-/
namespace F4Enix.EliteX
open F4Enix F4Enix.Inp F4Enix.Elite

/-- the Excel file: the columns `Cell` and `Sector`; `none` is a name that is no sector (elite.py:52, 64-68) -/
abbrev Excel := List (ℤ × Option Sector)

/-- `_sectors_L0_cells_names` (elite.py:65-69) -/
def sectorCells (x : Excel) (s : Sector) : List ℤ := (x.filter (fun r => r.2 = some s)).map Prod.fst

/-- `int(key)` of all cells, those without a universe (elite.py:56-57, MCNPinput.py:1138-1147) -/
def levelZero : Dict Str Card → Except PyErr (List ℤ)
  | [] => .ok []
  | (k, c) :: r =>
    match parseInt k with
    | none => .error .valueError
    | some n =>
      match levelZero r with
      | .error e => .error e
      | .ok ns => .ok (if c.univ = none then n :: ns else ns)

/-- `_initialize_elite` (elite.py:49-70): the cells of each sector -/
def initElite (m : Deck) (check : Bool) (x : Excel) : Except PyErr (Sector → List ℤ) :=
  if check then
    match levelZero m.cells with
    | .error e => .error e
    | .ok ns =>
      if m.cells = [] then .error .keyError
      else if ns.all (fun n => n ∈ x.map Prod.fst) && (x.map Prod.fst).all (fun n => n ∈ ns) then .ok (sectorCells x)
      else .error .runtimeError
  else .ok (sectorCells x)

/-- the cells of the sectors (elite.py:127-129); a name that is no sector is a `KeyError` -/
def collectCells (tab : Sector → List ℤ) : List (Option Sector) → Except PyErr (List Sector × List ℤ)
  | [] => .ok ([], [])
  | none :: _ => .error .keyError
  | some s :: r =>
    match collectCells tab r with
    | .error e => .error e
    | .ok (ss, cs) => .ok (s :: ss, tab s ++ cs)

/-- the surfaces of the envelopes (elite.py:131-137) -/
def envelopeSurfs (l0 : List ℤ) : Dict Str Card → Except PyErr (List ℤ)
  | [] => .ok []
  | (_, c) :: r =>
    match c.num with
    | .error e => .error e
    | .ok n =>
      match envelopeSurfs l0 r with
      | .error e => .error e
      | .ok vs => .ok ((if n ∈ l0 then c.values.filterMap (fun v => if v.2 = Kind.sur then some v.1 else none) else []) ++ vs)

/-- the surfaces as `_set_boundaries` sees them (elite.py:221-279) -/
def viewSurfs {K : Type} (shape : Str → Surf K) : Dict Str Card → Except PyErr (List (Surf K))
  | [] => .ok []
  | (k, c) :: r =>
    match c.num with
    | .error e => .error e
    | .ok n =>
      match viewSurfs shape r with
      | .error e => .error e
      | .ok ss => .ok ({ shape k with num := n } :: ss)

/-- `modified_data_cards[k].input = [t]` (elite.py:205-218) -/
def setText (d : Dict Str (Card × Option Str)) (k t : Str) : Except PyErr (Dict Str (Card × Option Str)) :=
  match Dict.get? d k with
  | none => .error .keyError
  | some c => .ok (Dict.set d k (c.1, some t))

/-- what is written: cells, surfaces (with their edited form), materials, transformations, data cards (with the new text, if any), header (elite.py:192-201) -/
structure Out (K : Type) where
  cells : Dict Str Card
  surfs : List (Str × Card × Surf K)
  materials : MatList
  transformations : Dict Str Card
  other : Dict Str (Card × Option Str)
  header : List Str

/-- the card of a cell, with its text (numjuggler, elite.py:184-188) -/
def withRows (rows : Str → List CellText.Row) (k : Str) (c : Card) : CellText.Card := ⟨c.name, rows k, c.values⟩

/-- the body of `extract_sector` (elite.py:120-202) once the table is there -/
def extractWith {K : Type} [Field K] [LinearOrder K] (m : Deck) (rows : Str → List CellText.Row) (shape : Str → Surf K) (e : Env K) (tol : K)
    (fuel : ℕ) (tab : Sector → List ℤ) (names : List (Option Sector)) : Except PyErr (Out K) :=
  match collectCells tab names with
  | .error x => .error x
  | .ok (sectors, l0) =>
    match envelopeSurfs l0 m.cells with
    | .error x => .error x
    | .ok sset =>
      match extraction m (l0 ++ [800, 801]) false true fuel with
      | .error x => .error x
      | .ok (cs, ss, ml) =>
        match setText (m.other.map (fun kc => (kc.1, kc.2, none))) "SI70".toList (setSdef sectors).1 with
        | .error x => .error x
        | .ok o1 =>
          match setText o1 "SP70".toList (setSdef sectors).2 with
          | .error x => .error x
          | .ok o2 =>
            match viewSurfs shape ss with
            | .error x => .error x
            | .ok vs =>
              match setBoundaries e (boundaryAngles sectors) tol (fun n => decide (n ∈ sset)) vs with
              | .error x => .error x
              | .ok vs' =>
                match Dict.get? m.cells "801".toList, Dict.get? m.cells "800".toList with
                | some gy, some outer =>
                  match modifyGraveyard sectors (withRows rows "801".toList gy) (withRows rows "800".toList outer) with
                  | .error x => .error x
                  | .ok (outer', gy') =>
                    .ok ⟨Dict.set (Dict.set cs "800".toList { outer with values := outer'.vals }) "801".toList { gy with values := gy'.vals },
                      List.zipWith (fun kc s => (kc.1, kc.2, s)) ss vs', ml, m.transformations, o2, m.header⟩
                | _, _ => .error .keyError

/-- `extract_sector` (elite.py:72-202): the table is read at the first call only (`__initialized`). The state is the table, if it was read. -/
def extractSector {K : Type} [Field K] [LinearOrder K] (m : Deck) (rows : Str → List CellText.Row) (shape : Str → Surf K) (e : Env K) (tol : K)
    (fuel : ℕ) (st : Option (Sector → List ℤ)) (names : List (Option Sector)) (x : Excel) (check : Bool) :
    Option (Sector → List ℤ) × Except PyErr (Out K) :=
  match st with
  | some tab => (some tab, extractWith m rows shape e tol fuel tab names)
  | none =>
    match initElite m check x with
    | .error err => (none, .error err)
    | .ok tab => (some tab, extractWith m rows shape e tol fuel tab names)

/-! ### transformations -/

open Matrix in
/-- `_rotate_plane` (elite.py:332-351): the values of a TR card are its number, three displacements and nine numbers of a matrix, which are
angles in degrees if the card is starred. Simplifications: a singular matrix raises in numpy, here its inverse is zero; missing values are
zero (`IndexError` in the code). -/
noncomputable def rotatePlane {K : Type} [Field K] (cosd : K → K) (star : Bool) (vals : List K) (u : K × K × K) : K × K × K :=
  let c := fun i => let v := vals.getD i 0; if star then cosd v else v
  let r := (!![c 4, c 5, c 6; c 7, c 8, c 9; c 10, c 11, c 12])⁻¹ *ᵥ ![u.1, u.2.1, u.2.2]
  (r 0, r 1, r 2)

/-- the transformations, as `_set_boundaries` uses them (elite.py:263-272): fewer than twelve values are a translation -/
noncomputable def transOf {K : Type} [Field K] (cosd : K → K) (cards : ℕ → Option (Bool × List K)) (t : ℕ) :
    Option (Option (K × K × K → K × K × K)) :=
  match cards t with
  | none => none
  | some (star, vs) => if vs.length < 12 then some none else some (some (rotatePlane cosd star vs))

end F4Enix.EliteX
