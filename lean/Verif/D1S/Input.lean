import Verif.D1S.Props
import Verif.Mat.Names
import Mathlib.Data.List.Sort
import Mathlib.Data.List.Dedup
/-!
# Model of `D1S_Input` (`src/f4enix/input/MCNPinput.py:1765-2161`)

The reactions a model can have, the reaction file, the translation of a D1S input, the PIKMT card and
the tracking of contributions in tallies; and `LibManager.get_reactions`
(src/f4enix/input/libmanager.py:634-685).

A sheet of the activation file is a list of rows (formula of the parent, MT number, formula of the
daughter). Of the input only materials, the two D1S files and the lines of the data cards are kept.
-/
namespace F4Enix.D1S
open F4Enix F4Enix.Mat

/-- one row of the activation file (libmanager.py:634-685) -/
structure ActRow where
  parent : Str
  mt : ℤ
  daughter : Str
  deriving DecidableEq, Repr

/-- `self.reactions`: the sheets by library (libmanager.py:634-685) -/
abbrev ActTable := Dict Str (List ActRow)

/-- the number of a daughter, `900` appended for a metastable state (libmanager.py:664-669). An empty
formula fails with `IndexError`. -/
def daughterNum (lm : LibMan) (d : Str) : Except PyErr Str :=
  match d.getLast? with
  | none => .error .indexError
  | some c =>
    if c = 'm' then
      match lm.zaidNum d.dropLast with
      | .error e => .error e
      | .ok n => .ok (n ++ ['9', '0', '0'])
    else lm.zaidNum d

/-- the loop over the rows of the parent (libmanager.py:661-671): the list filled so far and the
exception that ended the loop. The case of a single row (lines 673-682) does the same. -/
def rowLoop (lm : LibMan) : List ActRow → List (ℤ × Str) × Option PyErr
  | [] => ([], none)
  | r :: rs =>
    match daughterNum lm r.daughter with
    | .error e => ([], some e)
    | .ok d => let q := rowLoop lm rs; ((r.mt, d) :: q.1, q.2)

/-- `LibManager.get_reactions(lib, parent)` (libmanager.py:634-685): `KeyError` — unknown library,
element, parent or daughter — ends the search silently. MT numbers are kept as numbers; the code
returns their decimal text. -/
def getReactions (lm : LibMan) (tab : ActTable) (lib parent : Str) : Except PyErr (List (ℤ × Str)) :=
  match Dict.get? tab lib with
  | none => .ok []
  | some rows =>
    match lm.zaidName parent with
    | .error .keyError => .ok []
    | .error e => .error e
    | .ok formula =>
      match rowLoop lm (rows.filter (fun r => decide (r.parent = formula.filter (fun c => decide (c ≠ '-'))))) with
      | (l, none) => .ok l
      | (l, some .keyError) => .ok l
      | (_, some e) => .error e

/-- a reaction path: parent, MT, daughter (MCNPinput.py:1888-1938) -/
abbrev Path := Str × ℤ × Str

/-- lexicographic order of a tuple of texts (Python, MCNPinput.py:1888-1938) -/
def textsLe : List Str → List Str → Bool
  | [], _ => true
  | _ :: _, [] => false
  | a :: as, b :: bs => if a = b then textsLe as bs else strLe a b

/-- order of the tuples `(parent, MT, daughter)`, all of them texts (Python, MCNPinput.py:1888-1938) -/
def pathLe (a b : Path) : Bool := textsLe [a.1, intStr a.2.1, a.2.2] [b.1, intStr b.2.1, b.2.2]

/-- the reactions of one zaid (MCNPinput.py:1888-1938) -/
def pathsOf (lm : LibMan) (tab : ActTable) (lib : Str) (z : Zaid) : Except PyErr (List Path) :=
  match getReactions lm tab lib z.num with
  | .error e => .error e
  | .ok l => .ok (l.map (fun p => (z.num, p.1, p.2)))

/-- the comment of a reaction (MCNPinput.py:1924-1933) -/
def pathComment (lm : LibMan) (lib : Str) (p : Path) : Except PyErr Str :=
  match lm.zaidName (p.1 ++ '.' :: lib) with
  | .error e => .error e
  | .ok pf =>
    let df := if last3 p.2.2 = ['9', '0', '0'] then
        (match lm.zaidName (dropLast3 p.2.2) with
        | .error e => Except.error e
        | .ok f => .ok (f ++ ['m']))
      else lm.zaidName p.2.2
    match df with
    | .error e => .error e
    | .ok f => .ok (pf ++ " -> ".toList ++ f)

/-- one reaction object (MCNPinput.py:1923-1936) -/
def pathReaction (lm : LibMan) (lib : Str) (p : Path) : Except PyErr Reaction :=
  match pathComment lm lib p with
  | .error e => .error e
  | .ok c => .ok ⟨p.1 ++ '.' :: lib, p.2.1, p.2.2, some c⟩

/-- `D1S_Input.get_potential_paths` (MCNPinput.py:1888-1938): collect, `list(set(…))`, sort, build -/
def potentialPaths (ms : List Material) (lm : LibMan) (tab : ActTable) (lib : Str) :
    Except PyErr (List Reaction) :=
  match mapE (pathsOf lm tab lib) (ms.flatMap Material.zaids) with
  | .error e => .error e
  | .ok ls => mapE (pathReaction lm lib) (ls.flatten.dedup.insertionSort (fun a b => pathLe a b = true))

/-- The parts of a D1S input used here. (MCNPinput.py:1777-1819) -/
structure DInput where
  materials : List Material
  irrad : Option IrradiationFile
  reac : Option (List Reaction)
  /-- `other_data`: the lines of the cards -/
  data : Dict Str (List Str)

/-- `get_reaction_file` (MCNPinput.py:1940-1993): the input afterwards and the reactions returned -/
def getReactionFile (i : DInput) (lm : LibMan) (tab : ActTable) (lib : Str) (set : Bool) :
    DInput × Except PyErr (List Reaction) :=
  match i.irrad with
  | none => (i, .error .valueError)
  | some f =>
    match potentialPaths i.materials lm tab lib with
    | .error e => (i, .error e)
    | .ok rs =>
      let sel := rs.filter (fun r => (getDaughters f).contains r.daughter)
      (if set then { i with reac := some sel } else i, .ok sel)

/-- the key and the lines of the PIKMT card (MCNPinput.py:2076-2079) -/
def pikmtKey : Str := "PIKMT".toList
/-- `pikmtLine` (MCNPinput.py:2063-2082) -/
def pikmtLine (p : Str) : Str := "         ".toList ++ p ++ "    0\n".toList
/-- `pikmtLines` (MCNPinput.py:2063-2082) -/
def pikmtLines (rs : List Reaction) : List Str := "PIKMT\n".toList :: (getParents rs).map pikmtLine

/-- `add_PIKMT_card` (MCNPinput.py:2063-2082) -/
def addPikmt (i : DInput) : DInput :=
  match i.reac with
  | none => i
  | some rs => { i with data := Dict.set i.data pikmtKey (pikmtLines rs) }

/-- the loop filling `transp_zaids` (MCNPinput.py:2048-2053) -/
def transpLoop (active : List Str) : List Str → List Zaid → List Str
  | acc, [] => acc
  | acc, z :: zs =>
    if z.num ∉ active ∧ z.num ∉ acc then transpLoop active (acc ++ [z.num]) zs
    else transpLoop active acc zs

/-- `{activation_lib: active_zaids, transport_lib: transp_zaids}`: for equal libraries the second
entry replaces the first (MCNPinput.py:1995-2061) -/
def smartLibs (act tr : Str) (active transp : List Str) : Dict Str (List Str) :=
  Dict.set (Dict.set [] act active) tr transp

/-- `Input.update_zaidinfo` (MCNPinput.py:536-552) followed by `materials.translate`
(`Input.translate` with a library name, MCNPinput.py:497-531) -/
def plainTranslate (ms : List Material) (tr : Str) (lm : LibMan) : Except PyErr (List Material) :=
  match mapE (fun m : Material => m.updateInfo lm) ms with
  | .error e => .error e
  | .ok ms' => translateAll ms' (.one tr) lm

/-- What `smart_translate` leaves behind: reaction file, data cards, and the materials (if the
translation of the materials ends normally; a failing one leaves them partly translated, see
`smartState` in D1S/Translated.lean). (MCNPinput.py:1995-2061) -/
structure SmartResult where
  reac : Option (List Reaction)
  data : Dict Str (List Str)
  materials : Except PyErr (List Material)

/-- the part of `smart_translate` after the optional first translation (MCNPinput.py:2037-2061) -/
def smartCore (i : DInput) (rs : List Reaction) (act tr : Str) (lm : LibMan) : SmartResult :=
  let active := rs.map (fun r => beforeDot r.parent)
  let rs' := rs.map (fun r => r.changeLib act)
  let transp := transpLoop active [] (i.materials.flatMap Material.zaids)
  let i' := addPikmt { i with reac := some rs' }
  ⟨some rs', i'.data, translateAll i.materials (.byZaid (smartLibs act tr active transp)) lm⟩

/-- `D1S_Input.smart_translate` (MCNPinput.py:1995-2061) -/
def smartTranslate (i : DInput) (act tr : Str) (lm : LibMan) (fixNatural : Bool) : SmartResult :=
  match i.reac with
  | none => ⟨none, i.data, .error .valueError⟩
  | some rs =>
    if fixNatural then
      match plainTranslate i.materials tr lm with
      | .error e => ⟨some rs, i.data, .error e⟩
      | .ok ms => smartCore { i with materials := ms } rs act tr lm
    else smartCore i rs act tr lm

/-- `_get_num_tally` (MCNPinput.py:2153-2161): first group of digits -/
def numTally (key : Str) : Except PyErr Str :=
  match searchDigits key with
  | none => .error .valueError
  | some ds => .ok (natStr (digitsVal ds))

/-- `ADD_LINE_FORMAT` (MCNPinput.py:50) -/
def addLine (s : Str) : Str := "         ".toList ++ s ++ ['\n']

/-- `who` (MCNPinput.py:2084-2125) -/
inductive Who where
  | parent | daughter | other
  deriving DecidableEq, Repr

/-- `add_track_contribution` (MCNPinput.py:2084-2125): the cards afterwards and the outcome -/
def addTrack (data : Dict Str (List Str)) (key : Str) (zaids : List Str) (who : Who) :
    Dict Str (List Str) × Except PyErr Unit :=
  match Dict.get? data key with
  | none => (data, .error .keyError)
  | some lines =>
    match numTally key with
    | .error e => (data, .error e)
    | .ok num =>
      let head := "FU".toList ++ num ++ " 0\n".toList
      match who with
      | .parent => (Dict.set data key (lines ++ head :: zaids.map (fun z => addLine ('-' :: z))), .ok ())
      | .daughter => (Dict.set data key (lines ++ head :: zaids.map addLine), .ok ())
      | .other => (Dict.set data key (lines ++ [head]), .error .valueError)

end F4Enix.D1S
