import Verif.Mat.Names
import Verif.Out.Pathways
/-!
# Model of the tables of information of materials and of their in-line comments

`src/f4enix/input/materials.py`: `SubMaterial.get_info`, `Material.get_info`, `MatCardsList.get_info`, `Material._update_info`,
`SubMaterial._update_info`, `Element.update_zaidinfo`, `Zaid.get_fullname`, `Material.from_zaids` and the three `to_xml`.

Numbers are exact; a division by zero of numpy (`nan`, `inf`) is `none`. A data frame is the list of its rows.
-/
namespace F4Enix.MatInfo
open F4Enix F4Enix.Mat

/-! ### names -/

/-- `Zaid.get_fullname` (materials.py:221-238), `LibManager.get_zaidname` of an object (libmanager.py:529-543) -/
def fullName (lm : LibMan) (z : Zaid) : Except PyErr Str :=
  match parseInt z.element with
  | none => .error .valueError
  | some i =>
    match lm.symbolOf i with
    | none => .error .keyError
    | some sym =>
      match parseInt z.isotope with
      | none => .error .valueError
      | some a => if 0 < a then .ok (sym ++ '-' :: intStr a) else .ok sym

/-- `fullname.split("-")[0]` (materials.py:700-742) -/
def beforeDash (s : Str) : Str := s.takeWhile (fun c => c != '-')

/-! ### tables of a submaterial -/

/-- a row of a table: element, isotope (in the tables of zaids), fraction (materials.py:700-742) -/
structure Row where
  element : Str
  isotope : Option Str
  fraction : ℚ
  deriving DecidableEq, Repr

/-- the row of a zaid (materials.py:724-734) -/
def zaidRow (lm : LibMan) (z : Zaid) : Except PyErr Row :=
  match fullName lm z with
  | .error e => .error e
  | .ok n => .ok ⟨beforeDash n, some (n ++ " [".toList ++ z.element ++ z.isotope ++ [']']), z.fraction⟩

/-- `elementname` after the zaids of an element: that of the last one, else the one of before (materials.py:728, 737) -/
def lastName (prev : Option Str) (rows : List Row) : Option Str :=
  match rows.getLast? with
  | some r => some r.element
  | none => prev

/-- the loop over the elements (materials.py:722-737): the rows of the elements and those of the zaids -/
def elementLoop (lm : LibMan) : Option Str → List Element → Except PyErr (List Row × List Row)
  | _, [] => .ok ([], [])
  | prev, e :: es =>
    match mapE (zaidRow lm) e.zaids with
    | .error x => .error x
    | .ok zr =>
      match lastName prev zr with
      | none => .error .unboundLocal
      | some n =>
        match elementLoop lm (some n) es with
        | .error x => .error x
        | .ok (er, zrs) => .ok (⟨n, none, e.fraction⟩ :: er, zr ++ zrs)

/-- `SubMaterial.get_info` (materials.py:700-742), the table chosen by `zaids` -/
def subInfo (lm : LibMan) (zaids : Bool) (s : SubMat) : Except PyErr (List Row) :=
  match elementLoop lm none s.elements with
  | .error e => .error e
  | .ok (er, zr) => .ok (if zaids then zr else er)

/-! ### tables of a material -/

/-- a row of the complete table: number of the submaterial, element, isotope, atom and mass fraction (the columns are put together by
the number of the row) (materials.py:1272-1360) -/
structure CRow where
  material : Str
  sub : ℕ
  element : Str
  isotope : Option Str
  atom : Option ℚ
  mass : Option ℚ
  deriving DecidableEq, Repr

/-- a row of the table of elements (materials.py:1272-1360) -/
structure ERow where
  material : Str
  sub : ℕ
  element : Str
  fraction : ℚ
  subShare : Option ℚ
  matShare : Option ℚ
  deriving DecidableEq, Repr

/-- a division of numpy, if it is a number (numpy, materials.py:1272-1360) -/
def share (a b : ℚ) : Option ℚ := if b = 0 then none else some (a / b)

/-- the material after `switch_fraction(..., inplace=False)` for both types: unless the total is zero one of them makes the elements again
(materials.py:1170-1171, 1199-1200) -/
def rebuilt (m : Material) : Material :=
  if m.tot = 0 then m else { m with subs := m.subs.map (fun s => { s with elements := collapse s.zaids }) }

/-- the submaterials that `switch_fraction(ftype, inplace=False)` returns, as they are after both calls: copies if a switch is made, else the
submaterials themselves (materials.py:1290-1296) -/
def atomSubs (m : Material) (lm : LibMan) : Except PyErr (List SubMat) :=
  if m.tot < 0 then m.switched "atom".toList lm else .ok (rebuilt m).subs

/-- the same for the mass (materials.py:1290-1296) -/
def massSubs (m : Material) (lm : LibMan) : Except PyErr (List SubMat) :=
  if m.tot > 0 then m.switched "mass".toList lm else .ok (rebuilt m).subs

/-- sum of the fractions of rows (pandas, materials.py:1272-1360) -/
def rowSum (rs : List Row) : ℚ := (rs.map Row.fraction).sum

/-- `groupby` on the elements: their names, sorted (pandas, materials.py:1272-1360) -/
def rowNames (rs : List Row) : List Str := (rs.map Row.element).dedup.insertionSort (fun a b => Path.lexLe a b = true)

/-- the rows of an element (pandas, materials.py:1272-1360) -/
def ofName (n : Str) (rs : List Row) : List Row := rs.filter (fun r => decide (r.element = n))

/-- the rows of the complete table of a submaterial (materials.py:1315-1318) -/
def completeRows (name : Str) (i : ℕ) (rs ra rm : List Row) : List CRow :=
  rs.zipIdx.map (fun p => ⟨name, i, p.1.element, p.1.isotope, (ra[p.2]?).map Row.fraction, (rm[p.2]?).map Row.fraction⟩)

/-- the table of elements (materials.py:1341-1358) -/
def elementTable (name : Str) (tabs : List (ℕ × List Row)) : List ERow :=
  tabs.flatMap (fun t => (rowNames t.2).map (fun n =>
    ⟨name, t.1, n, rowSum (ofName n t.2), share (rowSum (ofName n t.2)) (rowSum t.2),
      share (rowSum (ofName n t.2)) ((tabs.map (fun u => rowSum u.2)).sum)⟩))

/-- the loop over the submaterials (materials.py:1298-1325), from number `i` on -/
def infoLoop (lm : LibMan) (name : Str) (zaids : Bool) : ℕ → List (SubMat × SubMat × SubMat) → Except PyErr (List CRow × List (ℕ × List Row))
  | _, [] => .ok ([], [])
  | i, (s, sa, sm) :: rest =>
    match subInfo lm zaids s, subInfo lm zaids sa, subInfo lm zaids sm with
    | .ok rs, .ok ra, .ok rm =>
      match infoLoop lm name zaids (i + 1) rest with
      | .error e => .error e
      | .ok (c, t) => .ok (completeRows name (i + 1) rs ra rm ++ c, (i + 1, rs) :: t)
    | .error e, _, _ => .error e
    | _, .error e, _ => .error e
    | _, _, .error e => .error e

/-- `Material.get_info` (materials.py:1272-1360); `pd.concat` of nothing is a `ValueError` -/
def getInfo (m : Material) (lm : LibMan) (zaids : Bool) : Except PyErr (List CRow × List ERow) :=
  match atomSubs m lm with
  | .error e => .error e
  | .ok sa =>
    match massSubs m lm with
    | .error e => .error e
    | .ok sm =>
      match infoLoop lm m.name zaids 0 ((rebuilt m).subs.zip (sa.zip sm)) with
      | .error e => .error e
      | .ok (c, t) => if t = [] then .error .valueError else .ok (c, elementTable m.name t)

/-- `MatCardsList.get_info` (materials.py:1638-1671) -/
def listInfo (ms : List Material) (lm : LibMan) (zaids : Bool) : Except PyErr (List CRow × List ERow) :=
  match mapE (fun m => getInfo m lm zaids) ms with
  | .error e => .error e
  | .ok l => if l = [] then .error .valueError else .ok (l.flatMap Prod.fst, l.flatMap Prod.snd)

/-! ### in-line comments -/

/-- what the comment of a zaid says: formula name, percentage in the element, share of the mass of the element in the submaterial (materials.py:286-313) -/
structure Note where
  zaid : Zaid
  name : Str
  ab : ℚ
  weight : Option ℚ
  deriving DecidableEq, Repr

/-- `Element.update_zaidinfo` (materials.py:286-313) -/
def noteElement (lm : LibMan) (w : Option ℚ) (e : Element) : Except PyErr (List Note) :=
  mapE (fun z =>
    match fullName lm z with
    | .error x => .error x
    | .ok n => if e.fraction = 0 then .error .zeroDivision else .ok ⟨z, n, z.fraction / e.fraction * 100, w⟩) e.zaids

/-- `SubMaterial._update_info` (materials.py:668-693); `rows` are those of the submaterial in the table of elements -/
def noteSub (lm : LibMan) (rows : List ERow) (s : SubMat) : Except PyErr (List (List Note)) :=
  mapE (fun e =>
    match fullName lm (fromString (e.z ++ "000".toList) (-1)) with
    | .error x => .error x
    | .ok n =>
      match rows.find? (fun r => decide (r.element = beforeDash n)) with
      | none => .error .keyError
      | some r => noteElement lm r.subShare e) (collapse s.zaids)

/-- the loop of `Material._update_info` (materials.py:1109-1111), from submaterial `i` on -/
def noteSubs (lm : LibMan) (table : List ERow) : ℕ → List SubMat → Except PyErr (List (List (List Note)))
  | _, [] => .ok []
  | i, s :: ss =>
    match table.filter (fun r => decide (r.sub = i + 1)) with
    | [] => .error .keyError
    | rows =>
      match noteSub lm rows s with
      | .error e => .error e
      | .ok ns =>
        match noteSubs lm table (i + 1) ss with
        | .error e => .error e
        | .ok nss => .ok (ns :: nss)

/-- `Material._update_info` (materials.py:1098-1112): the notes of the zaids of each element of each submaterial -/
def notes (m : Material) (lm : LibMan) : Except PyErr (List (List (List Note))) :=
  match m.switch "atom".toList lm with
  | .error e => .error e
  | .ok m1 =>
    match m1.switch "mass".toList lm with
    | .error e => .error e
    | .ok m2 =>
      match getInfo m2 lm false with
      | .error e => .error e
      | .ok (_, table) => noteSubs lm table 0 m.subs

/-! ### materials from zaids -/

/-- a zaid or the name of an element or nuclide, as it is given (materials.py:907-914) -/
def givenZaid (lm : LibMan) (p : Str × ℚ) : Except PyErr Zaid :=
  match lm.zaidNum p.1 with
  | .ok n => .ok ⟨p.2, dropLast3 n, last3 n, none⟩
  | .error .valueError => .ok ⟨p.2, dropLast3 p.1, last3 p.1, none⟩
  | .error e => .error e

/-- `Material.from_zaids` (materials.py:873-923): the material with its header -/
def fromZaids (lm : LibMan) (zaids : List (Str × ℚ)) (lib name : Str) (id : ℕ) : Except PyErr (Material × Str) :=
  match mapE (givenZaid lm) zaids with
  | .error e => .error e
  | .ok zs =>
    match (mkSub zs none []).translate (.one lib) lm with
    | .error e => .error e
    | .ok s =>
      match notes ⟨'M' :: natStr id, if s.zaids = [] then [] else [s]⟩ lm with
      | .error e => .error e
      | .ok _ => .ok (⟨'M' :: natStr id, if s.zaids = [] then [] else [s]⟩, 'C' :: ' ' :: name)

/-! ### xml for OpenMC -/

/-- an element `nuclide`: name, whether by mass (`wo`), the amount (materials.py:201-219) -/
structure Nuclide where
  name : Str
  byMass : Bool
  amount : ℚ
  deriving DecidableEq, Repr

/-- an element `material` (materials.py:1018-1039) -/
structure XMat where
  id : Str
  name : Str
  density : ℚ
  units : Str
  nuclides : List Nuclide
  deriving DecidableEq, Repr

/-- `Zaid.to_xml` (materials.py:201-219) -/
def zaidXml (lm : LibMan) (z : Zaid) : Except PyErr Nuclide :=
  match fullName lm z with
  | .error e => .error e
  | .ok n => .ok ⟨n.filter (fun c => c != '-'), decide (z.fraction < 0), |z.fraction|⟩

/-- `Material.to_xml` (materials.py:1018-1039) with `SubMaterial.to_xml` (531-557); `density` is `None` unless it was given, and then
`abs` of it is a `TypeError` -/
def matXml (lm : LibMan) (m : Material) (density : Option ℚ) : Except PyErr XMat :=
  match density with
  | none => .error .typeError
  | some d =>
    match mapE (zaidXml lm) (m.subs.flatMap SubMat.written) with
    | .error e => .error e
    | .ok ns => .ok ⟨m.name.filter isDigit, m.name, |d|, if d < 0 then "g/cc".toList else "atom/b-cm".toList, ns⟩

/-- `MatCardsList.to_xml` (materials.py:1554-1577), before it is printed -/
def listXml (lm : LibMan) (ms : List (Material × Option ℚ)) : Except PyErr (List XMat) := mapE (fun p => matXml lm p.1 p.2) ms

end F4Enix.MatInfo
