import Verif.Base.Text
import Verif.Base.Dict
import Mathlib.Data.Rat.Defs
import Mathlib.Algebra.Field.Rat
import Mathlib.Algebra.Order.Ring.Rat
import Mathlib.Algebra.BigOperators.Group.List.Basic
import Mathlib.Algebra.Order.Group.Unbundled.Abs
/-!
# Model of `src/f4enix/input/materials.py` and of the data queries of `src/f4enix/input/libmanager.py`

Fractions, masses and abundances are exact rationals (the code uses binary floats: rounding is not
modelled; `str(x)` followed by `float(...)` is the identity on floats, so the passages through text
inside the code lose nothing). Texts are lists of characters. In-line comments of zaids (abundance,
weight) are not modelled; the failures of the code computing them are (`Material.updateInfo`).
-/
namespace F4Enix.Mat
open F4Enix

/-! ## Zaids -/

/-- `materials.Zaid` (src/f4enix/input/materials.py:76-131) -/
structure Zaid where
  fraction : ℚ
  element : Str
  isotope : Str
  library : Option Str
  deriving DecidableEq, Repr

/-- `zaid.element + zaid.isotope` (materials.py:77-130) -/
def Zaid.num (z : Zaid) : Str := z.element ++ z.isotope

/-- the attribute `Zaid.name` (src/f4enix/input/materials.py:128-131) -/
def Zaid.name (z : Zaid) : Str :=
  match z.library with
  | none => z.num
  | some l => z.num ++ '.' :: l

/-- `s.split(".")` (Python, materials.py:133-167) -/
def splitDot : Str → List Str
  | [] => [[]]
  | c :: cs =>
    if c = '.' then [] :: splitDot cs
    else match splitDot cs with
      | [] => [[c]]
      | t :: ts => (c :: t) :: ts

/-- `s[:-3]` (Python, materials.py:133-167) -/
def dropLast3 (s : Str) : Str := s.take (s.length - 3)
/-- `s[-3:]` (Python, materials.py:133-167) -/
def last3 (s : Str) : Str := s.drop (s.length - 3)

/-- `Zaid.from_string(name + " " + str(fraction))` for a `name` without white space
(src/f4enix/input/materials.py:133-167). -/
def fromString (name : Str) (f : ℚ) : Zaid :=
  match splitDot name with
  | [] => ⟨f, [], [], none⟩ -- never: `split` returns at least one piece
  | [p] => ⟨f, dropLast3 p, last3 p, none⟩
  | p :: l :: _ => ⟨f, dropLast3 p, last3 p, some l⟩

/-! ## Elements and submaterials -/

/-- `materials.Element` (src/f4enix/input/materials.py:228-284) -/
structure Element where
  z : Str
  zaids : List Zaid
  deriving DecidableEq, Repr

/-- first loop of `Element.__init__` (src/f4enix/input/materials.py:271-281): one entry per zaid name,
fractions summed -/
def sumNames (d : Dict Str ℚ) : List Zaid → Dict Str ℚ
  | [] => d
  | z :: zs =>
    match Dict.get? d z.name with
    | some f => sumNames (Dict.set d z.name (f + z.fraction)) zs
    | none => sumNames (Dict.set d z.name z.fraction) zs

/-- `self.Z = zaid.element` after the loop: the element of the last zaid
(src/f4enix/input/materials.py:283; the list is never empty) -/
def lastElement : List Zaid → Str
  | [] => []
  | [z] => z.element
  | _ :: zs => lastElement zs

/-- `Element.__init__` (src/f4enix/input/materials.py:249-284) -/
def mkElement (zs : List Zaid) : Element :=
  ⟨lastElement zs, (sumNames [] zs).map (fun p => fromString p.1 p.2)⟩

/-- first loop of `SubMaterial._collapse_zaids` (src/f4enix/input/materials.py:486-491) -/
def groupByElement (d : Dict Str (List Zaid)) : List Zaid → Dict Str (List Zaid)
  | [] => d
  | z :: zs =>
    match Dict.get? d z.element with
    | some l => groupByElement (Dict.set d z.element (l ++ [z])) zs
    | none => groupByElement (Dict.set d z.element [z]) zs

/-- `SubMaterial._collapse_zaids` (src/f4enix/input/materials.py:477-497): the new `elements` -/
def collapse (zs : List Zaid) : List Element :=
  (groupByElement [] zs).map (fun p => mkElement p.2)

/-- `materials.SubMaterial` (src/f4enix/input/materials.py:333-400). `header` and `additional_keys`
are kept; the name is not used. -/
structure SubMat where
  zaids : List Zaid
  elements : List Element
  header : Option Str
  keys : List Str
  deriving DecidableEq, Repr

/-- `SubMaterial(name, zaidList, header=…, additional_keys=…)`
(src/f4enix/input/materials.py:380-400) -/
def mkSub (zs : List Zaid) (header : Option Str) (keys : List Str) : SubMat :=
  ⟨zs, collapse zs, header, keys⟩

/-- the zaids written by `SubMaterial.to_text` (src/f4enix/input/materials.py:509-529): those of
`elements` -/
def SubMat.written (s : SubMat) : List Zaid := s.elements.flatMap Element.zaids

/-- `SubMaterial.scale_fractions` (src/f4enix/input/materials.py:744-761) -/
def SubMat.scale (s : SubMat) (k : ℚ) : SubMat :=
  let zs := s.zaids.map (fun z => { z with fraction := z.fraction * k })
  { s with zaids := zs, elements := collapse zs }

/-- `Element.get_fraction` (src/f4enix/input/materials.py:315-329) -/
def Element.fraction (e : Element) : ℚ := (e.zaids.map Zaid.fraction).sum

/-! ## Library manager -/

/-- one row of `Isotopes.txt` (libmanager.py:51-56) -/
structure Iso where
  /-- `idx`, e.g. `1001` -/
  idx : Str
  /-- `Z` -/
  z : ℕ
  /-- `E`, e.g. `H` -/
  sym : Str
  /-- `Mean value` (natural abundance) -/
  ab : ℚ
  /-- `Atomic Mass` -/
  mass : ℚ
  deriving DecidableEq, Repr

/-- What the code uses of `libmanager.LibManager`: the libraries of the code, their tables, the
isotope table, the default library and the dosimetry libraries
(src/f4enix/input/libmanager.py:81-299). -/
structure LibMan where
  /-- `libraries[code]`, also the keys of `data[code]` -/
  libs : List Str
  /-- `data[code][lib].zaid_has_table(zaid, lib)` -/
  tables : Str → Str → Bool
  isos : List Iso
  default : Str
  dosimetry : List Str

/-- a translation: `{zaid: (library or None, abundance, mass)}` (libmanager.py:360-465) -/
abbrev Translation := Dict Str (Option Str × ℚ × ℚ)

/-- `LibManager.check4zaid` (src/f4enix/input/libmanager.py:301-332) -/
def LibMan.check4zaid (lm : LibMan) (zaid : Str) : List Str :=
  lm.libs.filter (fun l => lm.tables l zaid)

/-- `self.data[code][self.defaultlib].zaid_has_table(zaid, self.defaultlib)`: `KeyError` if the
default library is not available (libmanager.py:360-465) -/
def LibMan.defaultHas (lm : LibMan) (zaid : Str) : Except PyErr Bool :=
  if lm.default ∈ lm.libs then .ok (lm.tables lm.default zaid) else .error .keyError

/-- the loop expanding a natural zaid (src/f4enix/input/libmanager.py:412-435) -/
def LibMan.expand (lm : LibMan) (lib : Str) (acc : Translation) : List Iso → Except PyErr Translation
  | [] => .ok acc
  | r :: rs =>
    match lm.tables lib r.idx with
    | true => lm.expand lib (Dict.set acc r.idx (some lib, r.ab, r.mass)) rs
    | false =>
      match lm.defaultHas r.idx with
      | .error e => .error e
      | .ok true => lm.expand lib (Dict.set acc r.idx (some lm.default, r.ab, r.mass)) rs
      | .ok false => .error .valueError

/-- `library[-1] == lib[-1]` (libmanager.py:360-465) -/
def sameKind (a b : Str) : Bool := decide (a.getLast? = b.getLast?)

/-- `LibManager.convertZaid` (src/f4enix/input/libmanager.py:360-465), for MCNP-type codes -/
def LibMan.convert (lm : LibMan) (zaid lib : Str) : Except PyErr Translation :=
  if lib ∉ lm.libs then .error .valueError
  else if last3 zaid = ['0', '0', '0'] then
    if lm.tables lib zaid then .ok [(zaid, some lib, 1, 1)]
    else
      match parseInt (dropLast3 zaid) with
      | none => .error .valueError
      | some n => lm.expand lib [] (lm.isos.filter (fun r => decide ((r.z : ℤ) = n)))
  else if lib ∈ lm.check4zaid zaid then .ok [(zaid, some lib, 1, 1)]
  else if lm.tables lib (dropLast3 zaid ++ ['0', '0', '0']) then
    .ok [(dropLast3 zaid ++ ['0', '0', '0'], some lib, 1, 1)]
  else
    match lm.defaultHas zaid with
    | .error e => .error e
    | .ok true => .ok [(zaid, some lm.default, 1, 1)]
    | .ok false =>
      if (lm.check4zaid zaid).any (fun l => sameKind l lib) then .ok [(zaid, none, 1, 1)]
      else .error .valueError

/-- `LibManager.get_zaid_mass` (src/f4enix/input/libmanager.py:606-632): the table row of the isotope,
otherwise the abundance-weighted mass of the element. `df.set_index("Z").loc[z]` raises `KeyError`
for an unknown element. Simplification: for an element with exactly one row pandas returns a scalar,
whose `.sum()` is the scalar itself. -/
def LibMan.mass (lm : LibMan) (z : Zaid) : Except PyErr ℚ :=
  match lm.isos.find? (fun r => decide (r.idx = z.num)) with
  | some r => .ok r.mass
  | none =>
    match parseInt z.element with
    | none => .error .valueError
    | some n =>
      match lm.isos.filter (fun r => decide ((r.z : ℤ) = n)) with
      | [] => .error .keyError
      | rs => .ok (rs.map (fun r => r.mass * r.ab)).sum

/-- `lib_manager.isotopes["Atomic Mass"].loc[zaid.name.split(".")[0]]`
(src/f4enix/input/materials.py:1237, 1267): `KeyError` for zaids that are not in the table, natural
ones included -/
def LibMan.tableMass (lm : LibMan) (z : Zaid) : Except PyErr ℚ :=
  match lm.isos.find? (fun r => decide (r.idx = z.num)) with
  | some r => .ok r.mass
  | none => .error .keyError

/-! ## Translation of a submaterial -/

/-- the three forms of the argument `newlib` of `translate` (materials.py:559-666) -/
inductive NewLib where
  | one (lib : Str)
  | byOld (d : Dict Str Str)
  | byZaid (d : Dict Str (List Str))
  deriving DecidableEq, Repr

/-- the loop `for lib, zaids in newlib.items(): if zaidnum in zaids: newtag = lib; break` (materials.py:559-666) -/
def findLib (num : Str) : Dict Str (List Str) → Option Str
  | [] => none
  | (lib, zs) :: d => if num ∈ zs then some lib else findLib num d

/-- choice of the new library of a zaid (src/f4enix/input/materials.py:590-621). An empty dictionary
fails with `IndexError`. -/
def newTag (nl : NewLib) (z : Zaid) : Except PyErr Str :=
  match nl with
  | .one l => .ok l
  | .byOld [] => .error .indexError
  | .byZaid [] => .error .indexError
  | .byOld d =>
    match z.library with
    | none => .error .valueError
    | some l => match Dict.get? d l with
      | none => .error .valueError
      | some t => .ok t
  | .byZaid d =>
    match findLib z.num d with
    | none => .error .valueError
    | some t => .ok t

/-- is the zaid in a dosimetry library? (src/f4enix/input/materials.py:624) -/
def LibMan.isDosimetry (lm : LibMan) (z : Zaid) : Bool :=
  match z.library with
  | none => false
  | some l => decide (l ∈ lm.dosimetry)

/-- translation of one zaid, `none` when it is ignored with a warning
(src/f4enix/input/materials.py:623-641): only `ValueError` is caught -/
def LibMan.translation (lm : LibMan) (z : Zaid) (tag : Str) : Except PyErr (Option Translation) :=
  if lm.isDosimetry z then .ok (some [(z.num, z.library, 1, 1)])
  else
    match lm.convert z.num tag with
    | .ok t => .ok (some t)
    | .error .valueError => .ok none
    | .error e => .error e

/-- the new zaids of one old zaid (src/f4enix/input/materials.py:643-663). The division by a zero
`ref_mass` (numpy: `nan`) is not modelled: rationals give 0 there. -/
def newZaids (f : ℚ) (t : Translation) : List Zaid :=
  if f < 0 then
    let ref := (t.map (fun p => p.2.2.1 * p.2.2.2)).sum
    t.map (fun p => ⟨p.2.2.1 * p.2.2.2 / ref * f, dropLast3 p.1, last3 p.1, p.2.1⟩)
  else
    t.map (fun p => ⟨p.2.2.1 * f, dropLast3 p.1, last3 p.1, p.2.1⟩)

/-- the loop of `SubMaterial.translate` (src/f4enix/input/materials.py:586-663) -/
def translateZaids (nl : NewLib) (lm : LibMan) : List Zaid → Except PyErr (List Zaid)
  | [] => .ok []
  | z :: zs =>
    match newTag nl z with
    | .error e => .error e
    | .ok tag =>
      match lm.translation z tag with
      | .error e => .error e
      | .ok r =>
        match translateZaids nl lm zs with
        | .error e => .error e
        | .ok rest =>
          match r with
          | none => .ok rest
          | some t => .ok (newZaids z.fraction t ++ rest)

/-- `SubMaterial.translate` (src/f4enix/input/materials.py:559-666) -/
def SubMat.translate (s : SubMat) (nl : NewLib) (lm : LibMan) : Except PyErr SubMat :=
  match translateZaids nl lm s.zaids with
  | .error e => .error e
  | .ok zs => .ok { s with zaids := zs, elements := collapse zs }

/-! ## Materials -/

/-- `materials.Material` (src/f4enix/input/materials.py:807-870): name and submaterials -/
structure Material where
  name : Str
  subs : List SubMat
  deriving DecidableEq, Repr

/-- all zaids of the material, in order (materials.py:1081-1090) -/
def Material.zaids (m : Material) : List Zaid := m.subs.flatMap SubMat.zaids

/-- `Material.get_tot_fraction` (src/f4enix/input/materials.py:1082-1091) -/
def Material.tot (m : Material) : ℚ := (m.zaids.map Zaid.fraction).sum

/-- `mapM` for results: the first failure wins (Python) -/
def mapE {α β ε : Type} (f : α → Except ε β) : List α → Except ε (List β)
  | [] => .ok []
  | a :: as =>
    match f a with
    | .error e => .error e
    | .ok b => match mapE f as with
      | .error e => .error e
      | .ok bs => .ok (b :: bs)

/-- `g mass fraction` for one zaid, with the mass of `get_zaid_mass` (libmanager.py:608-632) -/
def LibMan.massTerm (lm : LibMan) (g : ℚ → ℚ → ℚ) (z : Zaid) : Except PyErr ℚ :=
  match lm.mass z with
  | .error e => .error e
  | .ok a => .ok (g a z.fraction)

/-- the zaid with fraction `g mass fraction` (materials.py:1114-1211) -/
def LibMan.massZaid (lm : LibMan) (g : ℚ → ℚ → ℚ) (z : Zaid) : Except PyErr Zaid :=
  match lm.mass z with
  | .error e => .error e
  | .ok a => .ok { z with fraction := g a z.fraction }

/-- `g mass fraction` for one zaid, with the mass of the isotope table (materials.py:1114-1211) -/
def LibMan.tableTerm (lm : LibMan) (g : ℚ → ℚ → ℚ) (z : Zaid) : Except PyErr ℚ :=
  match lm.tableMass z with
  | .error e => .error e
  | .ok a => .ok (g a z.fraction)

/-- the fractions of all zaids replaced by `g mass fraction`, elements rebuilt: the second loop of the
in-place branches of `switch_fraction` (src/f4enix/input/materials.py:1155-1172, 1185-1202) -/
def LibMan.mapSub (lm : LibMan) (g : ℚ → ℚ → ℚ) (s : SubMat) : Except PyErr SubMat :=
  match mapE (lm.massZaid g) s.zaids with
  | .error e => .error e
  | .ok zs => .ok { s with zaids := zs, elements := collapse zs }

/-- the normalisation `Σ g mass fraction` over the zaids (first loop of a branch of
`switch_fraction`, src/f4enix/input/materials.py:1150-1154, 1180-1184) -/
def LibMan.norm (lm : LibMan) (g : ℚ → ℚ → ℚ) (zs : List Zaid) : Except PyErr ℚ :=
  match mapE (lm.massTerm g) zs with
  | .error e => .error e
  | .ok l => .ok l.sum

/-- `Material.switch_fraction(ftype, lib_manager, inplace=True)`
(src/f4enix/input/materials.py:1114-1211): the material after the call -/
def Material.switch (m : Material) (ftype : Str) (lm : LibMan) : Except PyErr Material :=
  if ftype = "atom".toList then
    if m.tot < 0 then
      match lm.norm (fun a f => -1 * f / a) m.zaids with
      | .error e => .error e
      | .ok n =>
        if n = 0 then .error .zeroDivision
        else match mapE (lm.mapSub (fun a f => (-1 * f / a) / n)) m.subs with
          | .error e => .error e
          | .ok subs => .ok { m with subs := subs }
    else .ok m
  else if ftype = "mass".toList then
    if m.tot > 0 then
      match lm.norm (fun a f => f * a) m.zaids with
      | .error e => .error e
      | .ok n =>
        if n = 0 then .error .zeroDivision
        else match mapE (lm.mapSub (fun a f => (-1 * f * a) / n)) m.subs with
          | .error e => .error e
          | .ok subs => .ok { m with subs := subs }
    else .ok m
  else .error .keyError

/-- the list returned by `switch_fraction(..., inplace=True)`
(src/f4enix/input/materials.py:1155-1172, 1185-1202): when a switch is made the returned submaterials are copies
whose zaid list is the never-filled `new_zaids`; otherwise they are the submaterials themselves. -/
def Material.switchReturned (m : Material) (ftype : Str) (lm : LibMan) : Except PyErr (List SubMat) :=
  match m.switch ftype lm with
  | .error e => .error e
  | .ok m' =>
    if (ftype = "atom".toList ∧ m.tot < 0) ∨ (ftype = "mass".toList ∧ m.tot > 0) then
      .ok (m.subs.map (fun s => { s with zaids := [], elements := collapse [] }))
    else .ok m'.subs

/-- `Material.switch_fraction(ftype, lib_manager, inplace=False)`: the returned submaterials
(src/f4enix/input/materials.py:1155-1172, 1185-1202). The material itself keeps its zaids; its elements are
rebuilt. -/
def Material.switched (m : Material) (ftype : Str) (lm : LibMan) : Except PyErr (List SubMat) :=
  match m.switch ftype lm with
  | .error e => .error e
  | .ok m' => .ok m'.subs

/-- `AVOGADRO_NUMBER` (src/f4enix/constants.py:224) -/
def avogadro : ℚ := 60220434469282 * 10 ^ 10

/-- `Σ zaid.fraction / tot_fraction * mass` (src/f4enix/input/materials.py:1229-1239) -/
def LibMan.wsum (lm : LibMan) (g : ℚ → ℚ → ℚ) (zs : List Zaid) : Except PyErr ℚ :=
  match mapE (lm.tableTerm g) zs with
  | .error e => .error e
  | .ok l => .ok l.sum

/-- `Material.get_tad` (src/f4enix/input/materials.py:1213-1240): result and material after the call.
A zero total fraction or a zero mean mass is reported as `ZeroDivisionError` (numpy gives `inf` for
the latter). -/
def Material.tad (m : Material) (density : ℚ) (lm : LibMan) : Except PyErr (ℚ × Material) :=
  match m.switch "atom".toList lm with
  | .error e => .error e
  | .ok m' =>
    if m'.tot = 0 then .error .zeroDivision
    else match lm.wsum (fun a f => f / m'.tot * a) m'.zaids with
      | .error e => .error e
      | .ok mn => if mn = 0 then .error .zeroDivision
        else .ok (density / mn * avogadro * (1 / 10 ^ 24), m')

/-- `Material.get_density` (src/f4enix/input/materials.py:1242-1271) -/
def Material.density (m : Material) (tad : ℚ) (lm : LibMan) : Except PyErr (ℚ × Material) :=
  match m.switch "mass".toList lm with
  | .error e => .error e
  | .ok m' =>
    if m'.tot = 0 then .error .zeroDivision
    else match lm.wsum (fun a f => f / m'.tot / a) m'.zaids with
      | .error e => .error e
      | .ok mr => if mr = 0 then .error .zeroDivision
        else .ok (tad * 10 ^ 24 / avogadro * (1 / mr), m')

/-- is the element of the zaid known to the isotope table? (`get_zaidname`,
src/f4enix/input/libmanager.py:505-543) -/
def LibMan.knows (lm : LibMan) (z : Zaid) : Bool :=
  match parseInt z.element with
  | none => false
  | some n => lm.isos.any (fun r => decide ((r.z : ℤ) = n))

/-- `Material._update_info` (src/f4enix/input/materials.py:1099-1112): fractions are untouched and the
elements rebuilt. It fails when a submaterial has no zaids (no row for it in the summary: `KeyError`),
an element is unknown (`KeyError`) or the fractions of an element add up to zero
(`ZeroDivisionError`, src/f4enix/input/materials.py:309). Simplification: every failure of the
annotation is reported as `KeyError`. -/
def Material.updateInfo (m : Material) (lm : LibMan) : Except PyErr Material :=
  if m.subs.all (fun s => !s.zaids.isEmpty && s.zaids.all lm.knows &&
      (collapse s.zaids).all (fun e => decide (e.fraction ≠ 0))) then
    .ok { m with subs := m.subs.map (fun s => { s with elements := collapse s.zaids }) }
  else .error .keyError

/-- `Material.translate` (src/f4enix/input/materials.py:1042-1080) -/
def Material.translate (m : Material) (nl : NewLib) (lm : LibMan) : Except PyErr Material :=
  match mapE (fun s : SubMat => s.translate nl lm) m.subs with
  | .error e => .error e
  | .ok subs => Material.updateInfo { m with subs := subs } lm

/-- `Material.fractions_to_atom_densities` (src/f4enix/input/materials.py:1362-1387) -/
def Material.toAtomDensities (m : Material) (lm : LibMan) (density : ℚ) : Except PyErr Material :=
  match m.switch "mass".toList lm with
  | .error e => .error e
  | .ok m1 =>
    match m1.switch "atom".toList lm with
    | .error e => .error e
    | .ok m2 =>
      match m2.tad density lm with
      | .error e => .error e
      | .ok (t, m3) => Material.updateInfo { m3 with subs := m3.subs.map (fun s => s.scale t) } lm

/-- `MatCardsList.translate` (src/f4enix/input/materials.py:1579-1618): the list of materials -/
def translateAll (ms : List Material) (nl : NewLib) (lm : LibMan) : Except PyErr (List Material) :=
  mapE (fun m : Material => m.translate nl lm) ms

/-- `self.matdic[key.upper()]` with `matdic` rebuilt from the list: the last material of that name
(src/f4enix/input/materials.py:1438-1442, 1462-1467). The names compared here are already in upper
case (simplification). -/
def lookup (ms : List Material) (name : Str) : Option Material :=
  ms.reverse.find? (fun m => decide (m.name = name))

/-- one source material of `generate_material` (src/f4enix/input/materials.py:1723-1755): switched to
the requested type and scaled so that its total is the percentage -/
def sourceSubs (m : Material) (p : ℚ) (ftype : Str) (lm : LibMan) : Except PyErr (List SubMat) :=
  match m.switch ftype lm with
  | .error e => .error e
  | .ok m' =>
    if m'.subs = [] then .error .indexError
    else if m'.tot = 0 then .error .zeroDivision
    else
      let k := if ftype = "mass".toList then -(p / m'.tot) else p / m'.tot
      .ok (m'.subs.map (fun s => { s.scale k with keys := [] }))

/-- the loop of `generate_material` over `zip(materials, percentages)` (materials.py:1673-1762) -/
def mixSubs (ms : List Material) (ftype : Str) (lm : LibMan) : List (Str × ℚ) → Except PyErr (List SubMat)
  | [] => .ok []
  | (name, p) :: r =>
    match lookup ms name with
    | none => .error .keyError
    | some m =>
      match sourceSubs m p ftype lm with
      | .error e => .error e
      | .ok l =>
        match mixSubs ms ftype lm r with
        | .error e => .error e
        | .ok l' => .ok (l ++ l')

/-- `MatCardsList.generate_material` (src/f4enix/input/materials.py:1673-1762): the new material and
the list after the call (its materials have been translated). Headers are not modelled. -/
def generate (ms : List Material) (names : List Str) (ps : List ℚ) (newlib : Str) (lm : LibMan)
    (ftype : Str) (name : Str) : Except PyErr (Material × List Material) :=
  match translateAll ms (.one newlib) lm with
  | .error e => .error e
  | .ok ms' =>
    match mixSubs ms' ftype lm (names.zip ps) with
    | .error e => .error e
    | .ok subs =>
      match Material.updateInfo ⟨name, subs⟩ lm with
      | .error e => .error e
      | .ok m => .ok (m, ms')

/-- the loop of `Input.get_densities_range` (src/f4enix/input/MCNPinput.py:1091-1125) over the
non-void cells `(material, density)`: the densities found, and the materials after the call. The
materials are those of `self.materials.matdic`. The tabulation of minima and maxima is not
modelled. -/
def densitiesRange (lm : LibMan) (ms : Dict Str Material) :
    List (Str × ℚ) → Except PyErr (List (Str × ℚ) × Dict Str Material)
  | [] => .ok ([], ms)
  | (name, dens) :: cells =>
    if dens < 0 then
      match densitiesRange lm ms cells with
      | .error e => .error e
      | .ok (l, ms') => .ok ((name, |dens|) :: l, ms')
    else
      match Dict.get? ms name with
      | none => .error .keyError
      | some m =>
        match m.density dens lm with
        | .error e => .error e
        | .ok (d, m') =>
          match densitiesRange lm (Dict.set ms name m') cells with
          | .error e => .error e
          | .ok (l, ms') => .ok ((name, d) :: l, ms')

end F4Enix.Mat
