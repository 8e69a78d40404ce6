import Verif.Out.MeshtalGrid
import Verif.Out.MeshtalCuv
import Verif.Base.Find
import Mathlib.Data.List.Sort
/-!
# Model of the readers of mesh tally files: `src/f4enix/output/meshtal/mesh_parser.py`, the scanning and header functions of
`aux_meshtal_functions.py` (566-947) and `Meshtal.readMesh`, `Meshtal.mesh_ids` (`meshtal.py:80-116, 241-244`)

A file is the list of the strings `readline` returns one after the other, each with its line end; behind the last one `readline` returns the empty
string. A position (`tell`, `seek`) is the list of the lines that follow it. `float` is a parameter (`ParseNum`).
-/
namespace F4Enix.MeshFile
open F4Enix F4Enix.Mesh F4Enix.Find

/-! ### scanning a meshtal file -/

/-- `s.strip(" ")` (Python) -/
def stripSp (s : Str) : Str := ((s.dropWhile (fun c => c == ' ')).reverse.dropWhile (fun c => c == ' ')).reverse

/-- `line.strip(" ") == "\n"` (aux_meshtal_functions.py:734, 850) -/
def blank (l : Str) : Bool := decide (stripSp l = ['\n'])

/-- the beginning of the first line of a tally (aux_meshtal_functions.py:654) -/
def marker : Str := " Mesh Tally Number".toList

/-- the number on a line that begins a tally (aux_meshtal_functions.py:653-655): only the first thirty characters are looked at -/
def tallyNumber (l : Str) : Option Str :=
  if (l.take 30).take 18 = marker then some (strip ((l.take 30).drop 18)) else none

/-- positions of a tally: its first line, the line before its bins, its data (aux_meshtal_functions.py:729-742) -/
structure Places where
  top : List Str
  bound : List Str
  data : List Str
  deriving DecidableEq

/-- where `_scan_meshfile` and `_get_mesh_block` are: between tallies, in the head of one, in its bins (aux_meshtal_functions.py:649-661) -/
inductive Scan where
  | outside
  | head (n : Str) (top : List Str)
  | bins (n : Str) (top bound : List Str)

/-- `_scan_meshfile` with `_get_mesh_block` (aux_meshtal_functions.py:649-661, 729-742): the head and the bins of a tally end with a blank line; the end
of the file before that leaves `bound_pos` or `data_pos` unassigned -/
def scan : Scan → List Str → Dict Str Places → Except PyErr (Dict Str Places)
  | .outside, [], d => .ok d
  | .head _ _, [], _ => .error .unboundLocal
  | .bins _ _ _, [], _ => .error .unboundLocal
  | .outside, l :: ls, d =>
    match tallyNumber l with
    | some n => scan (.head n (l :: ls)) ls d
    | none => scan .outside ls d
  | .head n top, l :: ls, d => if blank l then scan (.bins n top ls) ls d else scan (.head n top) ls d
  | .bins n top b, l :: ls, d => if blank l then scan .outside ls (Dict.set d n ⟨top, b, ls⟩) else scan (.bins n top b) ls d

/-! ### the head of a tally -/

/-- the loop of `_get_header` (aux_meshtal_functions.py:750-754): comments and the line that names the particle. The end of the file never has that line:
the loop does not end. -/
def headLoop : List Str → Str → Except PyErr (Str × Str)
  | [], _ => .error .diverges
  | l :: ls, acc => if contains "mesh tally.".toList l then .ok (acc, l) else headLoop ls (acc ++ l)

/-- `particle_list` (aux_meshtal_functions.py:746) -/
def particleNames : List Str :=
  ["neutron".toList, "photon".toList, "electron".toList, "proton".toList, "deuteron".toList]

/-- the particle named on a line (aux_meshtal_functions.py:758-762) -/
def particleOf (l : Str) : Str := (particleNames.find? (fun p => contains p l)).getD []

/-- `_get_header` (aux_meshtal_functions.py:745-763) -/
def header (top : List Str) : Except PyErr (Str × Option Str) :=
  match headLoop top.tail [] with
  | .error e => .error e
  | .ok (c, l) => .ok (particleOf l, if c = [] then none else some c)

/-! ### the bins of a tally -/

/-- `s.index(sub)` (Python, aux_meshtal_functions.py:814-864) -/
def strIndex (sub : Str) : Str → Except PyErr Nat
  | [] => if sub = [] then .ok 0 else .error .valueError
  | c :: cs =>
    if sub.isPrefixOf (c :: cs) then .ok 0
    else match strIndex sub cs with
      | .error e => .error e
      | .ok n => .ok (n + 1)

/-- `s[a:b]` for positions not negative (Python) -/
def slice (a b : Nat) (s : Str) : Str := (s.take b).drop a

/-- three numbers. Simplification: any other amount is a `ValueError` (numpy raises it later, in the products). (numpy, aux_meshtal_functions.py:814-864) -/
def vec3 (num : ParseNum) (s : Str) : Except PyErr Vec :=
  match rowNums num (tokens s) with
  | .error e => .error e
  | .ok [x, y, z] => .ok ⟨x, y, z⟩
  | .ok _ => .error .valueError

/-- where a mesh is: the transformation and its attributes `axis` and `vec` (aux_meshtal_functions.py:566-571, 629-633) -/
structure Place where
  trsf : Trsf
  axis : Vec
  vec : Option Vec
  deriving DecidableEq

/-- `_get_transformation(line)` for cylinders (aux_meshtal_functions.py:574-606): the parts of the line, then `getTransformation` -/
def cylPlace (num : ParseNum) (l : Str) : Except PyErr (Option Place) := do
  let v6 := contains "VEC direction".toList l
  let o0 ← strIndex "at".toList l
  let o1 ← strIndex (if v6 then "axis".toList else ",".toList) l
  let a0 ← strIndex "axis in".toList l
  let a1 ← strIndex "direction".toList l
  let v0 ← if v6 then strIndex "direction".toList (l.drop (a1 + 1)) else Except.ok 0
  let origin ← vec3 num (slice (o0 + 2) o1 l)
  let axis ← vec3 num (slice (a0 + 7) a1 l)
  let vec ← if v6 then (vec3 num (l.drop (a1 + 1 + v0 + 9))).map some else Except.ok none
  let t ← getTransformation origin axis vec
  pure (t.map (fun t => ⟨t, axis, vec⟩))

/-- the part of a line after its first colon, `line[line.index(":") + 1:]` (aux_meshtal_functions.py:814-864) -/
def afterColon (l : Str) : Except PyErr Str :=
  match l.dropWhile (fun c => c != ':') with
  | [] => .error .valueError
  | _ :: t => .ok t

/-- `np.array(line[init:].split(), dtype=np.double)` (numpy, aux_meshtal_functions.py:814-864) -/
def binList (num : ParseNum) (l : Str) : Except PyErr (List ℚ) :=
  match afterColon l with
  | .error e => .error e
  | .ok t => rowNums num (tokens t)

/-- `_get_etbin_tag` (aux_meshtal_functions.py:636-646) -/
def etTag (s : Str) : Option Tag :=
  if contains "Energy".toList s then some .erg
  else if contains "Decay time".toList s then some .dtme
  else if contains "Time".toList s then some .tme
  else if contains "Nuclide".toList s then some .nuc
  else if contains "Cell".toList s then some .cel
  else none

/-- the bins on a line with their kind (aux_meshtal_functions.py:843-847): a kind that is not known is refused by `ExtraBin` -/
def extraBin (num : ParseNum) (l : Str) : Except PyErr EBin :=
  match binList num l with
  | .error e => .error e
  | .ok qs =>
    match etTag (l.takeWhile (fun c => c != ':')) with
    | none => .error .valueError
    | some t => .ok { data := qs, tag := t }

/-- the time bin that is not in the file (aux_meshtal_functions.py:852-854) -/
def noTime : EBin := { data := [0, 100000000000000000000], tag := .tme, explicit := false }

/-- the bins of a tally (aux_meshtal_functions.py:814-864) -/
structure Bounds where
  cyl : Bool
  place : Option Place
  x1 : List ℚ
  x2 : List ℚ
  x3 : List ℚ
  ebin : EBin
  tbin : EBin
  deriving DecidableEq

/-- the first line of the bins of a cylinder (aux_meshtal_functions.py:822-828): geometry, place, the lines after it -/
def originLine (num : ParseNum) (ls : List Str) : Except PyErr (Bool × Option Place × List Str) :=
  if contains "origin at".toList (ls.headD []) then
    match cylPlace num (ls.headD []) with
    | .error e => .error e
    | .ok p => .ok (true, p, ls.tail)
  else .ok (false, none, ls)

/-- the lists of bins besides the axes (aux_meshtal_functions.py:842-862): a single list is the energy axis, of two lists the first is the time axis -/
def extraLists (num : ParseNum) (ls : List Str) : Except PyErr (EBin × EBin × List Str) :=
  match extraBin num (ls.headD []) with
  | .error e => .error e
  | .ok b =>
    if blank (ls.tail.headD []) then .ok (b, noTime, ls.tail.tail)
    else
      match extraBin num (ls.tail.headD []) with
      | .error e => .error e
      | .ok b' => .ok (b', b, ls.tail.tail)

/-- the bins besides the axes (aux_meshtal_functions.py:838-862): a line with a number of bins is passed over -/
def extraLines (num : ParseNum) (ls : List Str) : Except PyErr (EBin × EBin × List Str) :=
  extraLists num (if contains "number:".toList (ls.headD []) then ls.tail else ls)

/-- `_get_mesh_boundaries` (aux_meshtal_functions.py:814-864) from the line after `Tally bin boundaries:` on -/
def boundaries (num : ParseNum) (ls : List Str) : Except PyErr (Bounds × List Str) := do
  let (cyl, p, ls) ← originLine num ls
  let x1 ← binList num (ls.headD [])
  let x2 ← binList num (ls.tail.headD [])
  let x3 ← binList num (ls.tail.tail.headD [])
  let (e, t, ls) ← extraLines num ls.tail.tail.tail
  pure (⟨cyl, p, x1, x2, x3, e, t⟩, ls)

/-! ### the data of a tally -/

/-- the formats `_get_mesh_type` distinguishes (aux_meshtal_functions.py:778-811) -/
inductive MType where
  | col | oldCuv | mat (o : Orient) | bad
  deriving DecidableEq

/-- `_get_mesh_type` (aux_meshtal_functions.py:778-811) -/
def meshType (cyl explicit : Bool) (ls : List Str) : MType :=
  if contains "Result".toList (ls.headD []) then .col
  else if contains "GEOMETRY".toList (ls.headD []) then .oldCuv
  else
    let l := (ls.tail.drop (if explicit then 4 else 1)).headD []
    if cyl then
      if contains "Theta bin".toList l then .mat .ij
      else if contains "Z bin".toList l then .mat .ik
      else if contains "R bin".toList l then .mat .jk
      else .bad
    else
      if contains "Z bin".toList l then .mat .ij
      else if contains "Y bin".toList l then .mat .ik
      else if contains "X bin".toList l then .mat .jk
      else .bad

/-- numbers of bins: time, energy, third, second, first axis (mesh_parser.py:76-88) -/
def Bounds.nt (b : Bounds) : Nat := b.tbin.count
/-- `Bounds.ne` (aux_meshtal_functions.py:46-107) -/
def Bounds.ne (b : Bounds) : Nat := b.ebin.count
/-- `Bounds.n1` (fmesh.py:114-118) -/
def Bounds.n1 (b : Bounds) : Nat := b.x1.length - 1
/-- `Bounds.n2` (fmesh.py:121-125) -/
def Bounds.n2 (b : Bounds) : Nat := b.x2.length - 1
/-- `Bounds.n3` (fmesh.py:128-132) -/
def Bounds.n3 (b : Bounds) : Nat := b.x3.length - 1

/-- an axis without any boundary: `np.ndarray` refuses the number of bins `-1` (numpy, aux_meshtal_functions.py:177-203) -/
def Bounds.empty (b : Bounds) : Bool := b.x1.isEmpty || b.x2.isEmpty || b.x3.isEmpty

/-- `_get_mesh_data` (aux_meshtal_functions.py:903-918). An unknown format leaves the sizes unassigned. The format `cf` is never found by
`_get_mesh_type`. Not modelled: the old cell-under-voxel format with several times (`notImplemented`). -/
def meshValues (num : ParseNum) (junk : Data) (b : Bounds) (ls : List Str) : Except PyErr Data :=
  match meshType b.cyl b.tbin.explicit ls with
  | .bad => .error .unboundLocal
  | .col => if b.empty then .error .valueError else readColumn num junk b.nt b.ne b.n3 b.n2 b.n1 ls
  | .oldCuv =>
    if b.empty then .error .valueError
    else if b.nt = 1 then readCdgs num junk 4 b.ne b.n3 b.n2 b.n1 ls else .error .notImplemented
  | .mat o => if b.empty then .error .valueError else readBlockData num junk o b.tbin.explicit b.nt b.ne b.n3 b.n2 b.n1 ls

/-! ### a tally -/

/-- what `get_FMesh` returns: the mesh with its grid, the attributes of the transformation, particle and comments; cooling time and strength for sources (mesh_parser.py:51-98) -/
structure Tally where
  fm : FMesh
  place : Option Place
  particle : Option Str
  comments : Option Str
  source : Option (ℚ × ℚ) := none

/-- the mesh of the bins and the data (mesh_parser.py:51-98) -/
def Bounds.mesh (b : Bounds) (d : Data) : MeshData :=
  { cyl := b.cyl, x1 := b.x1, x2 := b.x2, x3 := b.x3, ebin := b.ebin, tbin := b.tbin, data := d }

/-- the end of `get_FMesh` (mesh_parser.py:91-98): the object with its grid, then the head -/
def finish (cs sn : ℚ → ℚ) (b : Bounds) (d : Data) (top : List Str) : Except PyErr Tally :=
  match mkFmesh cs sn (b.mesh d) (b.place.map (·.trsf)) none with
  | .error e => .error e
  | .ok f =>
    match header top with
    | .error e => .error e
    | .ok (p, c) => .ok { fm := f, place := b.place, particle := some p, comments := c }

/-- `MeshtalParser.get_FMesh` (mesh_parser.py:51-98) for the name of a tally -/
def getFMesh (cs sn : ℚ → ℚ) (num : ParseNum) (junk : Data) (d : Dict Str Places) (n : Str) : Except PyErr Tally :=
  match Dict.get? d n with
  | none => .error .keyError
  | some p =>
    match boundaries num p.bound.tail with
    | .error e => .error e
    | .ok (b, _) =>
      match meshValues num junk b p.data with
      | .error e => .error e
      | .ok v => finish cs sn b v p.top

/-! ### cell-under-voxel files -/

/-- the loop over the head in `_skip_cuvdata` (aux_meshtal_functions.py:706-711): the lines from the one before the bins on (`none` if the first line is
it already), and those after it -/
def cuvHead : Option (List Str) → List Str → Option (List Str) × List Str
  | b, [] => (b, [])
  | b, l :: ls => if (l.take 30).take 22 = " Tally bin boundaries:".toList then (b, ls) else cuvHead (some ls) ls

/-- the voxels are passed over (aux_meshtal_functions.py:722-726): three lines per cell -/
def cuvSkip (num : ParseNum) : Nat → List Str → Except PyErr (List Str)
  | 0, ls => .ok ls
  | n + 1, ls =>
    match tokens (ls.headD []) with
    | [] => .error .indexError
    | w :: ws =>
      match toNum num w with
      | .error e => .error e
      | .ok _ =>
        match toNum num ((w :: ws).getLastD []) with
        | .error e => .error e
        | .ok k => cuvSkip num n (ls.tail.drop (3 * (trunc k).toNat))

/-- `_skip_cuvdata` (aux_meshtal_functions.py:704-726): the positions of bins and data, and the lines after the data. The product of the numbers of bins
may be positive for two empty axes. -/
def cuvBlock (num : ParseNum) (ls : List Str) : Except PyErr (List Str × List Str × List Str) := do
  let (b, ls) := cuvHead none ls
  let (bd, ls) ← boundaries num ls
  let n : ℤ := ((bd.x1.length : ℤ) - 1) * ((bd.x2.length : ℤ) - 1) * ((bd.x3.length : ℤ) - 1)
  let rest ← cuvSkip num n.toNat ls.tail
  match b with
  | none => .error .unboundLocal
  | some b => pure (b, ls, rest)

/-- `_scan_cuvfile` (aux_meshtal_functions.py:664-675); the first argument bounds the number of lines looked at -/
def scanCuv (num : ParseNum) : Nat → List Str → Dict Str Places → Except PyErr (Dict Str Places)
  | 0, _, d => .ok d
  | _ + 1, [], d => .ok d
  | k + 1, l :: ls, d =>
    match tallyNumber l with
    | none => scanCuv num k ls d
    | some n =>
      match cuvBlock num ls with
      | .error e => .error e
      | .ok (b, v, rest) => scanCuv num k rest (Dict.set d n ⟨l :: ls, b, v⟩)

/-- `CUVMeshParser.get_FMesh` (mesh_parser.py:119-163); several times are not modelled -/
def getCuv (cs sn : ℚ → ℚ) (num : ParseNum) (junk : Data) (norm : Norm) (filter : Option (List ℤ)) (d : Dict Str Places) (n : Str) :
    Except PyErr Tally :=
  match Dict.get? d n with
  | none => .error .keyError
  | some p =>
    match boundaries num p.bound.tail with
    | .error e => .error e
    | .ok (b, _) =>
      if b.empty then .error .valueError
      else if b.nt ≠ 1 then .error .notImplemented
      else
        match readCuv num junk norm filter b.ne b.n3 b.n2 b.n1 p.data with
        | .error e => .error e
        | .ok v => finish cs sn b v p.top

/-! ### source files -/

/-- lines up to one that begins with `w`, whose first characters are compared: that line and those after it; without such a line the loop does not end
(aux_meshtal_functions.py:690-700) -/
def untilLine (w : Str) : List Str → Except PyErr (List Str)
  | [] => .error .diverges
  | l :: ls => if l.take w.length = w then .ok (l :: ls) else untilLine w ls

/-- the loop of `_scan_cdgsfile` over the meshes (aux_meshtal_functions.py:685-700) -/
def scanCdgsLoop : Nat → List Str → Dict Str (List Str × List Str) → Except PyErr (Dict Str (List Str × List Str))
  | 0, _, d => .ok d
  | n + 1, ls, d =>
    if (ls.headD []).take 7 = "mesh_id".toList then
      match (tokens (ls.headD []))[1]? with
      | none => .error .indexError
      | some k =>
        match untilLine "source_data".toList ls.tail with
        | .error e => .error e
        | .ok s =>
          match untilLine "end_source_data".toList s.tail with
          | .error e => .error e
          | .ok r => scanCdgsLoop n r.tail (Dict.set d k (ls, s))
    else scanCdgsLoop n ls.tail d

/-- `_scan_cdgsfile` (aux_meshtal_functions.py:678-701) -/
def scanCdgs (num : ParseNum) (ls : List Str) : Except PyErr (Dict Str (List Str × List Str)) :=
  match wordNum num (ls.headD []) 1 with
  | .error e => .error e
  | .ok n =>
    match wordNum num (ls.tail.headD []) 1 with
    | .error e => .error e
    | .ok _ => scanCdgsLoop (trunc n).toNat ls.tail.tail []

/-- `line.split()[i]` as an `int` (Python, aux_meshtal_functions.py:678-701) -/
def wordInt (l : Str) (i : Nat) : Except PyErr ℤ :=
  match (tokens l)[i]? with
  | none => .error .indexError
  | some w =>
    match parseInt w with
    | none => .error .valueError
    | some n => .ok n

/-- `line.split()[i]` (Python, aux_meshtal_functions.py:678-701) -/
def wordAt (l : Str) (i : Nat) : Except PyErr Str :=
  match (tokens l)[i]? with
  | none => .error .indexError
  | some w => .ok w

/-- `_get_transformation(line, cyl=False)` (aux_meshtal_functions.py:607-634): fixed columns, then `getTransformationRec` -/
def recPlace (num : ParseNum) (l : Str) : Except PyErr (Option Place) := do
  let o ← vec3 num (slice 0 44 l)
  let x ← vec3 num (slice 45 87 l)
  let y ← vec3 num (l.drop 88)
  let t ← getTransformationRec o x y
  pure (t.map (fun t => ⟨t, x, none⟩))

/-- `_get_transformation(line, cyl=geom == "cyl")` (aux_meshtal_functions.py:894) -/
def placeOf (num : ParseNum) (geom l : Str) : Except PyErr (Option Place) := if geom = "cyl".toList then cylPlace num l else recPlace num l

/-- `_get_cdgsmesh_boundaries` (aux_meshtal_functions.py:867-900) from the line of the mesh number on: geometry as written and bins -/
def cdgsBoundaries (num : ParseNum) (top : List Str) : Except PyErr (Str × Bounds) := do
  let ls := top.drop 4
  let et ← wordAt (ls.headD []) 1
  let ne ← wordNum num (ls.tail.headD []) 1
  let (es, ls) ← multinums num (trunc ne).toNat ls.tail.tail
  let geom ← wordAt (ls.headD []) 1
  let n1 ← wordInt (ls.tail.headD []) 1
  let n2 ← wordInt (ls.tail.headD []) 2
  let n3 ← wordInt (ls.tail.headD []) 3
  let p ← placeOf num geom (ls.tail.tail.headD [])
  let (x1, ls) ← multinums num n1.toNat ls.tail.tail.tail
  let (x2, ls) ← multinums num n2.toNat ls
  let (x3, _) ← multinums num n3.toNat ls
  pure (geom, ⟨decide (geom = "cyl".toList), p, x1, x2, x3, { data := es, tag := if et = "bins".toList then .erg else .line }, noTime⟩)

/-- `_get_cdgsheader` (aux_meshtal_functions.py:766-775): comments, cooling time and strength -/
def cdgsHeader (num : ParseNum) (top : List Str) : Except PyErr (Str × ℚ × ℚ) :=
  match wordNum num (top.tail.tail.headD []) 1 with
  | .error e => .error e
  | .ok c =>
    match wordNum num (top.tail.tail.tail.headD []) 1 with
    | .error e => .error e
    | .ok s => .ok (top.tail.headD [], c, s)

/-- `CDGSMeshParser.get_FMesh` (mesh_parser.py:184-230); `MeshData` refuses other geometries -/
def getCdgs (cs sn : ℚ → ℚ) (num : ParseNum) (junk : Data) (d : Dict Str (List Str × List Str)) (n : Str) : Except PyErr Tally :=
  match Dict.get? d n with
  | none => .error .keyError
  | some (top, data) =>
    match cdgsBoundaries num top with
    | .error e => .error e
    | .ok (geom, b) =>
      if b.empty then .error .valueError
      else
        match readCdgs num junk 1 b.ne b.n3 b.n2 b.n1 data with
        | .error e => .error e
        | .ok v =>
          if geom ≠ "rec".toList ∧ geom ≠ "cyl".toList then .error .valueError
          else
            match mkFmesh cs sn (b.mesh v) (b.place.map (·.trsf)) none with
            | .error e => .error e
            | .ok f =>
              match cdgsHeader num top with
              | .error e => .error e
              | .ok (c, q) => .ok { fm := f, place := b.place, particle := none, comments := some c, source := some q }

/-! ### `Meshtal` -/

/-- order of strings in Python: by code points (Python, mesh_parser.py:41-49) -/
def strLe : Str → Str → Bool
  | [], _ => true
  | _ :: _, [] => false
  | a :: s, b :: t => if a.toNat < b.toNat then true else if b.toNat < a.toNat then false else strLe s t

/-- `get_meshlist` (mesh_parser.py:41-49, 109-117, 174-182) -/
def meshList {α : Type} (d : Dict Str α) : List Str := (Dict.keys d).insertionSort (fun a b => strLe a b = true)

/-- the argument of `readMesh` (meshtal.py:79-113) -/
inductive MeshArg where
  | none | one (n : ℤ) | many (l : List ℤ)

/-- the dictionary made for all meshes (meshtal.py:103-111): the mesh is read before its name is turned into a number -/
def readAll (get : Str → Except PyErr Tally) : List Str → Dict ℤ Tally → Except PyErr (Dict ℤ Tally)
  | [], d => .ok d
  | n :: ns, d =>
    match get n with
    | .error e => .error e
    | .ok t =>
      match parseInt n with
      | Option.none => .error .valueError
      | some k => readAll get ns (Dict.set d k t)

/-- the dictionary made for a list of numbers (meshtal.py:114-116) -/
def readMany (get : Str → Except PyErr Tally) : List ℤ → Dict ℤ Tally → Except PyErr (Dict ℤ Tally)
  | [], d => .ok d
  | n :: ns, d =>
    match get (intStr n) with
    | .error e => .error e
    | .ok t => readMany get ns (Dict.set d n t)

/-- the new content of `mesh` (meshtal.py:80-116): `None`, `0` and an empty list stand for all -/
def readMesh (get : Str → Except PyErr Tally) (names : List Str) : MeshArg → Except PyErr (Dict ℤ Tally)
  | .none => readAll get names []
  | .one n => if n = 0 then readAll get names [] else readMany get [n] []
  | .many l => if l = [] then readAll get names [] else readMany get l []

/-- a `Meshtal` after `readMesh`: the content of `mesh` is replaced only at the end (meshtal.py:25-244) -/
def afterRead (get : Str → Except PyErr Tally) (names : List Str) (old : Dict ℤ Tally) (arg : MeshArg) : Dict ℤ Tally × Option PyErr :=
  match readMesh get names arg with
  | .error e => (old, some e)
  | .ok d => (d, Option.none)

/-- `mesh_ids` (meshtal.py:241-244) -/
def meshIds (names : List Str) : Except PyErr (List ℤ) :=
  match names.mapM parseInt with
  | Option.none => .error .valueError
  | some ks => .ok (ks.insertionSort (· ≤ ·))

end F4Enix.MeshFile
