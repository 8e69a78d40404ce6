import Verif.Base.Tokens
import Verif.Base.Dict
import Verif.Base.Find
import Mathlib.Data.Int.Notation
import Mathlib.Data.Nat.Notation
/-!
# Model of `src/f4enix/output/eeout.py`

A file is the list of its lines. `float()` is a parameter. Where the code returns the index of a line, the model returns
the lines from there on. `\d` is an ASCII digit.
-/
namespace F4Enix.Eeout
open F4Enix

variable {K : Type}

/-- is the text in the line? (`line.find(tag) != -1`) (Python) -/
def has (tag : String) (l : Str) : Bool := Find.contains tag.toList l

/-- `\d+` at the beginning (`PAT_DIGIT`, constants.py:39) -/
def digitsAt (s : Str) : Option Str :=
  match s.takeWhile isDigit with
  | [] => none
  | w => some w

/-- `PAT_DIGIT.findall` (Python, eeout.py:41-50) -/
def digitGroups (s : Str) : List Str := Find.findAll digitsAt 0 s

/-- `[A-Za-z\s\d]` (eeout.py:42) -/
def isInfoChar (c : Char) : Bool :=
  (65 ≤ c.toNat && c.toNat ≤ 90) || (97 ≤ c.toNat && c.toNat ≤ 122) || isSpace c || isDigit c

/-- a line of `_read_info` (eeout.py:213-215) -/
def infoLine (l : Str) : Except PyErr (Str × ℕ) :=
  match l.takeWhile isInfoChar with
  | [] => .error .attributeError
  | n =>
    match (digitGroups l).getLast? with
    | none => .error .indexError
    | some ds => .ok (strip n, digitsVal ds)

/-- `_read_info` (eeout.py:204-220) -/
def infoLoop : Bool → Dict Str ℕ → List Str → Except PyErr (Dict Str ℕ)
  | _, _, [] => .error .runtimeError
  | r, d, l :: ls =>
    if (r || has "NUMBER OF PARTICLES" l) = true then
      match infoLine l with
      | .error e => .error e
      | .ok (n, v) => if has "NUMBER OF EDITS" l then .ok (Dict.set d n v) else infoLoop true (Dict.set d n v) ls
    else if has "NUMBER OF EDITS" l then .ok d else infoLoop false d ls

/-- `\s+MATERIALS` at the beginning (eeout.py:225) -/
def isMatHead (l : Str) : Bool := startsSpace l && "MATERIALS".toList.isPrefixOf (lstrip l)

/-- the lines behind the first such line; without one the loop ends at the last line (eeout.py:224-227) -/
def behindMats : List Str → List Str
  | [] => []
  | l :: ls => if isMatHead l then ls else behindMats ls

/-- the names (eeout.py:229-234), numbered from `i + 1` -/
def matNames : ℕ → ℕ → Dict ℕ Str → List Str → Except PyErr (Dict ℕ Str)
  | 0, _, d, _ => .ok d
  | _ + 1, _, _, [] => .error .indexError
  | n + 1, i, d, l :: ls =>
    match l.takeWhile (fun c => c ≠ '\n') with
    | [] => .error .attributeError
    | w => matNames n (i + 1) (Dict.set d (i + 1) (strip w)) ls

/-- `_read_particle_list` (eeout.py:238-249) -/
def particleList : List Str → Except PyErr (List ℕ)
  | [] => .error .runtimeError
  | l :: ls =>
    if has "PARTICLE LIST" l then
      match ls with
      | [] => .error .runtimeError
      | l' :: _ => .ok ((digitGroups l').map digitsVal)
    else particleList ls

/-- `[-+]*\d.\d+E[+-]\d+` at the beginning (`SCIENTIFIC_PAT`, constants.py:47) -/
def sciAt (s : Str) : Option Str :=
  match s.dropWhile (fun c => c == '-' || c == '+') with
  | d :: p :: r =>
    if isDigit d = true ∧ p ≠ '\n' ∧ r.takeWhile isDigit ≠ [] then
      match r.dropWhile isDigit with
      | 'E' :: g :: t =>
        if (g = '+' ∨ g = '-') ∧ t.takeWhile isDigit ≠ [] then
          some (s.takeWhile (fun c => c == '-' || c == '+') ++ d :: p :: (r.takeWhile isDigit ++ 'E' :: g :: t.takeWhile isDigit))
        else none
      | _ => none
    else none
  | _ => none

/-- the numbers of a line of coordinates (eeout.py:291-295) -/
def sciWords (l : Str) : List Str := (tokens l).filterMap (Find.search sciAt)

/-- `float()` of the words (Python, eeout.py:425-448) -/
def floats (pf : Str → Option K) : List Str → Except PyErr (List K)
  | [] => .ok []
  | w :: ws =>
    match pf w with
    | none => .error .valueError
    | some v =>
      match floats pf ws with
      | .error e => .error e
      | .ok vs => .ok (v :: vs)

/-- the numbers of a line if the flag is set (eeout.py:425-448) -/
def take (pf : Str → Option K) (flag : Bool) (l : Str) (acc : List K) : Except PyErr (List K) :=
  if flag = true then
    match floats pf (sciWords l) with
    | .error e => .error e
    | .ok vs => .ok (acc ++ vs)
  else .ok acc

/-- the columns side by side (eeout.py:327-330): `ValueError` if they differ in length -/
def columns (xs ys zs : List K) : Except PyErr (List (K × K × K)) :=
  if xs.length = ys.length ∧ ys.length = zs.length then .ok (xs.zip (ys.zip zs)) else .error .valueError

/-- `_read_nodes_xyz` (eeout.py:271-325): the points, the lines from `ELEMENT TYPE` on -/
def nodesLoop (pf : Str → Option K) : Bool → Bool → Bool → List K → List K → List K → List Str →
    Except PyErr (List (K × K × K) × List Str)
  | _, _, _, _, _, _, [] => .error .runtimeError
  | fx, fy, fz, xs, ys, zs, l :: ls =>
    match take pf fx l xs with
    | .error e => .error e
    | .ok xs' =>
      match take pf fy l ys with
      | .error e => .error e
      | .ok ys' =>
        match take pf fz l zs with
        | .error e => .error e
        | .ok zs' =>
          let fx' := !has "NODES Y" l && (fx || has "NODES X" l)
          let fy' := !has "NODES Z" l && (fy || has "NODES Y" l)
          let fz' := fz || has "NODES Z" l
          if " ELEMENT TYPE".toList.isPrefixOf l then
            match columns xs' ys' zs' with
            | .error e => .error e
            | .ok ps => .ok (ps, l :: ls)
          else nodesLoop pf fx' fy' fz' xs' ys' zs' ls

/-- `int()` of the words of a line; a blank line is split into one empty word (Python, eeout.py:327-370) -/
def ints : List Str → Except PyErr (List ℤ)
  | [] => .ok []
  | w :: ws =>
    match parseInt w with
    | none => .error .valueError
    | some v =>
      match ints ws with
      | .error e => .error e
      | .ok vs => .ok (v :: vs)

/-- `PAT_SPACE.split(line.strip())` (Python, eeout.py:327-370) -/
def words (l : Str) : List Str := if tokens l = [] then [[]] else tokens l

/-- `_read_material` (eeout.py:251-270): the materials of the elements, the lines from `CONNECTIVITY DATA` on. Behind the end of
the file nothing is returned, which cannot be unpacked (`TypeError`). -/
def materialLoop : Bool → List ℤ → List Str → Except PyErr (List ℤ × List Str)
  | _, _, [] => .error .typeError
  | f, acc, l :: ls =>
    if has "CONNECTIVITY DATA" l then .ok (acc.take (acc.length - 6), l :: ls)
    else
      match (if f = true then ints (words l) else .ok []) with
      | .error e => .error e
      | .ok vs => materialLoop (f || has "ELEMENT MATERIAL" l) (acc ++ vs) ls

/-- the lines of the connectivity (eeout.py:330-344), the lines from `NEAREST NEIGHBOR DATA` on (from the last line on if there is
none) -/
def connLines : Bool → List Str → List Str → Except PyErr (List Str × List Str)
  | _, acc, [] => .ok (acc, [])
  | f, acc, l :: ls =>
    let acc' := if f = true then acc ++ [l] else acc
    if (has "CONNECTIVITY DATA" l && has "NODE ORDERED" l) = true then .error .notImplemented
    else if has "NEAREST NEIGHBOR DATA" l then .ok (acc', l :: ls)
    else
      match ls with
      | [] => .ok (acc', [l])
      | _ => connLines (f || has "CONNECTIVITY DATA" l) acc' ls

/-- `int(PAT_DIGIT.search(word).group()) - 1` (eeout.py:360) -/
def nodeIds : List Str → Except PyErr (List ℤ)
  | [] => .ok []
  | w :: ws =>
    match searchDigits w with
    | none => .error .attributeError
    | some ds =>
      match nodeIds ws with
      | .error e => .error e
      | .ok vs => .ok (((digitsVal ds : ℤ) - 1) :: vs)

/-- all lines (eeout.py:327-370) -/
def nodeIdLines : List Str → Except PyErr (List ℤ)
  | [] => .ok []
  | l :: ls =>
    match nodeIds (words l) with
    | .error e => .error e
    | .ok vs =>
      match nodeIdLines ls with
      | .error e => .error e
      | .ok ws => .ok (vs ++ ws)

/-- rows of `n` (eeout.py:363), each behind its length (365-368); the fuel is the number of values -/
def rows (n : ℕ) : ℕ → List ℤ → List (List ℤ)
  | 0, _ => []
  | f + 1, l => if l = [] then [] else ((n : ℤ) :: l.take n) :: rows n f (l.drop n)

/-- `_read_connectivity` (eeout.py:327-370) -/
def connectivity (n : ℕ) (lines : List Str) : Except PyErr (List (List ℤ) × List Str) :=
  match connLines false [] lines with
  | .error e => .error e
  | .ok (data, rest) =>
    if data.length < 2 then .error .indexError
    else
      match nodeIdLines (data.take (data.length - 2)) with
      | .error e => .error e
      | .ok ids => if ids.length % n = 0 then .ok (rows n ids.length ids, rest) else .error .valueError

/-- `(?<=tag)\s+p+` at the beginning of the text that starts with the tag (Python, eeout.py:372-423) -/
def afterAt (tag : String) (p : Char → Bool) (s : Str) : Option Str :=
  if tag.toList.isPrefixOf s = true ∧ startsSpace (s.drop tag.toList.length) = true ∧
      (lstrip (s.drop tag.toList.length)).takeWhile p ≠ [] then
    some ((lstrip (s.drop tag.toList.length)).takeWhile p)
  else none

/-- `\w`: simplification: ASCII letters, digits and `_` (Python) -/
def isWordChar (c : Char) : Bool :=
  (65 ≤ c.toNat && c.toNat ≤ 90) || (97 ≤ c.toNat && c.toNat ≤ 122) || isDigit c || c == '_'

/-- the name of an edit (eeout.py:395-399) -/
def editName (l : Str) : Except PyErr Str :=
  match Find.search (afterAt "DATA OUTPUT PARTICLE :" isDigit) l with
  | none => .error .attributeError
  | some p =>
    match Find.search (afterAt "EDIT LIST :" isDigit) l with
    | none => .error .attributeError
    | some e =>
      match Find.search (afterAt "TYPE :" isWordChar) l with
      | none => .error .attributeError
      | some t => .ok ("Tally".toList ++ natStr (digitsVal e) ++ "_par".toList ++ natStr (digitsVal p) ++ '_' :: t)

/-- `\s[\s-]\d` at the beginning (`PAT_VALUE`, eeout.py:43) -/
def isValueLine : Str → Bool
  | a :: b :: c :: _ => isSpace a && (isSpace b || b == '-') && isDigit c
  | _ => false

/-- what is read of an edit (eeout.py:372-423) -/
structure Field (K : Type) where
  values : Option (List K) := none
  errors : Option (List K) := none
  deriving DecidableEq, Repr

/-- which of the two is being read (eeout.py:372-423) -/
inductive Which where
  | values | errors
  deriving DecidableEq, Repr

/-- `edits[current_tally][value_type] = values` (eeout.py:372-423) -/
def Field.put (f : Field K) : Which → List K → Field K
  | .values, v => { f with values := some v }
  | .errors, v => { f with errors := some v }

/-- the variables of the loop: the edits, the current one, what is read and the values so far (eeout.py:372-423) -/
structure State (K : Type) where
  edits : Dict Str (Field K) := []
  cur : Option Str := none
  reading : Option (Which × List K) := none

/-- a line of an edit (eeout.py:378-421) -/
def editStep (pf : Str → Option K) (s : State K) (l : Str) : Except PyErr (State K) :=
  match (if has "DATA OUTPUT PARTICLE" l then
      (match editName l with
      | .error e => .error e
      | .ok n => .ok { s with cur := some n, edits := Dict.set s.edits n {} })
    else .ok s : Except PyErr (State K)) with
  | .error e => .error e
  | .ok s =>
    match (match s.reading with
      | none => .ok s
      | some (w, acc) =>
        if isValueLine l then
          (match floats pf (tokens l) with
          | .error e => .error e
          | .ok vs => .ok { s with reading := some (w, acc ++ vs) })
        else
          (match s.cur with
          | none => .error .unboundLocal
          | some n => .ok { s with
              edits := Dict.set s.edits n (Field.put ((Dict.get? s.edits n).getD {}) w (acc.drop 1)), reading := none }) :
        Except PyErr (State K)) with
    | .error e => .error e
    | .ok s =>
      if has "DATA SETS RESULT TIME BIN" l || has "DATA SETS REL ERROR TIME BIN" l then
        .ok { s with reading := some (if has "RESULT" l then .values else .errors, []) }
      else .ok s

/-- `_read_edits` (eeout.py:372-423): the edits, the lines from `CENTROIDS X` on -/
def editsLoop (pf : Str → Option K) : State K → List Str → Except PyErr (Dict Str (Field K) × List Str)
  | _, [] => .error .runtimeError
  | s, l :: ls =>
    match editStep pf s l with
    | .error e => .error e
    | .ok s' => if has "CENTROIDS X" l then .ok (s'.edits, l :: ls) else editsLoop pf s' ls

/-- `_read_rho_vol` (eeout.py:425-448) -/
def rhoVolLoop (pf : Str → Option K) : Bool → Bool → List K → List K → List Str → Except PyErr (List K × List K)
  | _, _, ds, vs, [] => .ok (ds, vs)
  | fd, fv, ds, vs, l :: ls =>
    match (if (fd || fv) && isValueLine l then floats pf (tokens l) else .ok []) with
    | .error e => .error e
    | .ok xs =>
      rhoVolLoop pf (!has "VOLUMES" l && (fd || has "DENSITY" l)) (fv || has "VOLUMES" l)
        (if fd = true then ds ++ xs else ds) (if fd = true then vs else vs ++ xs) ls

/-- the grid; `pyvista` attaches an array to the points if it has as many entries as there are points, otherwise to the
cells if it has as many as there are cells (`DataSet.__setitem__`, assumed) (pyvista, eeout.py:57-166) -/
inductive Loc where
  | points | cells
  deriving DecidableEq, Repr

/-- `Grid` (pyvista, eeout.py:57-166) -/
structure Grid (K : Type) where
  points : List (K × K × K)
  cells : List (List ℤ)
  /-- the VTK number of the type of all cells -/
  cellType : ℕ
  material : List (Option Str) × Loc
  arrays : Dict Str (List K × Loc)
  deriving DecidableEq, Repr

/-- where the array goes (pyvista, eeout.py:57-166) -/
def place (np nc len : ℕ) : Except PyErr Loc :=
  if len = np then .ok .points else if len = nc then .ok .cells else .error .valueError

/-- `grid[name] = values` (pyvista, eeout.py:57-166) -/
def putArray (np nc : ℕ) (d : Dict Str (List K × Loc)) (name : Str) (v : List K) : Except PyErr (Dict Str (List K × Loc)) :=
  match place np nc v.length with
  | .error e => .error e
  | .ok loc => .ok (Dict.set d name (v, loc))

/-- the fields (eeout.py:160-162) -/
def putFields (np nc : ℕ) : Dict Str (List K × Loc) → Dict Str (Field K) → Except PyErr (Dict Str (List K × Loc))
  | d, [] => .ok d
  | d, (n, f) :: fs =>
    match f.values with
    | none => .error .keyError
    | some v =>
      match putArray np nc d (n ++ " - value".toList) v with
      | .error e => .error e
      | .ok d =>
        match f.errors with
        | none => .error .keyError
        | some v =>
          match putArray np nc d (n ++ " - error".toList) v with
          | .error e => .error e
          | .ok d => putFields np nc d fs

/-- the grid of the data (eeout.py:147-162): both kinds of tetrahedra get the type `TETRA` (10). `UnstructuredGrid` refuses a
number of cells that differs from that of the types (`ValueError`, assumed); `np.vectorize` refuses an empty list. -/
def build (nElem : ℕ) (names : Dict ℕ Str) (points : List (K × K × K)) (conn : List (List ℤ)) (mats : List ℤ)
    (edits : Dict Str (Field K)) (rho vol : List K) : Except PyErr (Grid K) :=
  if conn.length ≠ nElem then .error .valueError
  else if mats = [] then .error .valueError
  else
    match place points.length conn.length mats.length with
    | .error e => .error e
    | .ok loc =>
      match putArray points.length conn.length [] "density".toList rho with
      | .error e => .error e
      | .ok d =>
        match putArray points.length conn.length d "volume".toList vol with
        | .error e => .error e
        | .ok d =>
          match putFields points.length conn.length d edits with
          | .error e => .error e
          | .ok d => .ok ⟨points, conn, 10, (mats.map (fun m => if 0 ≤ m then Dict.get? names m.toNat else none), loc), d⟩

/-- the elements: how many, and the number of nodes of each (eeout.py:114-126, 356-359) -/
def elements (t1 t2 : ℕ) : Except PyErr (ℕ × ℕ) :=
  if 0 < t1 ∧ t2 = 0 then .ok (t1, 4) else if 0 < t2 ∧ t1 = 0 then .ok (t2, 10) else .error .notImplemented

/-- `self.info[name]` (eeout.py:204-220) -/
def getInfo (info : Dict Str ℕ) (name : String) : Except PyErr ℕ :=
  match Dict.get? info name.toList with
  | none => .error .keyError
  | some v => .ok v

/-- `EEOUT.__init__` (eeout.py:57-166) -/
def readFile (pf : Str → Option K) (lines : List Str) : Except PyErr (Grid K) := do
  let info ← infoLoop false [] lines
  let nm ← getInfo info "NUMBER OF MATERIALS"
  let names ← matNames nm 0 [] (behindMats lines)
  let t1 ← getInfo info "NUMBER OF 1st TETS"
  let t2 ← getInfo info "NUMBER OF 2nd TETS"
  let _ ← getInfo info "NUMBER OF NODES"
  let (nElem, nNodes) ← elements t1 t2
  let plist ← particleList lines
  let np ← getInfo info "NUMBER OF PARTICLES"
  if plist.length ≠ np then Except.error .assertionError
  let (points, ls) ← nodesLoop pf false false false [] [] [] lines
  let (mats, ls) ← materialLoop false [] ls
  let (conn, ls) ← connectivity nNodes ls
  let (edits, ls) ← editsLoop pf {} ls
  let (rho, vol) ← rhoVolLoop pf false false [] [] ls
  build nElem names points conn mats edits rho vol

end F4Enix.Eeout
