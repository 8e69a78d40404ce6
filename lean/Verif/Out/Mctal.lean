import Verif.Base.Text
import Verif.Base.Tokens
import Mathlib.Data.Rat.Defs
/-!
# Model of the MCTAL reader, `src/f4enix/output/mctal.py`

The file is a list of lines, each with its newline. `float(str)` is a parameter: `none` is the
`ValueError`, `some none` a NaN. Infinities are not modelled. Logging is not modelled (an explicit
`logging.error(…, file=…)` call raises `TypeError`, which is).
-/
namespace F4Enix.Mctal
open F4Enix

/-- a float: `none` is NaN (Python) -/
abbrev Num := Option ℚ

/-- `float(s)`; `none` is the `ValueError` (Python) -/
abbrev ParseNum := Str → Option Num

/-- `float(w)` for every word (Python, mctal.py:876-877) -/
def floats (num : ParseNum) : List Str → Except PyErr (List Num)
  | [] => .ok []
  | w :: ws =>
    match num w with
    | none => .error .valueError
    | some x =>
      match floats num ws with
      | .error e => .error e
      | .ok xs => .ok (x :: xs)

/-- `int(w)` (Python, mctal.py:842) -/
def toInt (w : Str) : Except PyErr ℤ :=
  match parseInt w with
  | none => .error .valueError
  | some i => .ok i

/-- `int(words[i])` (Python, mctal.py:804-807) -/
def intAt (ws : List Str) (i : Nat) : Except PyErr ℤ :=
  match ws[i]? with
  | none => .error .indexError
  | some w => toInt w

/-- `Tally` (mctal.py:80-222); `vals` is `valsErrors`: value and error per bin, in the index order
cells, direct, user, segment, multiplier, cosine, energy, time, i, j, k -/
structure Tally where
  number : ℤ
  typeNumber : ℤ := 0
  detectorType : ℤ := 0
  radiograph : Bool := false
  mesh : Bool := false
  particles : List ℤ := []
  comment : List Str := []
  nCells : ℤ := 0
  meshInfo : ℤ × ℤ × ℤ × ℤ := (0, 1, 1, 1)
  nDir : ℤ := 0
  nUsr : ℤ := 0
  usrTC : Option Char := none
  nSeg : ℤ := 0
  segTC : Option Char := none
  nMul : ℤ := 0
  mulTC : Option Char := none
  nCos : ℤ := 0
  cosTC : Option Char := none
  cosFlag : ℤ := 0
  nErg : ℤ := 0
  ergTC : Option Char := none
  ergFlag : ℤ := 0
  nTim : ℤ := 0
  timTC : Option Char := none
  timFlag : ℤ := 0
  cells : List Num := []
  usr : List Num := []
  seg : List Num := []
  cos : List Num := []
  erg : List Num := []
  tim : List Num := []
  cora : List Num := []
  corb : List Num := []
  corc : List Num := []
  vals : List Nat → Num × Num := fun _ => (none, none)
  tfcJtf : List ℤ := []
  tfcDat : List (ℤ × List Num) := []

/-- `n if n != 0 else 1` (mctal.py:515-565, including the total bin) -/
def atLeast1 (n : ℤ) : ℤ := if n = 0 then 1 else n

/-- the shape of `valsErrors` (mctal.py:225-246), without the last axis; negative sizes raise
`ValueError` there and are cut to zero here (no index is valid then) -/
def Tally.shape (t : Tally) : List Nat :=
  [(atLeast1 t.nCells).toNat, (atLeast1 t.nDir).toNat, (atLeast1 t.nUsr).toNat,
   (atLeast1 t.nSeg).toNat, (atLeast1 t.nMul).toNat, (atLeast1 t.nCos).toNat,
   (atLeast1 t.nErg).toNat, (atLeast1 t.nTim).toNat,
   t.meshInfo.2.1.toNat, t.meshInfo.2.2.1.toNat, t.meshInfo.2.2.2.toNat]

/-! ### the value loops -/

/-- the variables of the value loops (mctal.py:1004-1026): field position, last field position, fields,
stripped line, lines still to read -/
structure Reader where
  f : ℤ
  nFld : ℤ
  fld : List Str
  line : Str
  rest : List Str

/-- `self.mctalFile.readline()`: the next line, `""` at the end of the file (Python, mctal.py:814) -/
def readline : List Str → Str × List Str
  | [] => ([], [])
  | l :: ls => (l, ls)

/-- `if f > nFld:` read the next line (mctal.py:1027-1035) -/
def Reader.refill (r : Reader) : Reader :=
  if r.f > r.nFld then
    let l := readline r.rest
    { f := 0, nFld := ((tokens (strip l.1)).length : ℤ) - 1, fld := tokens (strip l.1),
      line := strip l.1, rest := l.2 }
  else r

/-- `float(Fld[f])`, `float(Fld[f + 1])` with both zero on a `ValueError` (mctal.py:1039-1044) -/
def pairAt (num : ParseNum) (fld : List Str) (f : Nat) : Except PyErr (Num × Num) :=
  match fld[f]? with
  | none => .error .indexError
  | some a =>
    match num a with
    | none => .ok (some 0, some 0)
    | some va =>
      match fld[f + 1]? with
      | none => .error .indexError
      | some b =>
        match num b with
        | none => .ok (some 0, some 0)
        | some vb => .ok (va, vb)

/-- one pass through the innermost loop body (mctal.py:1027-1081) for the bin `idx` -/
def valueStep (num : ParseNum) (idx : List Nat) (r : Reader) (v : List Nat → Num × Num) :
    Except PyErr (Reader × (List Nat → Num × Num)) :=
  let r := r.refill
  if r.line.take 3 = "tfc".toList then .ok (r, v)
  else
    match pairAt num r.fld r.f.toNat with
    | .error e => .error e
    | .ok p => .ok ({ r with f := r.f + 2 }, fun i => if i = idx then p else v i)

/-- the loops over a list of bins (mctal.py:1016-1026) -/
def valueLoop (num : ParseNum) : List (List Nat) → Reader → (List Nat → Num × Num) →
    Except PyErr (Reader × (List Nat → Num × Num))
  | [], r, v => .ok (r, v)
  | idx :: is, r, v =>
    match valueStep num idx r v with
    | .error e => .error e
    | .ok (r, v) => valueLoop num is r v

/-- the bins in the order of the eleven nested loops (mctal.py:1016-1026): the first three sizes vary
slowest; of the mesh indices `k` is outside `j` outside `i`, but the index is stored as `i, j, k` -/
def binOrder : List Nat → List (List Nat)
  | [nC, nD, nU, nS, nM, nA, nE, nT, nI, nJ, nK] =>
    (List.range nC).flatMap fun c => (List.range nD).flatMap fun d => (List.range nU).flatMap fun u =>
    (List.range nS).flatMap fun s => (List.range nM).flatMap fun m => (List.range nA).flatMap fun a =>
    (List.range nE).flatMap fun e => (List.range nT).flatMap fun t => (List.range nK).flatMap fun k =>
    (List.range nJ).flatMap fun j => (List.range nI).map fun i => [c, d, u, s, m, a, e, t, i, j, k]
  | _ => []

/-- the value section (mctal.py:998-1083); `empty` is the content of the fresh `np.empty` array.
Gives the remaining lines and the last line (stripped). -/
def readValues (num : ParseNum) (empty : List Nat → Num × Num) (shape : List Nat) (lines : List Str) :
    Except PyErr ((List Nat → Num × Num) × Str × List Str) :=
  match valueLoop num (binOrder shape) { f := 1, nFld := 0, fld := [], line := [], rest := lines } empty with
  | .error e => .error e
  | .ok (r, v) => .ok (v, r.line, r.rest)

/-! ### the bin sections -/

/-- the `_insert…` methods (mctal.py:338-433) for all the numbers of a line: a list may grow up to
`cap + 1` entries -/
def insertAll (cap : ℤ) : List Num → List Num → Except PyErr (List Num)
  | acc, [] => .ok acc
  | acc, x :: xs => if (acc.length : ℤ) ≤ cap then insertAll cap (acc ++ [x]) xs else .error .ioError

/-- `self.line[0].lower() == c`; `IndexError` on an empty line (Python, mctal.py:821) -/
def startsWithCI (c : Char) (l : Str) : Bool :=
  match l with
  | [] => false
  | x :: _ => x.toLower == c

/-- `while self.line[0].lower() != c:` insert the numbers of the line (e.g. mctal.py:874-882) -/
def readBins (num : ParseNum) (c : Char) (cap : ℤ) : List Num → List Str →
    Except PyErr (List Num × Str × List Str)
  | _, [] => .error .indexError
  | acc, l :: ls =>
    if l = [] then .error .indexError
    else if startsWithCI c l then .ok (acc, l, ls)
    else
      match floats num (tokens l) with
      | .error e => .error e
      | .ok xs =>
        match insertAll cap acc xs with
        | .error e => .error e
        | .ok acc => readBins num c cap acc ls

/-- `while self.line.strip().lower() != "vals":` (mctal.py:987-996); at the end of the file the loop
never ends -/
def readTimes (num : ParseNum) (cap : ℤ) : List Num → List Str → Except PyErr (List Num × List Str)
  | _, [] => .error .diverges
  | acc, l :: ls =>
    if (strip l).map Char.toLower = "vals".toList then .ok (acc, ls)
    else
      match floats num (tokens l) with
      | .error e => .error e
      | .ok xs =>
        match insertAll cap acc xs with
        | .error e => .error e
        | .ok acc => readTimes num cap acc ls

/-- `while self.line[0].lower() != c: self.line = readline()` (mctal.py:862-863, 918-919) -/
def skipTo (c : Char) : List Str → Except PyErr (Str × List Str)
  | [] => .error .indexError
  | l :: ls =>
    if l = [] then .error .indexError
    else if startsWithCI c l then .ok (l, ls) else skipTo c ls

/-- the total/cumulative mark of a section word, e.g. `et`, `ec` (mctal.py:957-961) -/
def totalMark (c : Char) (w : Str) : Option Char :=
  if w.map Char.toLower = [c, 't'] then some 't'
  else if w.map Char.toLower = [c, 'c'] then some 'c' else none

/-- first word of a section line (mctal.py:866, 871) -/
def headWord (ws : List Str) : Str := ws.headD []

/-- the optional third word of a section line (mctal.py:963-964 and similar) -/
def flagOf (ws : List Str) : Except PyErr ℤ := if ws.length = 3 then intAt ws 2 else .ok 0

/-- numbers of a cell line (mctal.py:841-849): decimal if there is a `.` and no `E` -/
def cellNums (num : ParseNum) (l : Str) : Except PyErr (List Num) :=
  if '.' ∈ l ∧ 'E' ∉ l then floats num (tokens l)
  else
    let rec ints : List Str → Except PyErr (List Num)
      | [] => .ok []
      | w :: ws =>
        match toInt w with
        | .error e => .error e
        | .ok i =>
          match ints ws with
          | .error e => .error e
          | .ok is => .ok (some (i : ℚ) :: is)
    ints (tokens l)

/-- the cell section (mctal.py:821-851) of a tally that is not a mesh. Simplification: the numbers of a
line are converted before any of them is inserted (which error comes first can differ). -/
def readCells (num : ParseNum) (cap : ℤ) : List Num → List Str → Except PyErr (List Num × Str × List Str)
  | _, [] => .error .indexError
  | acc, l :: ls =>
    if l = [] then .error .indexError
    else if startsWithCI 'd' l then .ok (acc, l, ls)
    else
      match cellNums num l with
      | .error e => .error e
      | .ok xs =>
        match insertAll cap acc xs with
        | .error e => .error e
        | .ok acc => readCells num cap acc ls

/-- the three coordinate lists of a mesh while they are read: axis in use, count on the axis (mctal.py:816-819, 347-369) -/
structure Cors where
  axis : Nat
  count : ℤ
  a : List Num
  b : List Num
  c : List Num

/-- one coordinate (mctal.py:824-832 with `_insertCorBin` 347-369) -/
def insertCor (n : ℤ × ℤ × ℤ) (s : Cors) (x : Num) : Except PyErr Cors :=
  if s.axis = 0 then
    if (s.a.length : ℤ) ≤ n.1 + 1 then
      .ok (if s.count + 1 = n.1 + 1 then { s with a := s.a ++ [x], axis := 1, count := 0 }
        else { s with a := s.a ++ [x], count := s.count + 1 })
    else .error .ioError
  else if s.axis = 1 then
    if (s.b.length : ℤ) ≤ n.2.1 + 1 then
      .ok (if s.count + 1 = n.2.1 + 1 then { s with b := s.b ++ [x], axis := 2, count := 0 }
        else { s with b := s.b ++ [x], count := s.count + 1 })
    else .error .ioError
  else if s.axis = 2 then
    if (s.c.length : ℤ) ≤ n.2.2 + 1 then
      .ok (if s.count + 1 = n.2.2 + 1 then { s with c := s.c ++ [x], axis := 3, count := 0 }
        else { s with c := s.c ++ [x], count := s.count + 1 })
    else .error .ioError
  else .error .indexError

/-- all the coordinates of a line (mctal.py:823-832) -/
def insertCors (n : ℤ × ℤ × ℤ) : Cors → List Num → Except PyErr Cors
  | s, [] => .ok s
  | s, x :: xs =>
    match insertCor n s x with
    | .error e => .error e
    | .ok s => insertCors n s xs

/-- the cell section of a mesh (mctal.py:821-856) -/
def readCors (num : ParseNum) (n : ℤ × ℤ × ℤ) : Cors → List Str → Except PyErr (Cors × Str × List Str)
  | _, [] => .error .indexError
  | s, l :: ls =>
    if l = [] then .error .indexError
    else if startsWithCI 'd' l then .ok (s, l, ls)
    else
      match floats num (tokens l) with
      | .error e => .error e
      | .ok xs =>
        match insertCors n s xs with
        | .error e => .error e
        | .ok s => readCors num n s ls

/-- the tally comment lines (mctal.py:794-796) -/
def readComments : List Str → List Str × Str × List Str
  | [] => ([], [], [])
  | l :: ls =>
    if l.take 5 = "     ".toList then
      let r := readComments ls
      (rstrip (l.drop 5) :: r.1, r.2)
    else ([], l, ls)

/-- `p.isdigit()` particle flags (mctal.py:778-789) -/
def particleFlags : List Str → Except PyErr (List ℤ)
  | [] => .ok []
  | w :: ws =>
    if w ≠ [] ∧ w.all isDigit then
      match particleFlags ws with
      | .error e => .error e
      | .ok is => .ok ((digitsVal w : ℤ) :: is)
    else .error .systemExit

/-- is this line a particle list (mctal.py:776)? `IndexError` on shorter lines -/
def isParticleLine : Str → Except PyErr Bool
  | [] => .error .indexError
  | ' ' :: [] => .error .indexError
  | ' ' :: c :: _ => .ok (c ≠ ' ')
  | _ => .ok false

/-- the tally fluctuation chart (mctal.py:1100-1129): lines up to one that is empty or contains
`tally`; gives that line (stripped) -/
def contains (sub : Str) : Str → Bool
  | [] => sub.isEmpty
  | c :: cs => sub.isPrefixOf (c :: cs) || contains sub cs

/-- one line of the chart (mctal.py:1103-1127) -/
def chartLine (num : ParseNum) (ws : List Str) : Except PyErr (ℤ × List Num) :=
  match ws with
  | [] => .error .indexError
  | w :: ws' =>
    match toInt w with
    | .error e => .error e
    | .ok nps =>
      match ws' with
      | a :: b :: more =>
        match num b with
        | none => .error .valueError
        | some vb =>
          let va := (num a).getD (some 0)
          match more with
          | [c] =>
            match num c with
            | none => .error .valueError
            | some vc => .ok (nps, [va, vb, vc])
          | _ => .ok (nps, [va, vb])
      | _ => .error .indexError

/-- the chart loop (mctal.py:1101-1129) -/
def readChart (num : ParseNum) : List Str → Except PyErr (List (ℤ × List Num) × Str × List Str)
  | [] => .ok ([], [], [])
  | l :: ls =>
    if contains "tally".toList (strip l) ∨ strip l = [] then .ok ([], strip l, ls)
    else
      match chartLine num (tokens (strip l)) with
      | .error e => .error e
      | .ok d =>
        match readChart num ls with
        | .error e => .error e
        | .ok (ds, r) => .ok (d :: ds, r)

/-- `while "tally" not in self.line and len(self.line) != 0` after the values of a mesh
(mctal.py:1132-1133) -/
def skipMesh : Str → List Str → Str × List Str
  | line, [] => if contains "tally".toList line ∨ line = [] then (line, []) else ([], [])
  | line, l :: ls =>
    if contains "tally".toList line ∨ line = [] then (line, l :: ls) else skipMesh (strip l) ls

/-- all words of a `tfc` line as integers (mctal.py:1095) -/
def toInts : List Str → Except PyErr (List ℤ)
  | [] => .ok []
  | w :: ws =>
    match toInt w with
    | .error e => .error e
    | .ok i =>
      match toInts ws with
      | .error e => .error e
      | .ok is => .ok (i :: is)

/-- the part of `_parseTally` from the tally line to the `f` line (mctal.py:749-808) -/
def parseStart (line : List Str) (lines : List Str) : Except PyErr (Tally × List Str) := do
  let number ← intAt line 1
  let typeNumber ← intAt line 2
  let detectorType ← intAt line 3
  let radiograph := decide (detectorType ≥ 3)
  let mesh := decide (detectorType ≤ -1)
  let (l, lines) := readline lines
  let isP ← isParticleLine l
  let particles ← if isP then particleFlags (tokens l) else pure []
  let lines := if particles = [] then l :: lines else lines
  let (comment, l, lines) := readComments lines
  let ws := tokens l
  let t : Tally := { number, typeNumber, detectorType, radiograph, mesh, particles, comment }
  if mesh then
    let m0 ← intAt ws 2
    let m1 ← intAt ws 3
    let m2 ← intAt ws 4
    let m3 ← intAt ws 5
    pure ({ t with nCells := 1, meshInfo := (m0, m1, m2, m3) }, lines)
  else
    let n ← intAt ws 1
    pure ({ t with nCells := n }, lines)

/-- does `str(n)` end with a 5? (Python, mctal.py:810) -/
def endsIn5 (n : ℤ) : Bool := n.natAbs % 10 == 5

/-- cells or mesh coordinates (mctal.py:821-856), up to the `d` line -/
def parseCells (num : ParseNum) (t : Tally) (lines : List Str) :
    Except PyErr (Tally × Str × List Str) :=
  let t := if endsIn5 t.number then
      { t with cells := (List.range t.nCells.toNat).map (fun k : ℕ => some ((k : ℚ) + 1)) } else t
  if t.mesh then
    match readCors num (t.meshInfo.2) { axis := 0, count := 0, a := [], b := [], c := [] } lines with
    | .error e => .error e
    | .ok (s, l, lines) =>
      .ok ({ t with cora := s.a.dropLast, corb := s.b.dropLast, corc := s.c.dropLast }, l, lines)
  else
    match readCells num t.nCells t.cells lines with
    | .error e => .error e
    | .ok (cs, l, lines) => .ok ({ t with cells := cs }, l, lines)

/-- drop the last three entries (mctal.py:950-955) -/
def dropLast3 (l : List Num) : List Num := l.dropLast.dropLast.dropLast

/-- the sections from `d` to `t` (mctal.py:858-996) -/
def parseBins (num : ParseNum) (t : Tally) (l : Str) (lines : List Str) :
    Except PyErr (Tally × List Str) := do
  let nDir ← intAt (tokens l) 1
  let (l, lines) ← skipTo 'u' lines
  let nUsr ← intAt (tokens l) 1
  let usrTC := totalMark 'u' (headWord (tokens l))
  let (usr, l, lines) ← readBins num 's' nUsr [] lines
  let nSeg ← intAt (tokens l) 1
  let segTC := totalMark 's' (headWord (tokens l))
  let (seg, l, lines) ← readBins num 'm' (if t.radiograph then nSeg + 1 else nSeg) [] lines
  let nMul ← intAt (tokens l) 1
  let mulTC := totalMark 'm' (headWord (tokens l))
  let (l, lines) ← skipTo 'c' lines
  let nCos ← intAt (tokens l) 1
  let cosTC := totalMark 'c' (headWord (tokens l))
  let cosFlag ← flagOf (tokens l)
  let (cos, l, lines) ← readBins num 'e' (if t.radiograph then nCos + 1 else nCos) [] lines
  let nErg ← intAt (tokens l) 1
  let ergTC := totalMark 'e' (headWord (tokens l))
  let ergFlag ← flagOf (tokens l)
  let (erg, l, lines) ← readBins num 't' nErg [] lines
  let nTim ← intAt (tokens l) 1
  let timTC := totalMark 't' (headWord (tokens l))
  let timFlag ← flagOf (tokens l)
  let (tim, lines) ← readTimes num nTim [] lines
  pure ({ t with nDir, nUsr, usrTC, usr, nSeg, segTC, nMul, mulTC, nCos, cosTC, cosFlag
                 nErg, ergTC, ergFlag, erg, nTim, timTC, timFlag, tim
                 seg := if t.radiograph then dropLast3 seg else seg
                 cos := if t.radiograph then dropLast3 cos else cos }, lines)

/-- the values and the chart (mctal.py:998-1142); gives the tally, the next `tally` line as words
(`none` at the end of the file) and the lines left -/
def parseValues (num : ParseNum) (empty : List Nat → Num × Num) (t : Tally) (lines : List Str) :
    Except PyErr (Tally × Option (List Str) × List Str) :=
  match readValues num empty t.shape lines with
  | .error e => .error e
  | .ok (v, line, lines) =>
    let t := { t with vals := v }
    if t.mesh then
      let r := skipMesh line lines
      .ok (t, if r.1 = [] then none else some (tokens r.1), r.2)
    else
      let (l, lines) := readline lines
      match tokens (strip l) with
      | [] => .error .indexError
      | w :: ws =>
        if w ≠ "tfc".toList then .error .ioError
        else
          match toInts ws with
          | .error e => .error e
          | .ok is =>
            if is.length ≠ 9 then .error .ioError
            else
              match readChart num lines with
              | .error e => .error e
              | .ok (ds, l, lines) =>
                .ok ({ t with tfcJtf := is, tfcDat := ds }, if l = [] then none else some (tokens l),
                  lines)

/-- `_parseTally` (mctal.py:749-1142) -/
def parseTally (num : ParseNum) (empty : List Nat → Num × Num) (line : List Str) (lines : List Str) :
    Except PyErr (Tally × Option (List Str) × List Str) := do
  let (t, lines) ← parseStart line lines
  let (t, l, lines) ← parseCells num t lines
  let (t, lines) ← parseBins num t l lines
  parseValues num empty t lines

/-- `_getTallies` (mctal.py:740-747); every tally uses up at least one line, so `fuel` greater than the
number of lines suffices -/
def parseTallies (num : ParseNum) (empty : List Nat → Num × Num) :
    Nat → List Str → List Str → Except PyErr (List Tally)
  | 0, _, _ => .error .diverges
  | fuel + 1, line, lines =>
    match parseTally num empty line lines with
    | .error e => .error e
    | .ok (t, none, _) => .ok [t]
    | .ok (t, some line, lines) =>
      match parseTallies num empty fuel line lines with
      | .error e => .error e
      | .ok ts => .ok (t :: ts)

/-! ### header -/

/-- `Header` (mctal.py:40-77) -/
structure Header where
  kod : Str := []
  ver : Str := []
  probid : List Str := []
  knod : ℤ := 0
  nps : ℤ := 0
  rnr : ℤ := 0
  title : Str := []
  ntal : ℤ := 0
  ntals : List ℤ := []
  deriving DecidableEq

/-- the tally numbers of the header, up to the first `tally` line (mctal.py:735-738); `IndexError` on an
empty line -/
def readNtals : List Str → Except PyErr (List ℤ × List Str × List Str)
  | [] => .error .indexError
  | l :: ls =>
    match tokens l with
    | [] => .error .indexError
    | w :: ws =>
      if w.map Char.toLower = "tally".toList then .ok ([], w :: ws, ls)
      else
        match toInts (w :: ws) with
        | .error e => .error e
        | .ok is =>
          match readNtals ls with
          | .error e => .error e
          | .ok (js, r) => .ok (is ++ js, r)

/-- `_getHeaders` (mctal.py:689-738): no tallies or perturbations end in `logging.error(…, file=…)`,
a `TypeError` -/
def readHeader (lines : List Str) : Except PyErr (Header × List Str × List Str) := do
  let (l1, lines) := readline lines
  let ws := tokens l1
  let h : Header ←
    if ws.length = 7 then
      do
        let knod ← intAt ws 4
        let nps ← intAt ws 5
        let rnr ← intAt ws 6
        pure { kod := ws.getD 0 [], ver := ws.getD 1 [], probid := [ws.getD 2 [], ws.getD 3 []],
               knod, nps, rnr }
    else if ws.length = 3 then
      do
        let knod ← intAt ws 0
        let nps ← intAt ws 1
        let rnr ← intAt ws 2
        pure { knod, nps, rnr }
    else pure {}
  let (l2, lines) := readline lines
  let (l3, lines) := readline lines
  let ntal ← intAt (tokens l3) 1
  if ntal = 0 then throw .typeError
  if (tokens l3).length = 4 then
    let _ ← intAt (tokens l3) 3
    throw .typeError
  let (ntals, line, lines) ← readNtals lines
  pure ({ h with title := strip l2, ntal, ntals }, line, lines)

/-- `Mctal._read` (mctal.py:670-687) -/
def readMctal (num : ParseNum) (empty : List Nat → Num × Num) (lines : List Str) :
    Except PyErr (Header × List Tally) :=
  match readHeader lines with
  | .error e => .error e
  | .ok (h, line, rest) =>
    match parseTallies num empty (lines.length + 1) line rest with
    | .error e => .error e
    | .ok ts => .ok (h, ts)

end F4Enix.Mctal
