import Verif.Inp.Xsdir
/-!
# Model of `LibManager.__init__`, `check4zaid`, `get_libzaids`, `is_lib_available` (`src/f4enix/input/libmanager.py`), of the
Serpent and OpenMC directories and of `to_xsdata` (`src/f4enix/input/xsdirpyne.py`)

The configuration table is given by columns: for each code, in order, the suffix and the path of every row. A cell of pandas that was
left empty in a csv or Excel file is `nan`. Opening the file of a path as the directory of a code is the parameter `op`. Logging and
the check `os.path.exists` (which only logs) leave no trace. The texts of numbers are parameters.
-/
namespace F4Enix.LibM
open F4Enix F4Enix.Xs

/-- a cell of the table of paths (libmanager.py:218-220) -/
inductive Cell where
  | none
  | nan
  | text (p : Str)
  deriving DecidableEq, Repr

/-- `MCNP_TYPE_XSDIR` (libmanager.py:45) -/
def mcnpType : List Str := ["mcnp".toList, "d1s".toList, "serpent".toList]

/-- the variables of the loop: `prev_path`, (`xsdir`, `available_libs`) (libmanager.py:212-239) -/
structure St where
  prev : Option Str
  cur : Option (Xsdir × List Str)

/-- `set(np.array(xsdir.tablenames)[:, 1])`: without tables the array has one dimension only (libmanager.py:237) -/
def libsOf (x : Xsdir) : Except PyErr (List Str) :=
  if x.tables = [] then .error .indexError else .ok ((tablenames x).map Prod.snd)

/-- the directory used for a row (libmanager.py:231-236) -/
def openAt (op : Str → Str → Except PyErr Xsdir) (code p : Str) (st : St) : Except PyErr St :=
  if st.prev ≠ some p then
    match op code p with
    | .error e => .error e
    | .ok x =>
      match libsOf x with
      | .error e => .error e
      | .ok ls => .ok ⟨some p, some (x, ls)⟩
  else .ok st

/-- one row for one code (libmanager.py:211-252). `omc p lib` is `OpenMCXsdir(path, self, library)`. -/
def loadRow (op : Str → Str → Except PyErr Xsdir) (omc : Str → Str → Except PyErr Xsdir) (code lib : Str) (c : Cell) (st : St)
    (d : Dict Str Xsdir) : Except PyErr (St × Dict Str Xsdir) :=
  match c with
  | .none => .ok (st, d)
  | .nan => .error .typeError
  | .text p =>
    if p = [] then .ok (st, d)
    else if code ∈ mcnpType then
      match openAt op code p st with
      | .error e => .error e
      | .ok st' =>
        match st'.cur with
        | none => .error .unboundLocal
        | some (x, ls) => if lib ∈ ls then .ok (st', Dict.set d lib x) else .ok (st', d)
    else if code = "openmc".toList then
      match omc p lib with
      | .error e => .error e
      | .ok x => .ok (st, Dict.set d lib x)
    else .error .valueError

/-- the rows for one code (libmanager.py:217-251) -/
def loadRows (op omc : Str → Str → Except PyErr Xsdir) (code : Str) : List (Str × Cell) → St → Dict Str Xsdir → Except PyErr (St × Dict Str Xsdir)
  | [], st, d => .ok (st, d)
  | (lib, c) :: r, st, d =>
    match loadRow op omc code lib c st d with
    | .error e => .error e
    | .ok (st', d') => loadRows op omc code r st' d'

/-- the codes (libmanager.py:207-252) -/
def loadCodes (op omc : Str → Str → Except PyErr Xsdir) : List (Str × List (Str × Cell)) → St → Dict Str (Dict Str Xsdir) →
    Except PyErr (Dict Str (Dict Str Xsdir))
  | [], _, data => .ok data
  | (code, rows) :: r, st, data =>
    match loadRows op omc code rows st [] with
    | .error e => .error e
    | .ok (st', d) => loadCodes op omc r st' (Dict.set data code d)

/-- `LibManager(table)`: `data` (libmanager.py:80-685) -/
def initTable (op omc : Str → Str → Except PyErr Xsdir) (cfg : List (Str × List (Str × Cell))) : Except PyErr (Dict Str (Dict Str Xsdir)) :=
  loadCodes op omc cfg ⟨some "dummy".toList, none⟩ []

/-- `LibManager(path)` (libmanager.py:150-169): the table has one row for each suffix of the file, in the order `order` of the set; the
path is no text and differs from `"dummy"` -/
def initPath (op omc : Str → Str → Except PyErr Xsdir) (p : Str) (order : List Str) : Except PyErr (Dict Str (Dict Str Xsdir)) :=
  match op "mcnp".toList p with
  | .error e => .error e
  | .ok x =>
    match libsOf x with
    | .error e => .error e
    | .ok ls => loadCodes op omc [("mcnp".toList, order.map (fun l => (l, Cell.text p)))] ⟨none, some (x, ls)⟩ []

/-- the default library (libmanager.py:189-197): rows are suffix and the text of the column `default` -/
def defaultLib (given : Option Str) (rows : List (Str × Str)) : Str :=
  match given with
  | some l => l
  | none =>
    match rows.find? (fun r => r.2 = "yes".toList) with
    | some r => r.1
    | none => "81c".toList

/-- `libraries[code]` (libmanager.py:272-277) -/
def librariesOf (data : Dict Str (Dict Str Xsdir)) (code : Str) : Option (List Str) := (Dict.get? data code).map Dict.keys

/-- `check4zaid` (libmanager.py:301-332) -/
def check4zaid (data : Dict Str (Dict Str Xsdir)) (zaid code : Str) : Except PyErr (List Str) :=
  if code ∈ mcnpType then
    match Dict.get? data code with
    | none => .error .keyError
    | some d => .ok ((d.filter (fun lx => hasTable lx.2 zaid lx.1)).map Prod.fst)
  else .error .notImplemented

/-- `table.name.split(".")[0]` (libmanager.py:467-500) -/
def firstPart (n : Str) : Str := n.takeWhile (fun c => c ≠ '.')

/-- `if zaid not in zaids: zaids.append(zaid)` (libmanager.py:467-500) -/
def addNew (l : List Str) (z : Str) : List Str := if z ∈ l then l else l ++ [z]

/-- `get_libzaids` (libmanager.py:467-499); every directory class is an `Xsdir` -/
def getLibzaids (data : Dict Str (Dict Str Xsdir)) (lib code : Str) : List Str :=
  match Dict.get? data code with
  | none => []
  | some d =>
    match Dict.get? d lib with
    | none => []
    | some x => ((findZaids x lib).map (fun t => firstPart t.name)).foldl addNew []

/-- `is_lib_available` (libmanager.py:586-606) -/
def isLibAvailable (data : Dict Str (Dict Str Xsdir)) (lib : Str) : List Str → Except PyErr Bool
  | [] => .ok true
  | c :: cs =>
    match Dict.get? data c with
    | none => .error .keyError
    | some d =>
      match isLibAvailable data lib cs with
      | .error e => .error e
      | .ok b => .ok (b && Dict.has d lib)

/-! ### Serpent and OpenMC directories -/

/-- the lines with even numbers (xsdirpyne.py:494-505) -/
def evens {α : Type} : List α → List α
  | [] => []
  | [a] => [a]
  | a :: _ :: r => a :: evens r

/-- a table of a Serpent directory: name, ratio, file, temperature (xsdirpyne.py:494-505) -/
def serpentTable (n : Str) (a : ℚ) (f : Str) (t : ℚ) : Table :=
  { name := n, awr := a, filename := f, access := [], filetype := 0, address := 0, tablelength := 0, temperature := some t }

/-- a line of a Serpent directory (xsdirpyne.py:491-501); `none` is a table without a name. The attributes of a table that a Serpent
directory does not set are not read by anything modelled here. -/
def serpentLine (pf : Str → Option ℚ) (l : Str) : Except PyErr (Option Table) :=
  match tokens l with
  | [] => .ok none
  | n :: ws =>
    match ws[4]? with
    | none => .error .indexError
    | some a =>
      match pf a with
      | none => .error .valueError
      | some a =>
        match ws[7]? with
        | none => .error .indexError
        | some f =>
          match ws[5]? with
          | none => .error .indexError
          | some t =>
            match pf t with
            | none => .error .valueError
            | some t => .ok (some (serpentTable n (a / (10086649670000 / 10 ^ 13)) f (t / (11604518025685 / 10 ^ 3))))

/-- all lines (xsdirpyne.py:494-505) -/
def serpentLines (pf : Str → Option ℚ) : List Str → Except PyErr (List (Option Table))
  | [] => .ok []
  | l :: ls =>
    match serpentLine pf l with
    | .error e => .error e
    | .ok t =>
      match serpentLines pf ls with
      | .error e => .error e
      | .ok ts => .ok (t :: ts)

/-- `SerpentXsdir` (xsdirpyne.py:489-505 and 80-104): every second line is read; a table without a name has no `name[:-4]` -/
def serpentRead (pf : Str → Option ℚ) (lines : List Str) : Except PyErr Xsdir :=
  match serpentLines pf (evens lines) with
  | .error e => .error e
  | .ok ts => if ts.any Option.isNone then .error .typeError else .ok ⟨none, [], ts.filterMap id⟩

/-- `part.split("=")[:2]` of a part with an equals sign (xsdirpyne.py:536-551) -/
def keyValue (p : Str) : Option (Str × Str) :=
  if '=' ∈ p then
    let r := (p.dropWhile (fun c => c ≠ '=')).tail
    some (p.takeWhile (fun c => c ≠ '='), r.takeWhile (fun c => c ≠ '='))
  else none

/-- `"<library" in line` (xsdirpyne.py:536-551) -/
def isLibraryLine (l : Str) : Bool := l.tails.any (fun t => "<library".toList.isPrefixOf t)

/-- one line of an OpenMC directory (xsdirpyne.py:534-549): the table made from it, if any; `fz` is `get_formulazaid` -/
def openmcLine (fz : Str → Except PyErr Str) (lib l : Str) : Except PyErr (Option (Str × Str)) :=
  if isLibraryLine l then
    let data := Dict.update [] ((tokens (l.filter (fun c => c ≠ '"'))).filterMap keyValue)
    match Dict.get? data "type".toList with
    | none => .error .keyError
    | some ty =>
      if ty = "neutron".toList then
        match Dict.get? data "materials".toList with
        | none => .error .keyError
        | some m =>
          match fz m with
          | .error e => .error e
          | .ok z =>
            match Dict.get? data "path".toList with
            | none => .error .keyError
            | some p => .ok (some (z ++ '.' :: lib, p))
      else .ok none
  else .ok none

/-- the loop over the lines: the tables made (name and file) (xsdirpyne.py:536-551) -/
def openmcLines (fz : Str → Except PyErr Str) (lib : Str) : List Str → Except PyErr (List (Str × Str))
  | [] => .ok []
  | l :: ls =>
    match openmcLine fz lib l with
    | .error e => .error e
    | .ok t =>
      match openmcLines fz lib ls with
      | .error e => .error e
      | .ok ts => .ok (t.toList ++ ts)

/-- `OpenMCXsdir` (xsdirpyne.py:508-551): the tables are made but never put into `self.tables` -/
def openmcRead (fz : Str → Except PyErr Str) (lines : List Str) (lib : Str) : Except PyErr Xsdir :=
  match openmcLines fz lib lines with
  | .error e => .error e
  | .ok _ => .ok ⟨none, [], []⟩

/-! ### Export to Serpent -/

/-- `serpent_type` (xsdirpyne.py:379-393) -/
def serpentType (t : Table) : Option ℕ :=
  match t.name.getLast? with
  | some 'c' => some 1
  | some 'y' => some 2
  | some 't' => some 3
  | _ => none

/-- the folder before the file name (xsdirpyne.py:431-433) -/
def serpentDir (dir : Str) : Str :=
  if dir = [] then [] else if dir.getLast? = some '/' then dir else strip dir ++ ['/']

/-- words with single blanks between them (specification) -/
def blanks : List Str → Str
  | [] => []
  | [w] => w
  | w :: ws => w ++ ' ' :: blanks ws

/-- `to_serpent` (xsdirpyne.py:422-446); `fa` is `str` of a float, `fe` is `.11e` -/
def toSerpent (fa fe : ℚ → Str) (dir : Str) (t : Table) : Except PyErr Str :=
  match t.metastable with
  | .error e => .error e
  | .ok m =>
    match t.temperature with
    | none => .error .typeError
    | some T =>
      .ok (blanks [t.name, t.name, (match serpentType t with | some n => natStr n | none => "None".toList), t.zaid,
        (match m with | some k => if k ≠ 0 then ['1'] else ['0'] | none => ['0']), fa t.awr, fe (T / (86173423 / 10 ^ 18)),
        intStr (t.filetype - 1), serpentDir dir ++ t.filename])

/-- `to_xsdata` (xsdirpyne.py:286-301): the text in the file, and the exception that ended the writing -/
def toXsdata (fa fe : ℚ → Str) : List Table → Str × Option PyErr
  | [] => ([], none)
  | t :: ts =>
    if serpentType t = some 1 then
      match toSerpent fa fe [] t with
      | .error e => ([], some e)
      | .ok s => let r := toXsdata fa fe ts; (s ++ '\n' :: r.1, r.2)
    else toXsdata fa fe ts

end F4Enix.LibM
