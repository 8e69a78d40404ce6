import Verif.Base.Text
import Verif.Base.Dict
import Mathlib.Data.Int.Notation
import Mathlib.Data.Nat.Notation
/-!
# Model of `src/f4enix/input/ww_gvr/cli.py`

The program is a function of the lines typed by the user; `input()` takes the next line, and raises `EOFError` if there is none.
Weight windows are values of a type `W`; their operations (modelled in `State.lean`), the files and `float()` are parameters
(`Env`). Printing and the screen are not modelled, except the text kept in `extra_text`. Simplifications: `str.lower` and
`str.isdigit` on ASCII.
-/
namespace F4Enix.Cli
open F4Enix

/-- `pathlib.Path`: the folder and the last component (Python) -/
structure Path where
  parent : Str
  name : Str
  deriving DecidableEq, Repr

/-- the text before the last dot and the text from it on (Python) -/
def cutDot (s : Str) : Option (Str × Str) :=
  let k := (s.reverse.takeWhile (fun c => c != '.')).length
  if k = s.length then none else some (s.take (s.length - k - 1), s.drop (s.length - k - 1))

/-- `PurePath.stem` (assumed: the last suffix is removed, unless the dot is the first or the last character) (Python) -/
def stemOf (s : Str) : Str :=
  match cutDot s with
  | some (a, b) => if a ≠ [] ∧ 1 < b.length then a else s
  | none => s

/-- `PurePath.suffix` (Python) -/
def suffixOf (s : Str) : Str :=
  match cutDot s with
  | some (a, b) => if a ≠ [] ∧ 1 < b.length then b else []
  | none => []

/-- `PurePath.with_suffix` (Python) -/
def withSuffix (s suf : Str) : Str := (if suffixOf s = [] then s else s.take (s.length - (suffixOf s).length)) ++ suf

/-- what the program uses: `float()`, `Path()`, the constructors and operations of `WW`. A file that is not found is `ioError`. (cli.py:58-273) -/
structure Env (K W : Type) where
  float : Str → Option K
  path : Str → Path
  /-- the default values of the splitting ratio and the softening factor -/
  five : K
  one : K
  load : Path → Except PyErr W
  /-- `create_gvr_from_meshtally_file(file_path, tally_num, maximum_splitting_ratio)` (weight_window.py:77-111) -/
  gvr : Path → K → K → Except PyErr W
  soften : W → K → Except PyErr W
  add : W → K → K → Except PyErr W
  remove : W → Except PyErr W
  mitigate : W → K → Except PyErr W
  info : Path → W → Str

/-- what is done outside of the program (cli.py:58-273) -/
inductive Effect (W : Type) where
  | wrote (p : Path) (w : W)
  | exported (p : Path) (w : W)
  | plotted (w : W)
  deriving DecidableEq, Repr

/-- the object: `weight_windows` (each with its `file_path`), `extra_text`, and the effects so far (cli.py:59-84) -/
structure St (W : Type) where
  windows : Dict Str (Path × W) := []
  extra : Str := []
  done : List (Effect W) := []
  deriving DecidableEq, Repr

/-- how a command can end other than by returning (cli.py:58-273) -/
inductive Stop where
  | eof | exit | exc (e : PyErr)
  deriving DecidableEq, Repr

/-- the state after a command, the lines left, how it ended (cli.py:58-273) -/
abbrev Out (W : Type) := St W × List Str × Option Stop

variable {K W : Type}

/-! ### choosing a window -/

/-- the loop of `_select_ww_key` (cli.py:184-190): the number chosen, `none` at the end of the input -/
def choose (n : ℕ) : List Str → List Str × Option ℕ
  | [] => ([], none)
  | x :: xs => if x ≠ [] ∧ x.all isDigit = true ∧ 1 ≤ digitsVal x ∧ digitsVal x ≤ n then (xs, some (digitsVal x)) else choose n xs

/-- `_select_ww_key` (cli.py:174-190) -/
def select (s : St W) (ins : List Str) : St W × List Str × Except Stop (Option Str) :=
  match s.windows with
  | [] => ({ s with extra := " No weight windows loaded...".toList }, ins, .ok none)
  | [(k, _)] => (s, ins, .ok (some k))
  | _ =>
    match choose s.windows.length ins with
    | (r, none) => (s, r, .error .eof)
    | (r, some i) =>
      match (Dict.keys s.windows)[i - 1]? with
      | none => (s, r, .error (.exc .indexError))
      | some k => (s, r, .ok (some k))

/-- `ww_key = self._select_ww_key()`, `if ww_key is None: return`, `self.weight_windows[ww_key]` (cli.py:132-138) -/
def withKey (s : St W) (ins : List Str) (f : St W → List Str → Str → Path → W → Out W) : Out W :=
  match select s ins with
  | (s, r, .error e) => (s, r, some e)
  | (s, r, .ok none) => (s, r, none)
  | (s, r, .ok (some k)) =>
    match Dict.get? s.windows k with
    | none => (s, r, some (.exc .keyError))
    | some (p, w) => f s r k p w

/-- `float(input(...))` (cli.py:221-230) -/
def askFloat (env : Env K W) : List Str → Except Stop K × List Str
  | [] => (.error .eof, [])
  | x :: xs =>
    match env.float x with
    | none => (.error (.exc .valueError), xs)
    | some v => (.ok v, xs)

/-- `float(input(...))` with a default for what is no number (cli.py:192-204) -/
def askDefault (env : Env K W) (d : K) : List Str → Option K × List Str
  | [] => (none, [])
  | x :: xs => (some ((env.float x).getD d), xs)

/-! ### commands of the main menu -/

/-- the end of `_handle_open` (cli.py:118-123) -/
def keep (s : St W) (ins : List Str) (p : Path) : Except PyErr W → Out W
  | .ok w => ({ s with windows := Dict.set s.windows (stemOf p.name) (p, w),
                       extra := " ".toList ++ stemOf p.name ++ " loaded...".toList }, ins, none)
  | .error .ioError => ({ s with extra := " File not found...".toList }, ins, none)
  | .error e => (s, ins, some (.exc e))

/-- `_handle_open` (cli.py:111-123): behind the inner call the outer one goes on -/
def handleOpen (env : Env K W) (s : St W) : List Str → Out W
  | [] => (s, [], some .eof)
  | x :: xs =>
    if Dict.has s.windows (stemOf (env.path x).name) then
      match handleOpen env s xs with
      | (s', r, some e) => (s', r, some e)
      | (s', r, none) => keep s' r (env.path x) (env.load (env.path x))
    else keep s xs (env.path x) (env.load (env.path x))

/-- the end of `_handle_gvr` (cli.py:162-172): the splitting ratio is passed in the place of `tally_num` (165-167) -/
def gvrEnd (env : Env K W) (s : St W) (p : Path) (ins : List Str) : Out W :=
  match askDefault env env.five ins with
  | (none, r) => (s, r, some .eof)
  | (some split, r) =>
    match askDefault env env.one r with
    | (none, r) => (s, r, some .eof)
    | (some soft, r) =>
      keep s r p
        (match env.gvr p split env.five with
        | .error e => .error e
        | .ok w => env.soften w soft)

/-- `_handle_gvr` (cli.py:155-172) -/
def handleGvr (env : Env K W) (s : St W) : List Str → Out W
  | [] => (s, [], some .eof)
  | x :: xs =>
    if Dict.has s.windows (stemOf (env.path x).name) then
      match handleGvr env s xs with
      | (s', r, some e) => (s', r, some e)
      | (s', r, none) => gvrEnd env s' (env.path x) r
    else gvrEnd env s (env.path x) xs

/-- `_handle_info` (cli.py:125-130) -/
def handleInfo (env : Env K W) (s : St W) (ins : List Str) : Out W :=
  withKey s ins (fun s r _ p w => ({ s with extra := env.info p w }, r, none))

/-- `_handle_write` (132-138), `WW.write_to_ww_file` without a path (weight_window.py:416-417) -/
def handleWrite (s : St W) (ins : List Str) : Out W :=
  withKey s ins (fun s r k p w => ({ s with
    done := s.done ++ [.wrote ⟨p.parent, stemOf p.name ++ "_written".toList⟩ w],
    extra := " ".toList ++ k ++ "_written saved!".toList }, r, none))

/-- the name of the exported file (weight_window.py:470-474, geometry.py:265-266) -/
def vtkName (n : Str) : Str := if suffixOf (stemOf n) ≠ ".vts".toList then withSuffix (stemOf n) ".vts".toList else stemOf n

/-- `_handle_vtk` (cli.py:140-146) -/
def handleVtk (s : St W) (ins : List Str) : Out W :=
  withKey s ins (fun s r k p w => ({ s with
    done := s.done ++ [.exported ⟨p.parent, vtkName p.name⟩ w],
    extra := " ".toList ++ k ++ ".vtk saved!".toList }, r, none))

/-- `_handle_plot` (cli.py:148-153) -/
def handlePlot (s : St W) (ins : List Str) : Out W :=
  withKey s ins (fun s r _ _ w => ({ s with done := s.done ++ [.plotted w] }, r, none))

/-! ### operations -/

/-- `CommandOperate` (cli.py:49-55) -/
inductive OpCmd where
  | soft | add | remove | mitigate | quit | empty
  deriving DecidableEq, Repr

/-- `CommandOperate(attempt)` (cli.py:49-55) -/
def opCmdOf (x : Str) : Option OpCmd :=
  if x = "soft".toList then some .soft else if x = "add".toList then some .add else if x = "remove".toList then some .remove
  else if x = "mitigate".toList then some .mitigate else if x = "end".toList then some .quit
  else if x = "empty".toList then some .empty else none

/-- what is added to the name (cli.py:221-263) -/
def OpCmd.tail : OpCmd → Str
  | .soft => "_softened".toList
  | .add => "_2_particles".toList
  | .remove => "_1_particle".toList
  | .mitigate => "_mitigated".toList
  | .quit => []
  | .empty => []

/-- the end of the operations (cli.py:228-230, 240-242, 250-252, 261-263) -/
def store (s : St W) (ins : List Str) (name : Str) (p : Path) : Except PyErr W → Out W
  | .error e => (s, ins, some (.exc e))
  | .ok w => ({ s with windows := Dict.set s.windows (stemOf name) (⟨p.parent, name⟩, w),
                       extra := " ".toList ++ stemOf name ++ " created...".toList }, ins, none)

/-- `_handle_soft`, `_handle_add`, `_handle_remove`, `_handle_mitigate`, `_display_menu` (cli.py:91-94, 221-263): each works on a copy -/
def runOp (env : Env K W) (c : OpCmd) (s : St W) (ins : List Str) : Out W :=
  match c with
  | .quit => (s, ins, none)
  | .empty => (s, ins, some (.exc .keyError))
  | .soft => withKey s ins (fun s r k p w =>
      match askFloat env r with
      | (.error e, r) => (s, r, some e)
      | (.ok v, r) => store s r (k ++ OpCmd.soft.tail) p (env.soften w v))
  | .add => withKey s ins (fun s r k p w =>
      match askFloat env r with
      | (.error e, r) => (s, r, some e)
      | (.ok n, r) =>
        match askFloat env r with
        | (.error e, r) => (s, r, some e)
        | (.ok v, r) => store s r (k ++ OpCmd.add.tail) p (env.add w n v))
  | .remove => withKey s ins (fun s r k p w => store s r (k ++ OpCmd.remove.tail) p (env.remove w))
  | .mitigate => withKey s ins (fun s r k p w =>
      match askFloat env r with
      | (.error e, r) => (s, r, some e)
      | (.ok v, r) => store s r (k ++ OpCmd.mitigate.tail) p (env.mitigate w v))

/-- `str.lower` (Python) -/
def lower (s : Str) : Str := s.map (fun c => if 65 ≤ c.toNat ∧ c.toNat ≤ 90 then Char.ofNat (c.toNat + 32) else c)

/-- `_get_operate_command` (cli.py:211-219): a `ValueError`, whether of the command or of its function, asks again; the fuel is the
number of lines -/
def operateLoop (env : Env K W) : ℕ → St W → List Str → Out W
  | 0, s, ins => (s, ins, some .eof)
  | _ + 1, s, [] => (s, [], some .eof)
  | n + 1, s, x :: ins =>
    match opCmdOf (lower x) with
    | none => operateLoop env n s ins
    | some c =>
      match runOp env c s ins with
      | (s', r, some (.exc .valueError)) => operateLoop env n s' r
      | out => out

/-- `_handle_operate` (cli.py:206-209) -/
def handleOperate (env : Env K W) (s : St W) (ins : List Str) : Out W :=
  operateLoop env (ins.length + 1) { s with extra := [] } ins

/-! ### the main menu -/

/-- `Command` (cli.py:37-46) -/
inductive Cmd where
  | opn | info | write | vtk | plot | operate | gvr | quit | empty
  deriving DecidableEq, Repr

/-- `Command(attempt)` (cli.py:37-46) -/
def cmdOf (x : Str) : Option Cmd :=
  if x = "open".toList then some .opn else if x = "info".toList then some .info else if x = "write".toList then some .write
  else if x = "vtk".toList then some .vtk else if x = "plot".toList then some .plot else if x = "operate".toList then some .operate
  else if x = "gvr".toList then some .gvr else if x = "end".toList then some .quit else if x = "empty".toList then some .empty
  else none

/-- `self.command_map[...]` (cli.py:67-76) -/
def run (env : Env K W) (c : Cmd) (s : St W) (ins : List Str) : Out W :=
  match c with
  | .opn => handleOpen env s ins
  | .info => handleInfo env s ins
  | .write => handleWrite s ins
  | .vtk => handleVtk s ins
  | .plot => handlePlot s ins
  | .operate => handleOperate env s ins
  | .gvr => handleGvr env s ins
  | .quit => (s, ins, some .exit)
  | .empty => (s, ins, some (.exc .keyError))

/-- `_main_menu_loop` and `_get_command` (cli.py:86-89, 101-109); the fuel is the number of lines -/
def mainLoop (env : Env K W) : ℕ → St W → List Str → St W × Stop
  | 0, s, _ => (s, .eof)
  | _ + 1, s, [] => (s, .eof)
  | n + 1, s, x :: ins =>
    match cmdOf (lower x) with
    | none => mainLoop env n s ins
    | some c =>
      match run env c s ins with
      | (s', r, none) => mainLoop env n s' r
      | (s', r, some (.exc .valueError)) => mainLoop env n s' r
      | (s', _, some e) => (s', e)

/-- `Menu()` (cli.py:59-84) -/
def menu (env : Env K W) (ins : List Str) : St W × Stop := mainLoop env (ins.length + 1) {} ins

/-- the commands shown by the main menu (cli.py:14-26) -/
def mainShown : List Str :=
  ["open", "info", "write", "vtk", "plot", "operate", "gvr", "end"].map String.toList

/-- the commands shown by the menu of operations (cli.py:28-34) -/
def opShown : List Str := ["soft", "add", "rem", "mit", "end"].map String.toList

end F4Enix.Cli
