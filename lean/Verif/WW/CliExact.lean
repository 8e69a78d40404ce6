import Verif.WW.CliFind
/-!
# The menu of weight windows: what each operation does with the answers (C129), and examples
-/
namespace F4Enix.Cli
open F4Enix

variable {K W : Type}

theorem withKey_sel (s : St W) (ins r : List Str) (k : Str) (p : Path) (w : W) (f : St W → List Str → Str → Path → W → Out W)
    (hs : select s ins = (s, r, .ok (some k))) (hg : Dict.get? s.windows k = some (p, w)) : withKey s ins f = f s r k p w := by
  unfold withKey
  simp only [hs, hg]

theorem askFloat_some (env : Env K W) (x : Str) (xs : List Str) (v : K) (h : env.float x = some v) : askFloat env (x :: xs) = (.ok v, xs) := by
  unfold askFloat
  simp only [h]

/-- what is kept of the result `w'` of an operation on the window `k` of the folder of `p` (specification) -/
def resultSt (s : St W) (p : Path) (name : Str) (w' : W) : St W :=
  { windows := Dict.set s.windows (stemOf name) (⟨p.parent, name⟩, w'),
    extra := " ".toList ++ stemOf name ++ " created...".toList, done := s.done }

theorem operate_one (env : Env K W) (s : St W) (c : OpCmd) (x : Str) (hx : opCmdOf (lower x) = some c) (ins : List Str) (o : Out W)
    (ho : runOp env c { s with extra := [] } ins = o) (hv : o.2.2 ≠ some (.exc .valueError)) : handleOperate env s (x :: ins) = o := by
  unfold handleOperate
  rw [operateLoop]
  simp only [hx, ho]
  split
  · rename_i h; exact absurd rfl hv
  · rfl

/-- an operation that ends in `ValueError` without changing anything: the menu of operations asks for a command again -/
theorem operate_retry (env : Env K W) (s : St W) (c : OpCmd) (x : Str) (hx : opCmdOf (lower x) = some c) (ins r : List Str)
    (ho : runOp env c { s with extra := [] } ins = ({ s with extra := [] }, r, some (.exc .valueError))) :
    handleOperate env s (x :: ins) = handleOperate env s r := by
  have hl := (runOp_cases env c { s with extra := [] } ins).1
  rw [ho] at hl
  simp only at hl
  unfold handleOperate
  rw [List.length_cons, operateLoop]
  simp only [hx, ho]
  exact operateLoop_fuel env _ _ _ r (by omega) (by omega)

theorem askFloat_none (env : Env K W) (x : Str) (xs : List Str) (h : env.float x = none) :
    askFloat env (x :: xs) = (.error (.exc .valueError), xs) := by
  unfold askFloat
  simp only [h]

/-- C132: with any number of windows: whatever lines `sel` select the window `k`, an answer `x` that is no number leaves everything as it
was (no window is added or changed, nothing is written) and the menu of operations goes on with the next line. -/
theorem not_number (env : Env K W) (s : St W) (c x : Str) (sel r : List Str) (k : Str) (p : Path) (w : W)
    (hc : lower c = "soft".toList ∨ lower c = "add".toList ∨ lower c = "mitigate".toList)
    (hs : ∀ e, select { s with extra := e } sel = ({ s with extra := e }, x :: r, .ok (some k)))
    (hg : Dict.get? s.windows k = some (p, w)) (hx : env.float x = none) :
    handleOperate env s (c :: sel) = handleOperate env s r := by
  rcases hc with hc | hc | hc
  · apply operate_retry env s .soft c (by rw [hc]; decide +kernel)
    simp only [runOp]
    rw [withKey_sel { s with extra := [] } sel (x :: r) k p w _ (hs []) hg]
    simp only [askFloat_none env x r hx]
  · apply operate_retry env s .add c (by rw [hc]; decide +kernel)
    simp only [runOp]
    rw [withKey_sel { s with extra := [] } sel (x :: r) k p w _ (hs []) hg]
    simp only [askFloat_none env x r hx]
  · apply operate_retry env s .mitigate c (by rw [hc]; decide +kernel)
    simp only [runOp]
    rw [withKey_sel { s with extra := [] } sel (x :: r) k p w _ (hs []) hg]
    simp only [askFloat_none env x r hx]

/-- C132: the same for the second answer of adding a particle -/
theorem second_not_number (env : Env K W) (s : St W) (c a b : Str) (sel r : List Str) (k : Str) (p : Path) (w : W) (n : K)
    (hc : lower c = "add".toList) (hs : ∀ e, select { s with extra := e } sel = ({ s with extra := e }, a :: b :: r, .ok (some k)))
    (hg : Dict.get? s.windows k = some (p, w)) (ha : env.float a = some n) (hb : env.float b = none) :
    handleOperate env s (c :: sel) = handleOperate env s r := by
  apply operate_retry env s .add c (by rw [hc]; decide +kernel)
  simp only [runOp]
  rw [withKey_sel { s with extra := [] } sel (a :: b :: r) k p w _ (hs []) hg]
  simp only [askFloat_some env a (b :: r) n ha, askFloat_none env b r hb]

/-- C129: softening: the factor is the number typed, the result is `k_softened` -/
theorem soft_exact (env : Env K W) (s : St W) (c a : Str) (ins r : List Str) (k : Str) (p : Path) (w w' : W) (v : K)
    (hc : lower c = "soft".toList) (hs : ∀ e, select { s with extra := e } ins = ({ s with extra := e }, a :: r, .ok (some k)))
    (hg : Dict.get? s.windows k = some (p, w)) (ha : env.float a = some v) (hw : env.soften w v = .ok w') :
    handleOperate env s (c :: ins) = (resultSt s p (k ++ "_softened".toList) w', r, none) := by
  apply operate_one env s .soft c (by rw [hc]; decide +kernel)
  · simp only [runOp]
    rw [withKey_sel { s with extra := [] } ins (a :: r) k p w _ (hs []) hg]
    simp only [askFloat_some env a r v ha, hw]
    rfl
  · simp

/-- C129: adding a particle: the first number is the normalisation, the second the softening factor, the result is `k_2_particles` -/
theorem add_exact (env : Env K W) (s : St W) (c a b : Str) (ins r : List Str) (k : Str) (p : Path) (w w' : W) (n v : K)
    (hc : lower c = "add".toList) (hs : ∀ e, select { s with extra := e } ins = ({ s with extra := e }, a :: b :: r, .ok (some k)))
    (hg : Dict.get? s.windows k = some (p, w)) (ha : env.float a = some n) (hb : env.float b = some v) (hw : env.add w n v = .ok w') :
    handleOperate env s (c :: ins) = (resultSt s p (k ++ "_2_particles".toList) w', r, none) := by
  apply operate_one env s .add c (by rw [hc]; decide +kernel)
  · simp only [runOp]
    rw [withKey_sel { s with extra := [] } ins (a :: b :: r) k p w _ (hs []) hg]
    simp only [askFloat_some env a (b :: r) n ha, askFloat_some env b r v hb, hw]
    rfl
  · simp

/-- C129: removing a particle: the result is `k_1_particle` -/
theorem remove_exact (env : Env K W) (s : St W) (c : Str) (ins r : List Str) (k : Str) (p : Path) (w w' : W)
    (hc : lower c = "remove".toList) (hs : ∀ e, select { s with extra := e } ins = ({ s with extra := e }, r, .ok (some k)))
    (hg : Dict.get? s.windows k = some (p, w)) (hw : env.remove w = .ok w') :
    handleOperate env s (c :: ins) = (resultSt s p (k ++ "_1_particle".toList) w', r, none) := by
  apply operate_one env s .remove c (by rw [hc]; decide +kernel)
  · simp only [runOp]
    rw [withKey_sel { s with extra := [] } ins r k p w _ (hs []) hg]
    simp only [hw]
    rfl
  · simp

/-- C129: mitigating long histories: the ratio is the number typed, the result is `k_mitigated` -/
theorem mitigate_exact (env : Env K W) (s : St W) (c a : Str) (ins r : List Str) (k : Str) (p : Path) (w w' : W) (v : K)
    (hc : lower c = "mitigate".toList) (hs : ∀ e, select { s with extra := e } ins = ({ s with extra := e }, a :: r, .ok (some k)))
    (hg : Dict.get? s.windows k = some (p, w)) (ha : env.float a = some v) (hw : env.mitigate w v = .ok w') :
    handleOperate env s (c :: ins) = (resultSt s p (k ++ "_mitigated".toList) w', r, none) := by
  apply operate_one env s .mitigate c (by rw [hc]; decide +kernel)
  · simp only [runOp]
    rw [withKey_sel { s with extra := [] } ins (a :: r) k p w _ (hs []) hg]
    simp only [askFloat_some env a r v ha, hw]
    rfl
  · simp

/-- `end` of the menu of operations returns to the main menu -/
theorem op_end (env : Env K W) (s : St W) (c : Str) (hc : lower c = "end".toList) (ins : List Str) :
    handleOperate env s (c :: ins) = ({ s with extra := [] }, ins, none) :=
  operate_one env s .quit c (by rw [hc]; decide +kernel) ins _ rfl (by simp)

/-- `end` of the main menu ends the program -/
theorem main_end (env : Env K W) (s : St W) (c : Str) (hc : lower c = "end".toList) (ins : List Str) : session env s (c :: ins) = (s, .exit) := by
  unfold session
  rw [List.length_cons, mainLoop]
  have : cmdOf (lower c) = some .quit := by rw [hc]; decide +kernel
  simp only [this, run]

/-- the information shown is that of the window selected -/
theorem info_exact (env : Env K W) (s : St W) (ins r : List Str) (k : Str) (p : Path) (w : W)
    (hs : select s ins = (s, r, .ok (some k))) (hg : Dict.get? s.windows k = some (p, w)) :
    handleInfo env s ins = ({ s with extra := env.info p w }, r, none) := by
  unfold handleInfo
  rw [withKey_sel s ins r k p w _ hs hg]

/-- `write` writes the window selected -/
theorem write_exact (s : St W) (ins r : List Str) (k : Str) (p : Path) (w : W)
    (hs : select s ins = (s, r, .ok (some k))) (hg : Dict.get? s.windows k = some (p, w)) :
    (handleWrite s ins).1.done = s.done ++ [.wrote ⟨p.parent, stemOf p.name ++ "_written".toList⟩ w] := by
  unfold handleWrite
  rw [withKey_sel s ins r k p w _ hs hg]

/-- `vtk` exports the window selected -/
theorem vtk_exact (s : St W) (ins r : List Str) (k : Str) (p : Path) (w : W)
    (hs : select s ins = (s, r, .ok (some k))) (hg : Dict.get? s.windows k = some (p, w)) :
    (handleVtk s ins).1.done = s.done ++ [.exported ⟨p.parent, vtkName p.name⟩ w] := by
  unfold handleVtk
  rw [withKey_sel s ins r k p w _ hs hg]

/-- `plot` shows the window selected and changes nothing else -/
theorem plot_exact (s : St W) (ins r : List Str) (k : Str) (p : Path) (w : W)
    (hs : select s ins = (s, r, .ok (some k))) (hg : Dict.get? s.windows k = some (p, w)) :
    handlePlot s ins = ({ s with done := s.done ++ [.plotted w] }, r, none) := by
  unfold handlePlot
  rw [withKey_sel s ins r k p w _ hs hg]

/-- the command typed is the one run, in capitals or not -/
theorem main_words :
    [("open", Cmd.opn), ("info", .info), ("write", .write), ("vtk", .vtk), ("plot", .plot), ("operate", .operate), ("gvr", .gvr), ("end", .quit),
     ("OPEN", .opn), ("Info", .info), ("GVR", .gvr)].all (fun x => decide (cmdOf (lower x.1.toList) = some x.2)) = true := by decide +kernel

/-- the commands are exactly the words of the two menus' enumerations -/
theorem cmdOf_some (x : Str) (c : Cmd) (h : cmdOf x = some c) :
    (x, c) ∈ [("open".toList, Cmd.opn), ("info".toList, .info), ("write".toList, .write), ("vtk".toList, .vtk), ("plot".toList, .plot),
      ("operate".toList, .operate), ("gvr".toList, .gvr), ("end".toList, .quit), ("empty".toList, .empty)] := by
  unfold cmdOf at h
  split_ifs at h <;> (simp only [Option.some.injEq] at h; subst h; subst_vars; decide +kernel)

theorem opCmdOf_some (x : Str) (c : OpCmd) (h : opCmdOf x = some c) :
    (x, c) ∈ [("soft".toList, OpCmd.soft), ("add".toList, .add), ("remove".toList, .remove), ("mitigate".toList, .mitigate),
      ("end".toList, .quit), ("empty".toList, .empty)] := by
  unfold opCmdOf at h
  split_ifs at h <;> (simp only [Option.some.injEq] at h; subst h; subst_vars; decide +kernel)

/-! ### a concrete environment: windows are lists of numbers -/

/-- `float`: digits only; the files `a`, `b` and `a.b.inp` exist; no window may have two numbers (example) -/
def demo : Env ℕ (List ℕ) where
  float x := if x ≠ [] ∧ x.all isDigit then some (digitsVal x) else none
  path x := ⟨"dir".toList, x⟩
  five := 5
  one := 1
  load p := if p.name = "a".toList then .ok [1] else if p.name = "b".toList then .ok [2]
    else if p.name = "a.b.inp".toList then .ok [3] else .error .ioError
  gvr p t r := if p.name = "m".toList then (if t = 0 ∨ t = 4 then .ok [t, r] else .error .keyError) else .error .ioError
  soften w v := .ok (w.map (· * v))
  add w n v := if 1 < w.length then .error .valueError else .ok (w ++ w.map (fun x => x / n * v))
  remove w := if 1 < w.length then .ok (w.take 1) else .error .valueError
  mitigate w v := .ok (w.filter (· ≤ v))
  info p w := p.name ++ w.flatMap (fun n => [Char.ofNat (n + 48)])

/-- `typed` (example) -/
def typed (l : List String) : List Str := l.map String.toList

example : (menu demo (typed ["open", "a", "foo", "operate", "soft", "x", "SOFT", "3", "write", "7", "2", "end", "info"])) =
    ({ windows := [("a".toList, (⟨"dir".toList, "a".toList⟩, [1])),
                   ("a_softened".toList, (⟨"dir".toList, "a_softened".toList⟩, [3]))],
       extra := " a_softened_written saved!".toList,
       done := [.wrote ⟨"dir".toList, "a_softened_written".toList⟩ [3]] }, .exit) := by decide +kernel

/-- the result of the window `a.b` replaces the window `a` -/
example : ((menu demo (typed ["open", "a", "open", "a.b.inp", "operate", "soft", "2", "10"])).1.windows) =
    [("a".toList, (⟨"dir".toList, "a.b_softened".toList⟩, [30])), ("a.b".toList, (⟨"dir".toList, "a.b.inp".toList⟩, [3]))] := by decide +kernel

/-- a second operation of the same kind replaces the result of the first -/
example : ((menu demo (typed ["open", "a", "operate", "soft", "2", "operate", "soft", "1", "3"])).1.windows) =
    [("a".toList, (⟨"dir".toList, "a".toList⟩, [1])), ("a_softened".toList, (⟨"dir".toList, "a_softened".toList⟩, [3]))] := by decide +kernel

/-- opening a loaded name: the operation's result under that name would be lost -/
example : ((menu demo (typed ["open", "a", "open", "a", "b"])).1.windows) =
    [("a".toList, (⟨"dir".toList, "a".toList⟩, [1])), ("b".toList, (⟨"dir".toList, "b".toList⟩, [2]))] := by decide +kernel

/-- the ratio 4 is taken as the number of the tally; the default 5 ends the program, as there is no tally 5 -/
example : ((menu demo (typed ["gvr", "m", "4", ""])).1.windows) = [("m".toList, (⟨"dir".toList, "m".toList⟩, [4, 5]))] := by decide +kernel
example : menu demo (typed ["gvr", "m", "", "", "end"]) = ({}, .exc .keyError) := by decide +kernel

/-- the hypotheses of the exact statements: two windows, the second one selected behind a wrong answer -/
example : select (⟨[("a".toList, (⟨[], "a".toList⟩, [1])), ("b".toList, (⟨[], "b".toList⟩, [2]))], [], []⟩ : St (List ℕ)) (typed ["9", "2", "5", "6"]) =
    (⟨[("a".toList, (⟨[], "a".toList⟩, [1])), ("b".toList, (⟨[], "b".toList⟩, [2]))], [], []⟩, typed ["5", "6"], .ok (some "b".toList)) := by
  decide +kernel

/-- two windows, the second one selected, an answer that is no number, then the first one softened -/
example : ((menu demo (typed ["open", "a", "open", "b", "operate", "soft", "2", "x", "soft", "1", "3"])).1.windows) =
    [("a".toList, (⟨"dir".toList, "a".toList⟩, [1])), ("b".toList, (⟨"dir".toList, "b".toList⟩, [2])),
     ("a_softened".toList, (⟨"dir".toList, "a_softened".toList⟩, [3]))] := by decide +kernel

/-- the hypotheses of `session_ends`: the demonstration without mesh tallies -/
example : Calm { demo with gvr := fun _ _ _ => .error .ioError } := by
  refine ⟨?_, ?_, ?_, ?_, ?_, ?_⟩
  · intro p e h
    have h' : (if p.name = "a".toList then (.ok [1] : Except PyErr (List ℕ)) else if p.name = "b".toList then .ok [2]
      else if p.name = "a.b.inp".toList then .ok [3] else .error .ioError) = .error e := h
    split at h'
    · cases h'
    split at h'
    · cases h'
    split at h'
    · cases h'
    · injection h' with h'
      exact Or.inl h'.symm
  · intro p t r e h
    have h' : (Except.error .ioError : Except PyErr (List ℕ)) = .error e := h
    injection h' with h'
    exact Or.inl h'.symm
  · intro w v e h
    have h' : (.ok (w.map (· * v)) : Except PyErr (List ℕ)) = .error e := h
    cases h'
  · intro w n v e h
    have h' : (if 1 < w.length then .error .valueError else .ok (w ++ w.map (fun x => x / n * v)) : Except PyErr (List ℕ)) = .error e := h
    split at h'
    · injection h' with h'; exact h'.symm
    · cases h'
  · intro w e h
    have h' : (if 1 < w.length then .ok (w.take 1) else .error .valueError : Except PyErr (List ℕ)) = .error e := h
    split at h'
    · cases h'
    · injection h' with h'; exact h'.symm
  · intro w v e h
    have h' : (.ok (w.filter (· ≤ v)) : Except PyErr (List ℕ)) = .error e := h
    cases h'

example : vtkName "a.b.inp".toList = "a.vts".toList := by decide +kernel
example : vtkName "a.inp".toList = "a.vts".toList := by decide +kernel

end F4Enix.Cli
