import Verif.WW.CliExact
import Verif.WW.CliFind
import Verif.WW.Numbers
/-!
# The menu of weight windows with the windows, the files and the disk as they are (cli.py, weight_window.py, ww_parser.py)

`Cli.lean` takes the operations of windows as parameters; here they are those of `State.lean`, `File.lean` and `GvrFile.lean`, the files have
texts, and what `write` writes can be opened later in the same session.
-/
namespace F4Enix.Cli
open F4Enix F4Enix.WW F4Enix.Mesh F4Enix.MeshFile

/-- a window with its geometry (weight_window.py:27-52) -/
abbrev Win := Geo × Window

/-- what the program finds outside: the texts of the files, `float()` (without `nan` and `inf`), `Path()`, powers, cosine and sine, the reader of numbers of
meshtal files, the data `np.ndarray(shape)` has before it is filled, the text of `info`, and what a file has in it when writing stopped with an exception (specification) -/
structure World where
  disk : Path → Option Str
  float : Str → Option ℚ
  path : Str → Path
  pw : ℚ → ℚ → ℚ
  cs : ℚ → ℚ
  sn : ℚ → ℚ
  num : ParseNum
  junk : Data
  info : Path → Win → Str
  torn : Win → Str

/-- `WW.create_gvr_from_meshtally_file(path, tally_num, ratio)` (weight_window.py:76-112) with a number that need not be an `int`: `readMesh` then reads
nothing, and `meshtal.mesh[tally_id]` raises `KeyError` (ww_parser.py:186-194, meshtal.py:101-116) -/
def gvrNum (wd : World) (lines : List Str) (t : PyNum) (r : ℚ) : Except PyErr Win :=
  match t with
  | .int n => createGvrFromMeshtal wd.pw wd.cs wd.sn wd.num wd.junk lines n r 1
  | .float q =>
    if q = 0 then createGvrFromMeshtal wd.pw wd.cs wd.sn wd.num wd.junk lines 0 r 1
    else
      match scan .outside lines [] with
      | .error e => .error e
      | .ok _ => .error .keyError

/-- a method of the window: the geometry stays (weight_window.py:277-399) -/
def onWin (g : Geo) : Except PyErr Window → Except PyErr Win
  | .error e => .error e
  | .ok s => .ok (g, s)

/-- what a file has in it behind `write_to_ww_file` (weight_window.py:401-427) -/
def textOf (wd : World) (w : Win) : Str :=
  match save pyFmt w.1 w.2 with
  | .ok t => t
  | .error _ => wd.torn w

/-- the texts of the files after the effects of the program (Python) -/
def diskAfter (wd : World) (d : Path → Option Str) : List (Effect Win) → Path → Option Str
  | [] => d
  | .wrote q w :: es => diskAfter wd (fun p => if p = q then some (textOf wd w) else d p) es
  | _ :: es => diskAfter wd d es

/-- the program on the files of a disk (cli.py:58-273, weight_window.py:54-112, 277-399) -/
def envOf (wd : World) (d : Path → Option Str) : Env PyNum Win where
  float x := (wd.float x).map .float
  path := wd.path
  five := .int 5
  one := .float 1
  load p :=
    match d p with
    | none => .error .ioError
    | some t => load pyFmt t
  gvr p t r :=
    match d p with
    | none => .error .ioError
    | some x => gvrNum wd (fileLines x) t r.val
  soften w v := onWin w.1 (WW.soften wd.pw w.2 v.val)
  add w n v := onWin w.1 (addParticle wd.pw w.2 n.val v.val)
  remove w := onWin w.1 (removeParticle w.2)
  mitigate w v := onWin w.1 (WW.mitigate w.2 v.val)
  info := wd.info

/-- `_handle_write` (cli.py:132-138): if writing raises, the file has been opened all the same (ww_parser.py:287-317) -/
def liveWrite (s : St Win) (ins : List Str) : Out Win :=
  withKey s ins (fun s r k p w =>
    match save pyFmt w.1 w.2 with
    | .ok _ => ({ s with
        done := s.done ++ [.wrote ⟨p.parent, stemOf p.name ++ "_written".toList⟩ w],
        extra := " ".toList ++ k ++ "_written saved!".toList }, r, none)
    | .error e => ({ s with done := s.done ++ [.wrote ⟨p.parent, stemOf p.name ++ "_written".toList⟩ w] }, r, some (.exc e)))

/-- a command of the main menu, with the files as they are by now (cli.py:67-76) -/
def liveRun (wd : World) (c : Cmd) (s : St Win) (ins : List Str) : Out Win :=
  match c with
  | .write => liveWrite s ins
  | c => run (envOf wd (diskAfter wd wd.disk s.done)) c s ins

/-- `_main_menu_loop` and `_get_command` (cli.py:86-89, 101-109) -/
def liveLoop (wd : World) : ℕ → St Win → List Str → St Win × Stop
  | 0, s, _ => (s, .eof)
  | _ + 1, s, [] => (s, .eof)
  | n + 1, s, x :: ins =>
    match cmdOf (lower x) with
    | none => liveLoop wd n s ins
    | some c =>
      match liveRun wd c s ins with
      | (s', r, none) => liveLoop wd n s' r
      | (s', r, some (.exc .valueError)) => liveLoop wd n s' r
      | (s', _, some e) => (s', e)

/-- `Menu()` with the lines typed (cli.py:59-84) -/
def live (wd : World) (ins : List Str) : St Win × Stop := liveLoop wd (ins.length + 1) {} ins

/-! ## Specification -/

/-- where a window comes from: a file of the disk, a tally of a file of the disk, an operation on such a window, or a file written before (specification) -/
inductive Comes (wd : World) (done : List (Effect Win)) : Win → Prop
  | file {p t w} : wd.disk p = some t → load pyFmt t = .ok w → Comes wd done w
  | tally {p x t w} : wd.disk p = some x → gvrNum wd (fileLines x) t 5 = .ok w → Comes wd done w
  | oper {g s s' o} : Comes wd done (g, s) → step wd.pw s o = .ok s' → Comes wd done (g, s')
  | again {p w w'} : .wrote p w ∈ done → Comes wd done w → load pyFmt (textOf wd w) = .ok w' → Comes wd done w'
  | tallyAgain {p w t w'} : .wrote p w ∈ done → Comes wd done w → gvrNum wd (fileLines (textOf wd w)) t 5 = .ok w' → Comes wd done w'

/-- every window held, written, exported or plotted (specification) -/
def AllOf {W : Type} (P : W → Prop) (s : St W) : Prop :=
  (∀ k p w, Dict.get? s.windows k = some (p, w) → P w) ∧
  (∀ p w, .wrote p w ∈ s.done → P w) ∧ (∀ p w, .exported p w ∈ s.done → P w) ∧ ∀ w, .plotted w ∈ s.done → P w

/-! ## A property all windows have -/

variable {K W : Type}

/-- a property that windows made by the program have (proof) -/
structure Closed (env : Env K W) (P : W → Prop) : Prop where
  load : ∀ p w, env.load p = .ok w → P w
  gvr : ∀ p t w v w', env.gvr p t env.five = .ok w → env.soften w v = .ok w' → P w'
  oper : ∀ c w w', P w → Result env c w w' → P w'

theorem AllOf.congr {P : W → Prop} {s s' : St W} (h : AllOf P s) (h1 : s'.windows = s.windows) (h2 : s'.done = s.done) : AllOf P s' := by
  unfold AllOf; rw [h1, h2]; exact h

theorem AllOf.set {P : W → Prop} {s s' : St W} (h : AllOf P s) {k : Str} {p : Path} {w : W}
    (h1 : s'.windows = Dict.set s.windows k (p, w)) (h2 : s'.done = s.done) (hm : P w) : AllOf P s' := by
  refine ⟨?_, by rw [h2]; exact h.2⟩
  intro k' q v hk
  rw [h1, Dict.get?_set] at hk
  split at hk
  · simp only [Option.some.injEq, Prod.mk.injEq] at hk
    rw [← hk.2]; exact hm
  · exact h.1 k' q v hk

theorem AllOf.mono {P Q : W → Prop} {s : St W} (h : AllOf P s) (hpq : ∀ w, P w → Q w) : AllOf Q s :=
  ⟨fun k p w hk => hpq w (h.1 k p w hk), fun p w hk => hpq w (h.2.1 p w hk), fun p w hk => hpq w (h.2.2.1 p w hk), fun w hk => hpq w (h.2.2.2 w hk)⟩

theorem AllOf.effect {P : W → Prop} {s : St W} (h : AllOf P s) (x : Str) (w : W) (hw : P w) (e : Effect W)
    (he : (∃ q, e = .wrote q w) ∨ (∃ q, e = .exported q w) ∨ e = .plotted w) : AllOf P { s with done := s.done ++ [e], extra := x } := by
  refine ⟨h.1, ?_, ?_, ?_⟩
  · intro q v hq
    rcases List.mem_append.1 hq with hq | hq
    · exact h.2.1 q v hq
    · rw [← List.mem_singleton.1 hq] at he
      rcases he with ⟨_, he⟩ | ⟨_, he⟩ | he <;> cases he
      exact hw
  · intro q v hq
    rcases List.mem_append.1 hq with hq | hq
    · exact h.2.2.1 q v hq
    · rw [← List.mem_singleton.1 hq] at he
      rcases he with ⟨_, he⟩ | ⟨_, he⟩ | he <;> cases he
      exact hw
  · intro v hq
    rcases List.mem_append.1 hq with hq | hq
    · exact h.2.2.2 v hq
    · rw [← List.mem_singleton.1 hq] at he
      rcases he with ⟨_, he⟩ | ⟨_, he⟩ | he <;> cases he
      exact hw

theorem keep_all {P : W → Prop} (s : St W) (ins : List Str) (p : Path) (r : Except PyErr W) (hr : ∀ w, r = .ok w → P w) (h : AllOf P s) :
    AllOf P (keep s ins p r).1 := by
  cases r with
  | ok w => exact h.set rfl rfl (hr w rfl)
  | error e => cases e <;> exact h.congr rfl rfl

theorem handleOpen_all {env : Env K W} {P : W → Prop} (hc : Closed env P) (s : St W) (ins : List Str) (h : AllOf P s) :
    AllOf P (handleOpen env s ins).1 := by
  induction ins with
  | nil => exact h
  | cons x xs ih =>
    rw [handleOpen]
    split
    · split
      · rename_i s' r e he
        rw [he] at ih
        exact ih
      · rename_i s' r he
        rw [he] at ih
        exact keep_all s' r (env.path x) _ (fun w hw => hc.load _ w hw) ih
    · exact keep_all s xs (env.path x) _ (fun w hw => hc.load _ w hw) h

theorem gvrEnd_all {env : Env K W} {P : W → Prop} (hc : Closed env P) (s : St W) (p : Path) (ins : List Str) (h : AllOf P s) :
    AllOf P (gvrEnd env s p ins).1 := by
  unfold gvrEnd
  split
  · exact h
  · rename_i t r e
    split
    · exact h
    · rename_i v r' e'
      refine keep_all s r' p _ ?_ h
      intro w hw
      cases hg : env.gvr p t env.five with
      | error e => rw [hg] at hw; cases hw
      | ok w0 => rw [hg] at hw; exact hc.gvr p t w0 v w hg hw

theorem handleGvr_all {env : Env K W} {P : W → Prop} (hc : Closed env P) (s : St W) (ins : List Str) (h : AllOf P s) :
    AllOf P (handleGvr env s ins).1 := by
  induction ins with
  | nil => exact h
  | cons x xs ih =>
    rw [handleGvr]
    split
    · split
      · rename_i s' r e he
        rw [he] at ih
        exact ih
      · rename_i s' r he
        rw [he] at ih
        exact gvrEnd_all hc s' (env.path x) r ih
    · exact gvrEnd_all hc s (env.path x) xs h

theorem withKey_all {P : W → Prop} (s : St W) (ins : List Str) (f : St W → List Str → Str → Path → W → Out W)
    (hf : ∀ r k p w, Dict.get? s.windows k = some (p, w) → AllOf P (f s r k p w).1) (h : AllOf P s) : AllOf P (withKey s ins f).1 := by
  rcases withKey_cases s ins f with ⟨s', r, o, e, h1, h2, -, -⟩ | ⟨r, k, p, w, hg, e, -⟩
  · rw [e]; exact h.congr h1 h2
  · rw [e]; exact hf r k p w hg

theorem run_all {env : Env K W} {P : W → Prop} (hc : Closed env P) (c : Cmd) (s : St W) (ins : List Str) (h : AllOf P s) :
    AllOf P (run env c s ins).1 := by
  cases c with
  | opn => exact handleOpen_all hc s ins h
  | info => exact withKey_all s ins _ (fun r k p w _ => h.congr rfl rfl) h
  | write => exact withKey_all s ins _ (fun r k p w hg => h.effect _ w (h.1 k p w hg) _ (Or.inl ⟨_, rfl⟩)) h
  | vtk => exact withKey_all s ins _ (fun r k p w hg => h.effect _ w (h.1 k p w hg) _ (Or.inr (Or.inl ⟨_, rfl⟩))) h
  | plot => exact withKey_all s ins _ (fun r k p w hg => h.effect s.extra w (h.1 k p w hg) (.plotted w) (Or.inr (Or.inr rfl))) h
  | operate =>
    obtain ⟨-, h2, h3⟩ := operateLoop_cases env (ins.length + 1) { s with extra := [] } ins
    rcases h3 with e | ⟨c, k, p, w, w', e1, e2, e3⟩
    · exact h.congr e h2
    · exact h.set (p := ⟨p.parent, k ++ c.tail⟩) e3 h2 (hc.oper c w w' (h.1 k p w e1) e2)
  | gvr => exact handleGvr_all hc s ins h
  | quit => exact h
  | empty => exact h

theorem liveWrite_all {P : Win → Prop} (s : St Win) (ins : List Str) (h : AllOf P s) : AllOf P (liveWrite s ins).1 := by
  refine withKey_all s ins _ (fun r k p w hg => ?_) h
  split
  · exact h.effect _ w (h.1 k p w hg) _ (Or.inl ⟨_, rfl⟩)
  · exact h.effect s.extra w (h.1 k p w hg) _ (Or.inl ⟨_, rfl⟩)

/-! ## Effects are kept -/

theorem keep_done (s : St W) (ins : List Str) (p : Path) (r : Except PyErr W) : (keep s ins p r).1.done = s.done := by
  cases r with
  | ok w => rfl
  | error e => cases e <;> rfl

theorem handleOpen_done (env : Env K W) (s : St W) (ins : List Str) : (handleOpen env s ins).1.done = s.done := by
  induction ins with
  | nil => rfl
  | cons x xs ih =>
    rw [handleOpen]
    split
    · split
      · rename_i s' r e he; rw [he] at ih; exact ih
      · rename_i s' r he; rw [he] at ih; exact (keep_done _ _ _ _).trans ih
    · exact keep_done _ _ _ _

theorem gvrEnd_done (env : Env K W) (s : St W) (p : Path) (ins : List Str) : (gvrEnd env s p ins).1.done = s.done := by
  unfold gvrEnd
  split
  · rfl
  · split
    · rfl
    · exact keep_done _ _ _ _

theorem handleGvr_done (env : Env K W) (s : St W) (ins : List Str) : (handleGvr env s ins).1.done = s.done := by
  induction ins with
  | nil => rfl
  | cons x xs ih =>
    rw [handleGvr]
    split
    · split
      · rename_i s' r e he; rw [he] at ih; exact ih
      · rename_i s' r he; rw [he] at ih; exact (gvrEnd_done _ _ _ _).trans ih
    · exact gvrEnd_done _ _ _ _

theorem withKey_done (s : St W) (ins : List Str) (f : St W → List Str → Str → Path → W → Out W)
    (hf : ∀ r k p w, Dict.get? s.windows k = some (p, w) → s.done <+: (f s r k p w).1.done) : s.done <+: (withKey s ins f).1.done := by
  rcases withKey_cases s ins f with ⟨s', r, o, e, h1, h2, -, -⟩ | ⟨r, k, p, w, hg, e, -⟩
  · rw [e]; simp only [h2]; exact List.prefix_refl _
  · rw [e]; exact hf r k p w hg

theorem run_done (env : Env K W) (c : Cmd) (s : St W) (ins : List Str) : s.done <+: (run env c s ins).1.done := by
  cases c with
  | opn => rw [show run env .opn s ins = handleOpen env s ins from rfl, handleOpen_done]
  | info => exact withKey_done s ins _ (fun r k p w _ => List.prefix_refl _)
  | write => exact withKey_done s ins _ (fun r k p w _ => List.prefix_append _ _)
  | vtk => exact withKey_done s ins _ (fun r k p w _ => List.prefix_append _ _)
  | plot => exact withKey_done s ins _ (fun r k p w _ => List.prefix_append _ _)
  | operate =>
    obtain ⟨-, h2, -⟩ := operateLoop_cases env (ins.length + 1) { s with extra := [] } ins
    rw [show (run env .operate s ins).1.done = s.done from h2]
  | gvr => rw [show run env .gvr s ins = handleGvr env s ins from rfl, handleGvr_done]
  | quit => exact List.prefix_refl _
  | empty => exact List.prefix_refl _

theorem liveRun_done (wd : World) (c : Cmd) (s : St Win) (ins : List Str) : s.done <+: (liveRun wd c s ins).1.done := by
  cases c with
  | write =>
    refine withKey_done s ins _ (fun r k p w _ => ?_)
    split <;> exact List.prefix_append _ _
  | _ => exact run_done _ _ s ins

/-! ## All histories -/

theorem diskAfter_cases (wd : World) (d : Path → Option Str) (es : List (Effect Win)) (p : Path) :
    diskAfter wd d es p = d p ∨ ∃ q w, .wrote q w ∈ es ∧ diskAfter wd d es p = some (textOf wd w) := by
  induction es generalizing d with
  | nil => exact Or.inl rfl
  | cons e es ih =>
    cases e with
    | wrote q w =>
      rcases ih (fun p => if p = q then some (textOf wd w) else d p) with h | ⟨q', w', h1, h2⟩
      · by_cases hp : p = q
        · right
          refine ⟨q, w, List.mem_cons_self, ?_⟩
          rw [show diskAfter wd d (.wrote q w :: es) p = _ from h]
          simp only [if_pos hp]
        · left
          rw [show diskAfter wd d (.wrote q w :: es) p = _ from h]
          simp only [if_neg hp]
      · exact Or.inr ⟨q', w', List.mem_cons_of_mem _ h1, h2⟩
    | exported q w =>
      rcases ih d with h | ⟨q', w', h1, h2⟩
      · exact Or.inl h
      · exact Or.inr ⟨q', w', List.mem_cons_of_mem _ h1, h2⟩
    | plotted w =>
      rcases ih d with h | ⟨q', w', h1, h2⟩
      · exact Or.inl h
      · exact Or.inr ⟨q', w', List.mem_cons_of_mem _ h1, h2⟩

theorem Comes.mono {wd : World} {a b : List (Effect Win)} (h : a <+: b) {w : Win} (hc : Comes wd a w) : Comes wd b w := by
  induction hc with
  | file h1 h2 => exact .file h1 h2
  | tally h1 h2 => exact .tally h1 h2
  | oper _ h2 ih => exact .oper ih h2
  | again h1 _ h3 ih => exact .again (h.subset h1) ih h3
  | tallyAgain h1 _ h3 ih => exact .tallyAgain (h.subset h1) ih h3

theorem onWin_ok {g : Geo} {r : Except PyErr Window} {w : Win} (h : onWin g r = .ok w) : ∃ s, r = .ok s ∧ w = (g, s) := by
  cases r with
  | error e => cases h
  | ok s => exact ⟨s, rfl, (Except.ok.inj h).symm⟩

theorem env_closed (wd : World) (s : St Win) (h : AllOf (Comes wd s.done) s) :
    Closed (envOf wd (diskAfter wd wd.disk s.done)) (Comes wd s.done) := by
  refine ⟨?_, ?_, ?_⟩
  · intro p w hl
    simp only [envOf] at hl
    rcases diskAfter_cases wd wd.disk s.done p with e | ⟨q, v, e1, e2⟩
    · rw [e] at hl
      cases hd : wd.disk p with
      | none => rw [hd] at hl; cases hl
      | some t => rw [hd] at hl; exact .file hd hl
    · rw [e2] at hl
      exact .again e1 (h.2.1 q v e1) hl
  · intro p t w v w' hg hs
    simp only [envOf] at hg hs
    have hw : Comes wd s.done w := by
      rcases diskAfter_cases wd wd.disk s.done p with e | ⟨q, x, e1, e2⟩
      · rw [e] at hg
        cases hd : wd.disk p with
        | none => rw [hd] at hg; cases hg
        | some t => rw [hd] at hg; exact .tally hd hg
      · rw [e2] at hg
        exact .tallyAgain e1 (h.2.1 q x e1) hg
    obtain ⟨s', h1, rfl⟩ := onWin_ok hs
    exact .oper (g := w.1) (s := w.2) (o := .soften v.val) hw h1
  · intro c w w' hw hr
    cases c with
    | soft =>
      obtain ⟨v, hv⟩ := hr
      obtain ⟨s', h1, rfl⟩ := onWin_ok hv
      exact .oper (o := .soften v.val) hw h1
    | add =>
      obtain ⟨n, v, hv⟩ := hr
      obtain ⟨s', h1, rfl⟩ := onWin_ok hv
      exact .oper (o := .addParticle n.val v.val) hw h1
    | remove =>
      obtain ⟨s', h1, rfl⟩ := onWin_ok hr
      exact .oper (o := .removeParticle) hw h1
    | mitigate =>
      obtain ⟨v, hv⟩ := hr
      obtain ⟨s', h1, rfl⟩ := onWin_ok hv
      exact .oper (o := .mitigate v.val) hw h1
    | quit => exact absurd hr (by simp [Result])
    | empty => exact absurd hr (by simp [Result])

theorem liveRun_comes (wd : World) (c : Cmd) (s : St Win) (ins : List Str) (h : AllOf (Comes wd s.done) s) :
    AllOf (Comes wd (liveRun wd c s ins).1.done) (liveRun wd c s ins).1 := by
  have hp := liveRun_done wd c s ins
  have hc := env_closed wd s h
  refine AllOf.mono (P := Comes wd s.done) ?_ (fun w hw => hw.mono hp)
  cases c with
  | write => exact liveWrite_all s ins h
  | _ => exact run_all hc _ s ins h

theorem liveLoop_comes (wd : World) (n : ℕ) (s : St Win) (ins : List Str) (h : AllOf (Comes wd s.done) s) :
    AllOf (Comes wd (liveLoop wd n s ins).1.done) (liveLoop wd n s ins).1 := by
  induction n generalizing s ins with
  | zero => exact h
  | succ n ih =>
    cases ins with
    | nil => exact h
    | cons x ins =>
      rw [liveLoop]
      cases cmdOf (lower x) with
      | none => exact ih s ins h
      | some c =>
        simp only
        have hf := liveRun_comes wd c s ins h
        split
        · rename_i s' r e
          rw [e] at hf
          exact ih s' r hf
        · rename_i s' r e
          rw [e] at hf
          exact ih s' r hf
        · rename_i s' r e _ he
          rw [he] at hf
          exact hf

/-- every window that a session holds, writes, exports or plots comes from the files of the disk -/
theorem live_comes (wd : World) (ins : List Str) : AllOf (Comes wd (live wd ins).1.done) (live wd ins).1 :=
  liveLoop_comes wd _ _ ins ⟨by simp [Dict.get?], by simp, by simp, by simp⟩

end F4Enix.Cli
