import Verif.Base.Crash
import Verif.D1S.Cut
/-!
# Saving irradiation and reaction files on the disk (C201)
-/
namespace F4Enix.D1S
open F4Enix

/-! ## The model -/

/-- the loop writing the schedules: what has been written, and the error that ended it (d1suned.py:250-252) -/
def saveRows (cols : List Nat) : List Irradiation → Str × Option PyErr
  | [] => ([], none)
  | i :: is =>
    match formatCols cols (formatArgs i) with
    | .error e => ([], some e)
    | .ok row =>
      match saveRows cols is with
      | (rest, e) => (row ++ '\n' :: rest, e)

/-- `IrradiationFile.write`: what the file holds at the end, and the error raised; the file is opened before the first row is formatted
(d1suned.py:221-254) -/
def saveText (f : IrradiationFile) : Str × Option PyErr :=
  let head := f.header.getD [] ++ "nsc ".toList ++ intStr f.nsc ++ ['\n']
  match formatCols f.cols (titleArgs f.nsc) with
  | .error e => (head, some e)
  | .ok titles =>
    match saveRows f.cols f.schedules with
    | (rows, e) => (head ++ "C ".toList ++ titles ++ ['\n'] ++ rows, e)

/-- `IrradiationFile.write` on the disk (d1suned.py:221-254) -/
def save (f : IrradiationFile) (path : Str) (files : Dict Str Str) : Dict Str Str × Option PyErr :=
  (Dict.set files path (saveText f).1, (saveText f).2)

/-! ## Saving and the text -/

theorem saveRows_eq (cols : List Nat) (is : List Irradiation) :
    match writeRows cols is with
    | .ok t => saveRows cols is = (t, none)
    | .error e => (saveRows cols is).2 = some e := by
  induction is with
  | nil => rfl
  | cons i is ih =>
    unfold writeRows saveRows
    cases formatCols cols (formatArgs i) with
    | error e => rfl
    | ok row =>
      cases hw : writeRows cols is with
      | error e =>
        rw [hw] at ih
        exact ih
      | ok t =>
        rw [hw] at ih
        simp only at ih
        simp only [ih]

/-- saving succeeds exactly when there is a text, and then the file holds it -/
theorem save_ok {f : IrradiationFile} {text : Str} (h : writeFile f = .ok text) (path : Str) (files : Dict Str Str) :
    save f path files = (Dict.set files path text, none) := by
  unfold save saveText
  unfold writeFile at h
  cases ht : formatCols f.cols (titleArgs f.nsc) with
  | error e => rw [ht] at h; cases h
  | ok titles =>
    rw [ht] at h
    simp only at h
    have := saveRows_eq f.cols f.schedules
    cases hw : writeRows f.cols f.schedules with
    | error e => rw [hw] at h; cases h
    | ok t =>
      rw [hw] at h this
      cases h
      simp only at this
      simp only [this]

/-- an error of the writer is raised, and the file has been emptied by then -/
theorem save_error {f : IrradiationFile} {e : PyErr} (h : writeFile f = .error e) (path : Str) (files : Dict Str Str) :
    (save f path files).2 = some e ∧ ∃ t, Dict.get? (save f path files).1 path = some t := by
  refine ⟨?_, _, by unfold save; rw [Dict.get?_set, if_pos rfl]⟩
  unfold save saveText
  unfold writeFile at h
  cases ht : formatCols f.cols (titleArgs f.nsc) with
  | error e' => rw [ht] at h; cases h; rfl
  | ok titles =>
    rw [ht] at h
    simp only at h
    have := saveRows_eq f.cols f.schedules
    cases hw : writeRows f.cols f.schedules with
    | error e' => rw [hw] at h this; cases h; exact this
    | ok t => rw [hw] at h; cases h

theorem saveRows_append (cols : List Nat) (pre : List Irradiation) {t : Str} (h : writeRows cols pre = .ok t) (post : List Irradiation) :
    saveRows cols (pre ++ post) = (t ++ (saveRows cols post).1, (saveRows cols post).2) := by
  induction pre generalizing t with
  | nil => cases h; rfl
  | cons i is ih =>
    simp only [writeRows] at h
    rw [List.cons_append, saveRows]
    cases hr : formatCols cols (formatArgs i) with
    | error e => rw [hr] at h; cases h
    | ok row =>
      rw [hr] at h
      simp only at h
      cases hw : writeRows cols is with
      | error e => rw [hw] at h; cases h
      | ok rest =>
        rw [hw] at h
        cases h
        simp only [ih hw]
        simp

theorem format_no_comment (w : Widths) {i : Irradiation} {n : Nat} (hn : i.times.length = n) (hc : i.comment = none) :
    formatCols (irrCols w (n : Int)) (formatArgs i) = .error .typeError := by
  obtain ⟨d, l, ts, c⟩ := i
  simp only at hc hn
  subst hc
  have h := c23_none_comment_raises w d l n ts hn [] none
  obtain ⟨t, ht, _⟩ := formatTitles w n
  simp only [writeFile, IrradiationFile.mk', ht, writeRows] at h
  cases hf : formatCols (irrCols w (n : Int)) (formatArgs ⟨d, l, ts, none⟩) with
  | error e => rw [hf] at h; simpa using h
  | ok r => rw [hf] at h; cases h

/-! ## C201 -/

/-- **C201 fails** (a save that raises). Whatever file was there: saving irradiations of which one has no comment raises a `TypeError`, the old file is
gone, and the file left in its place is read without a word as a complete irradiation file of the schedules before that one. -/
theorem irr_save_failed {f : IrradiationFile} (hc : Consistent f) {n : ℕ} (hn : f.nsc = n) (hh : HeaderOk (f.header.getD [])) {pre post : List Irradiation}
    {bad : Irradiation} (hs : f.schedules = pre ++ bad :: post) (hf : ∀ i ∈ pre, Fits f.formatting i) (hb : bad.comment = none) (path : Str)
    (files : Dict Str Str) :
    ∃ text, save f path files = (Dict.set files path text, some .typeError) ∧
      readFile text = .ok (IrradiationFile.mk' f.nsc pre (some (f.header.getD []))) := by
  have hc' : Consistent { f with schedules := pre } := ⟨fun i hi => hc.times i (by rw [hs]; simp [hi]), hc.cols⟩
  obtain ⟨text, w1, w2⟩ := c23_write_read { f with schedules := pre } hc' (by simp [hn]) hh hf
  refine ⟨text, ?_, w2⟩
  have hcols : f.cols = irrCols f.formatting f.nsc := by rw [hc.cols]; simp [irrCols]
  obtain ⟨t, ht1, -⟩ := formatTitles f.formatting f.nsc
  have w1' : writeFile { f with schedules := pre } = .ok text := w1
  simp only [writeFile, hcols, ht1] at w1'
  cases hr : writeRows (irrCols f.formatting f.nsc) pre with
  | error e => rw [hr] at w1'; cases w1'
  | ok rows =>
    rw [hr] at w1'
    cases w1'
    have hbad : formatCols (irrCols f.formatting f.nsc) (formatArgs bad) = .error .typeError := by
      rw [hn]
      exact format_no_comment _ (by have := hc.times bad (by rw [hs]; simp); omega) hb
    have hrows : saveRows (irrCols f.formatting f.nsc) f.schedules = (rows, some .typeError) := by
      rw [hs, saveRows_append _ _ hr]
      simp [saveRows, hbad]
    unfold save saveText
    simp only [hcols, ht1, hrows]

/-- **C201 (partial: irradiation files).** After a crash during a save, the path holds the old file, or it holds a file of which only the first
schedules of the new one can be read, and at most one more that is cut. The other files are untouched. -/
theorem irr_crash_partial {f : IrradiationFile} (hc : Consistent f) (hn : 0 ≤ f.nsc)
    (hh : HeaderOk (f.header.getD [])) (hf : ∀ i ∈ f.schedules, Fits f.formatting i) {text : Str} (hw : writeFile f = .ok text)
    {files d : Dict Str Str} {path : Str} (hd : CrashDisk files path text d) :
    (∀ k, k ≠ path → Dict.get? d k = Dict.get? files k) ∧
    (Dict.get? d path = Dict.get? files path ∨ ∃ t, Dict.get? d path = some t ∧ ∀ g, readFile t = .ok g →
      g.header = some (f.header.getD []) ∧ (g.schedules ≠ [] → g.nsc = f.nsc) ∧
      ∃ k, g.schedules = f.schedules.take k ∨
        ∃ i i', f.schedules[k]? = some i ∧ g.schedules = f.schedules.take k ++ [i'] ∧ CutRow i i') := by
  refine ⟨fun k hk => hd.others hk, ?_⟩
  rcases hd.at_path with h | ⟨part, h1, h2⟩
  · exact Or.inl h
  · exact Or.inr ⟨part, h2, fun g hg => irr_cut_partial hc hn hh hf hw h1 hg⟩

/-- **C201 (partial: reaction files).** The same for reaction files. -/
theorem reac_crash_partial {rs : List Reaction} (h : ∀ r ∈ rs, ReacFits r) {files d : Dict Str Str} {path : Str}
    (hd : CrashDisk files path (writeReactions rs) d) :
    (∀ k, k ≠ path → Dict.get? d k = Dict.get? files k) ∧
    (Dict.get? d path = Dict.get? files path ∨ ∃ t, Dict.get? d path = some t ∧ ∀ rs', readReactions t = .ok rs' →
      ∃ k, rs' = (rs.take k).map asRead ∨ ∃ r r', rs[k]? = some r ∧ rs' = (rs.take k).map asRead ++ [r'] ∧
        r'.parent = r.parent ∧ r'.mt = r.mt ∧ r'.daughter <+: r.daughter) := by
  refine ⟨fun k hk => hd.others hk, ?_⟩
  rcases hd.at_path with h' | ⟨part, h1, h2⟩
  · exact Or.inl h'
  · exact Or.inr ⟨part, h2, fun rs' hr => reac_cut_partial h h1 hr⟩

/-- **C201 fails** (a crash). Whatever reaction file was there, and whatever is saved over it: there is a crash after which the file is read as a
reaction file without reactions. -/
theorem reac_crash_lost (rs : List Reaction) (files : Dict Str Str) (path : Str) :
    ∃ d, CrashDisk files path (writeReactions rs) d ∧ Dict.get? d path = some [] ∧ readReactions [] = .ok [] :=
  ⟨_, .written [] (List.nil_prefix), by rw [Dict.get?_set, if_pos rfl], by decide⟩

/-! ## A concrete case -/

/-- the file of the examples of C23 with a schedule without comment in its second place (example) -/
def failFile : IrradiationFile :=
  { exFile with schedules := match exFile.schedules with
      | a :: b :: r => a :: { b with comment := none } :: r
      | l => l }

/-- the old file, here that of the three schedules, is replaced by one of one schedule -/
example : (match writeFile exFile with
    | .error _ => false
    | .ok old =>
      match save failFile "irr".toList [("irr".toList, old)] with
      | (d, some .typeError) =>
        match Dict.get? d "irr".toList with
        | some t =>
          match readFile t with
          | .ok g => decide (g.schedules = exFile.schedules.take 1 ∧ exFile.schedules.length = 3)
          | .error _ => false
        | none => false
      | _ => false) = true := by
  decide +kernel

end F4Enix.D1S
