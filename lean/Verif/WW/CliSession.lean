import Verif.WW.CliFilesProps
/-!
# A session with its files goes command by command (C194)

Every line typed is used: the session goes on after each command from the state it left and with the lines it left, until a command
ends it or no line is left.
-/
namespace F4Enix.Cli
open F4Enix F4Enix.WW

theorem withKey_le (s : St Win) (ins : List Str) (f : St Win → List Str → Str → Path → Win → Out Win)
    (hf : ∀ s r k p w, (f s r k p w).2.1 = r) : (withKey s ins f).2.1.length ≤ ins.length := by
  rcases withKey_cases s ins f with ⟨s', r, o, h, -, -, hl, -⟩ | ⟨r, k, p, w, -, h, hl⟩
  · rw [h]; exact hl
  · rw [h, hf]; exact hl

theorem liveRun_le (wd : World) (c : Cmd) (s : St Win) (ins : List Str) : (liveRun wd c s ins).2.1.length ≤ ins.length := by
  have hrest : (run (envOf wd (diskAfter wd wd.disk s.done)) c s ins).2.1.length ≤ ins.length := (run_fine _ c s ins).1
  cases c
  case write =>
    show (liveWrite s ins).2.1.length ≤ ins.length
    unfold liveWrite
    apply withKey_le
    intro s r k p w
    split <;> rfl
  all_goals exact hrest

theorem liveLoop_fuel (wd : World) (n m : ℕ) (s : St Win) (ins : List Str) (hn : ins.length < n) (hm : ins.length < m) :
    liveLoop wd n s ins = liveLoop wd m s ins := by
  induction n generalizing m s ins with
  | zero => omega
  | succ n ih =>
    cases m with
    | zero => omega
    | succ m =>
      cases ins with
      | nil => rfl
      | cons x ins =>
        rw [List.length_cons] at hn hm
        rw [liveLoop, liveLoop]
        cases cmdOf (lower x) with
        | none => exact ih m s ins (by omega) (by omega)
        | some c =>
          have hl := liveRun_le wd c s ins
          simp only
          split
          · rename_i s' r e
            rw [e] at hl
            exact ih m s' r (by simp only at hl; omega) (by simp only at hl; omega)
          · rename_i s' r e
            rw [e] at hl
            exact ih m s' r (by simp only at hl; omega) (by simp only at hl; omega)
          · rfl

/-- one line of the main menu: what the session has become and which lines are left, or how it ended (specification) -/
inductive OneStep (wd : World) : St Win → List Str → St Win → List Str → Prop
  | bad {s x ins} : cmdOf (lower x) = none → OneStep wd s (x :: ins) s ins
  | done {s x ins c s' r} : cmdOf (lower x) = some c → liveRun wd c s ins = (s', r, none) → OneStep wd s (x :: ins) s' r
  | again {s x ins c s' r} : cmdOf (lower x) = some c → liveRun wd c s ins = (s', r, some (.exc .valueError)) → OneStep wd s (x :: ins) s' r

/-- a state in which the session ends, and how (specification) -/
inductive Ends (wd : World) : St Win → List Str → St Win → Stop → Prop
  | eof {s} : Ends wd s [] s .eof
  | cmd {s x ins c s' r e} : cmdOf (lower x) = some c → liveRun wd c s ins = (s', r, some e) → e ≠ .exc .valueError → Ends wd s (x :: ins) s' e

/-- some number of lines of the main menu (specification) -/
inductive Steps (wd : World) : St Win → List Str → St Win → List Str → Prop
  | nil {s ins} : Steps wd s ins s ins
  | cons {s ins s' ins' s'' ins''} : OneStep wd s ins s' ins' → Steps wd s' ins' s'' ins'' → Steps wd s ins s'' ins''

/-- **C194 (every line is used).** A session, whatever is typed, is a sequence of commands of the main menu from the empty state, each with the lines the one
before it left and the files as they are by then, up to the command that ends it or the end of the lines; commands that raise `ValueError` and lines that
are no commands do not end it. -/
theorem live_steps (wd : World) (ins : List Str) :
    ∃ s r, Steps wd {} ins s r ∧ Ends wd s r (live wd ins).1 (live wd ins).2 := by
  have key : ∀ (n : ℕ) (s : St Win) (ins : List Str), ins.length < n →
      ∃ s' r, Steps wd s ins s' r ∧ Ends wd s' r (liveLoop wd n s ins).1 (liveLoop wd n s ins).2 := by
    intro n
    induction n with
    | zero => intro s ins h; omega
    | succ n ih =>
      intro s ins h
      cases ins with
      | nil => exact ⟨s, [], .nil, .eof⟩
      | cons x ins =>
        rw [List.length_cons] at h
        rw [liveLoop]
        cases hc : cmdOf (lower x) with
        | none =>
          obtain ⟨s', r, h1, h2⟩ := ih s ins (by omega)
          exact ⟨s', r, .cons (.bad hc) h1, h2⟩
        | some c =>
          have hl := liveRun_le wd c s ins
          simp only
          split
          · rename_i s1 r1 e
            rw [e] at hl
            obtain ⟨s', r, h1, h2⟩ := ih s1 r1 (by simp only at hl; omega)
            exact ⟨s', r, .cons (.done hc e) h1, h2⟩
          · rename_i s1 r1 e
            rw [e] at hl
            obtain ⟨s', r, h1, h2⟩ := ih s1 r1 (by simp only at hl; omega)
            exact ⟨s', r, .cons (.again hc e) h1, h2⟩
          · rename_i s1 r1 e hne he
            exact ⟨s, x :: ins, .nil, .cmd hc he hne⟩
  exact key _ _ _ (by omega)

/-- a session of three lines, the last of which ends it -/
example : (live oneWorld (["open", "ww", "END"].map String.toList)).1.windows.length = 1 := by decide +kernel

end F4Enix.Cli
