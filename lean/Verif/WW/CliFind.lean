import Verif.WW.CliProps
/-!
# The menu of weight windows: names, what is shown, how a session ends (C130, C131, C133-C135)
-/
namespace F4Enix.Cli
open F4Enix

variable {K W : Type}

/-! ### selection -/

/-- C133: with two windows or more, the first answer that is a number shown selects the window it is shown with; all answers before it are asked
again, and nothing else changes. -/
theorem select_number (s : St W) (bad : List Str) (x : Str) (rest : List Str) (h2 : 2 ≤ s.windows.length)
    (hb : ∀ y ∈ bad, ¬ (y ≠ [] ∧ (∀ c ∈ y, isDigit c = true) ∧ 1 ≤ digitsVal y ∧ digitsVal y ≤ s.windows.length))
    (hx : x ≠ [] ∧ (∀ c ∈ x, isDigit c = true) ∧ 1 ≤ digitsVal x ∧ digitsVal x ≤ s.windows.length) :
    ∃ k, (Dict.keys s.windows)[digitsVal x - 1]? = some k ∧ select s (bad ++ x :: rest) = (s, rest, .ok (some k)) := by
  have hi : digitsVal x - 1 < (Dict.keys s.windows).length := by
    unfold Dict.keys
    rw [List.length_map]; omega
  refine ⟨_, List.getElem?_eq_getElem hi, ?_⟩
  unfold select
  split
  · rename_i h; rw [h] at h2; simp at h2
  · rename_i h; rw [h] at h2; simp at h2
  · rw [choose_spec _ bad x rest hb hx]
    simp only [List.getElem?_eq_getElem hi]

/-- with one window nothing is asked -/
theorem select_one (s : St W) (k : Str) (v : Path × W) (h : s.windows = [(k, v)]) (ins : List Str) : select s ins = (s, ins, .ok (some k)) := by
  unfold select
  simp only [h]

/-- without windows every command that needs one returns without effect -/
theorem withKey_none (s : St W) (h : s.windows = []) (ins : List Str) (f : St W → List Str → Str → Path → W → Out W) :
    withKey s ins f = ({ s with extra := " No weight windows loaded...".toList }, ins, none) := by
  unfold withKey select
  simp only [h]

/-! ### names of results -/

/-- C130: names without dots: results of different operations, or of windows with different names, have different names. -/
theorem result_name_inj_partial {k k' : Str} {c c' : OpCmd} (hc : c ≠ .quit ∧ c ≠ .empty) (hc' : c' ≠ .quit ∧ c' ≠ .empty)
    (hk : '.' ∉ k) (hk' : '.' ∉ k') (h : stemOf (k ++ c.tail) = stemOf (k' ++ c'.tail)) : k = k' ∧ c = c' := by
  have hd : ∀ d : OpCmd, '.' ∉ d.tail := by intro d; cases d <;> decide
  have e1 : stemOf (k ++ c.tail) = k ++ c.tail := stemOf_plain (by rw [List.mem_append]; exact fun h => h.elim hk (hd c))
  have e2 : stemOf (k' ++ c'.tail) = k' ++ c'.tail := stemOf_plain (by rw [List.mem_append]; exact fun h => h.elim hk' (hd c'))
  rw [e1, e2] at h
  have hcc : c = c' := by
    have hr := congrArg List.reverse h
    rw [List.reverse_append, List.reverse_append] at hr
    have h3 := congrArg (List.take 3) hr
    have hl : ∀ d : OpCmd, d ≠ .quit ∧ d ≠ .empty → 3 ≤ d.tail.reverse.length := by
      intro d hd
      rw [List.length_reverse]
      cases d
      · decide
      · decide
      · decide
      · decide
      · exact absurd rfl hd.1
      · exact absurd rfl hd.2
    rw [List.take_append_of_le_length (hl c hc), List.take_append_of_le_length (hl c' hc')] at h3
    have key : ∀ d ∈ [OpCmd.soft, .add, .remove, .mitigate], ∀ d' ∈ [OpCmd.soft, .add, .remove, .mitigate],
      d.tail.reverse.take 3 = d'.tail.reverse.take 3 → d = d' := by decide +kernel
    have hm : ∀ d : OpCmd, d ≠ .quit ∧ d ≠ .empty → d ∈ [OpCmd.soft, .add, .remove, .mitigate] := by
      intro d hd
      cases d
      · decide
      · decide
      · decide
      · decide
      · exact absurd rfl hd.1
      · exact absurd rfl hd.2
    exact key c (hm c hc) c' (hm c' hc') h3
  subst hcc
  exact ⟨List.append_cancel_right h, rfl⟩

theorem takeWhile_stop (a b : Str) (hb : '.' ∉ b) : (b ++ '.' :: a).takeWhile (fun c => c != '.') = b := by
  induction b with
  | nil => simp
  | cons x b ih =>
    have hx : x ≠ '.' := fun e => hb (by simp [e])
    rw [List.cons_append, List.takeWhile_cons, if_pos (by simpa using hx), ih (fun h => hb (by simp [h]))]

theorem cutDot_dot (a b : Str) (hb : '.' ∉ b) : cutDot (a ++ '.' :: b) = some (a, '.' :: b) := by
  have hk : ((a ++ '.' :: b).reverse.takeWhile (fun c => c != '.')).length = b.length := by
    have : (a ++ '.' :: b).reverse = b.reverse ++ '.' :: a.reverse := by simp
    rw [this, takeWhile_stop _ _ (by simpa using hb), List.length_reverse]
  unfold cutDot
  simp only [hk]
  have hl : (a ++ '.' :: b).length = a.length + b.length + 1 := by simp; omega
  rw [if_neg (by omega), hl, show a.length + b.length + 1 - b.length - 1 = a.length by omega,
    List.take_left' rfl, List.drop_left' rfl]

/-- C130 fails for names with a dot: the result of any operation on the window `a.b` is stored under the name `a`, whatever window has that name. -/
theorem dotted_result (a b : Str) (ha : a ≠ []) (hb : '.' ∉ b) (c : OpCmd) (hc : c ≠ .quit ∧ c ≠ .empty) :
    stemOf (a ++ '.' :: b ++ c.tail) = a := by
  have hd : '.' ∉ c.tail := by cases c <;> decide
  have hlen : 0 < c.tail.length := by
    cases c
    · decide
    · decide
    · decide
    · decide
    · exact absurd rfl hc.1
    · exact absurd rfl hc.2
  have : a ++ '.' :: b ++ c.tail = a ++ '.' :: (b ++ c.tail) := by simp
  rw [this]
  unfold stemOf
  rw [cutDot_dot a _ (by rw [List.mem_append]; exact fun h => h.elim hb hd)]
  simp only
  rw [if_pos ⟨ha, by rw [List.length_cons, List.length_append]; omega⟩]

/-! ### what is shown -/

/-- C131: every command shown by the main menu is accepted and has a function. -/
theorem main_shown : ∀ x ∈ mainShown, ∃ c, cmdOf (lower x) = some c ∧ c ≠ .empty := by
  have h : ∀ x ∈ mainShown, (cmdOf (lower x)).isSome = true ∧ cmdOf (lower x) ≠ some .empty := by decide +kernel
  intro x hx
  obtain ⟨h1, h2⟩ := h x hx
  cases hc : cmdOf (lower x) with
  | none => rw [hc] at h1; cases h1
  | some c => exact ⟨c, rfl, fun e => h2 (by rw [hc, e])⟩

/-- C131 for operations: only `soft`, `add` and `end` of the menu shown are accepted -/
theorem op_shown_partial : ∀ x ∈ opShown, x ≠ "rem".toList → x ≠ "mit".toList → ∃ c, opCmdOf (lower x) = some c ∧ c ≠ .empty := by
  have h : ∀ x ∈ opShown, x ≠ "rem".toList → x ≠ "mit".toList → (opCmdOf (lower x)).isSome = true ∧ opCmdOf (lower x) ≠ some .empty := by
    decide +kernel
  intro x hx e1 e2
  obtain ⟨h1, h2⟩ := h x hx e1 e2
  cases hc : opCmdOf (lower x) with
  | none => rw [hc] at h1; cases h1
  | some c => exact ⟨c, rfl, fun e => h2 (by rw [hc, e])⟩

/-- C131 fails for operations: `rem` and `mit` are shown, and are refused in every state. -/
theorem op_shown_refused (env : Env K W) (s : St W) (ins : List Str) (x : Str) (hx : x = "rem".toList ∨ x = "mit".toList) :
    x ∈ opShown ∧ handleOperate env s (x :: ins) = handleOperate env s ins := by
  refine ⟨by rcases hx with rfl | rfl <;> decide +kernel, operate_bad env s [x] ins ?_⟩
  intro y hy
  rw [List.mem_singleton] at hy
  subst hy
  rcases hx with rfl | rfl <;> decide +kernel

/-- the word `empty` ends the program with `KeyError` -/
theorem empty_ends (env : Env K W) (s : St W) (x : Str) (hx : lower x = "empty".toList) (ins : List Str) :
    session env s (x :: ins) = (s, .exc .keyError) := by
  unfold session
  rw [List.length_cons, mainLoop]
  have : cmdOf (lower x) = some .empty := by rw [hx]; decide +kernel
  simp only [this, run]

/-! ### how a session ends -/

/-- the functions of weight windows raise no other exceptions than these: for the files, not found or `ValueError`; for the operations, `ValueError` (specification) -/
structure Calm (env : Env K W) : Prop where
  load : ∀ p e, env.load p = .error e → e = .ioError ∨ e = .valueError
  gvr : ∀ p t r e, env.gvr p t r = .error e → e = .ioError ∨ e = .valueError
  soften : ∀ w v e, env.soften w v = .error e → e = .valueError
  add : ∀ w n v e, env.add w n v = .error e → e = .valueError
  remove : ∀ w e, env.remove w = .error e → e = .valueError
  mitigate : ∀ w v e, env.mitigate w v = .error e → e = .valueError

/-- the outcomes of a command that do not end the program, or end it because there is no more input (proof) -/
def Quiet (o : Option Stop) : Prop := o = none ∨ o = some .eof ∨ o = some (.exc .valueError)

theorem keep_quiet (s : St W) (ins : List Str) (p : Path) (r : Except PyErr W) (h : ∀ e, r = .error e → e = .ioError ∨ e = .valueError) :
    Quiet (keep s ins p r).2.2 := by
  cases r with
  | ok w => exact Or.inl rfl
  | error e =>
    rcases h e rfl with rfl | rfl
    · exact Or.inl rfl
    · exact Or.inr (Or.inr rfl)

theorem handleOpen_quiet (env : Env K W) (hc : Calm env) (s : St W) (ins : List Str) : Quiet (handleOpen env s ins).2.2 := by
  induction ins with
  | nil => exact Or.inr (Or.inl rfl)
  | cons x xs ih =>
    rw [handleOpen]
    split
    · split
      · rename_i e he; rw [he] at ih; exact ih
      · exact keep_quiet _ _ _ _ (hc.load _)
    · exact keep_quiet _ _ _ _ (hc.load _)

theorem gvrEnd_quiet (env : Env K W) (hc : Calm env) (s : St W) (p : Path) (ins : List Str) : Quiet (gvrEnd env s p ins).2.2 := by
  unfold gvrEnd
  split
  · exact Or.inr (Or.inl rfl)
  · rename_i t r _
    split
    · exact Or.inr (Or.inl rfl)
    · rename_i v r' _
      apply keep_quiet
      intro e he
      cases hg : env.gvr p t env.five with
      | error e' =>
        rw [hg] at he
        simp only [Except.error.injEq] at he
        subst he
        exact hc.gvr _ _ _ _ hg
      | ok w => rw [hg] at he; exact Or.inr (hc.soften _ _ _ he)

theorem handleGvr_quiet (env : Env K W) (hc : Calm env) (s : St W) (ins : List Str) : Quiet (handleGvr env s ins).2.2 := by
  induction ins with
  | nil => exact Or.inr (Or.inl rfl)
  | cons x xs ih =>
    rw [handleGvr]
    split
    · split
      · rename_i e he; rw [he] at ih; exact ih
      · exact gvrEnd_quiet env hc _ _ _
    · exact gvrEnd_quiet env hc _ _ _

theorem withKey_quiet (s : St W) (ins : List Str) (f : St W → List Str → Str → Path → W → Out W) (hf : ∀ r k p w, Quiet (f s r k p w).2.2) :
    Quiet (withKey s ins f).2.2 := by
  rcases withKey_cases s ins f with ⟨s', r, o, h, _, _, _, h4⟩ | ⟨r, k, p, w, hg, h, hr⟩
  · rw [h]
    rcases h4 with rfl | rfl
    · exact Or.inl rfl
    · exact Or.inr (Or.inl rfl)
  · rw [h]; exact hf r k p w

theorem askFloat_quiet (env : Env K W) (ins r : List Str) (e : Stop) (h : askFloat env ins = (.error e, r)) : Quiet (some e) := by
  cases ins with
  | nil =>
    have : (Except.error Stop.eof : Except Stop K) = .error e := congrArg Prod.fst h
    cases this
    exact Or.inr (Or.inl rfl)
  | cons x xs =>
    unfold askFloat at h
    cases hx : env.float x with
    | none =>
      simp only [hx, Prod.mk.injEq, Except.error.injEq] at h
      rw [← h.1]
      exact Or.inr (Or.inr rfl)
    | some v =>
      simp only [hx, Prod.mk.injEq] at h
      cases h.1

theorem store_quiet (s : St W) (ins : List Str) (name : Str) (p : Path) (r : Except PyErr W) (h : ∀ e, r = .error e → e = .valueError) :
    Quiet (store s ins name p r).2.2 := by
  cases r with
  | ok w => exact Or.inl rfl
  | error e => cases h e rfl; exact Or.inr (Or.inr rfl)

theorem runOp_quiet (env : Env K W) (hc : Calm env) (c : OpCmd) (hne : c ≠ .empty) (s : St W) (ins : List Str) : Quiet (runOp env c s ins).2.2 := by
  cases c with
  | quit => exact Or.inl rfl
  | empty => exact absurd rfl hne
  | remove => exact withKey_quiet s ins _ (fun r k p w => store_quiet _ _ _ _ _ (hc.remove w))
  | soft =>
    refine withKey_quiet s ins _ (fun r k p w => ?_)
    split
    · rename_i e r' h; exact askFloat_quiet env r r' e h
    · exact store_quiet _ _ _ _ _ (hc.soften w _)
  | mitigate =>
    refine withKey_quiet s ins _ (fun r k p w => ?_)
    split
    · rename_i e r' h; exact askFloat_quiet env r r' e h
    · exact store_quiet _ _ _ _ _ (hc.mitigate w _)
  | add =>
    refine withKey_quiet s ins _ (fun r k p w => ?_)
    split
    · rename_i e r' h; exact askFloat_quiet env r r' e h
    · rename_i n r' h
      split
      · rename_i e r'' h'; exact askFloat_quiet env r' r'' e h'
      · exact store_quiet _ _ _ _ _ (hc.add w _ _)

theorem opCmdOf_empty {x : Str} (h : opCmdOf x = some .empty) : x = "empty".toList := by
  unfold opCmdOf at h
  split at h
  · cases h
  split at h
  · cases h
  split at h
  · cases h
  split at h
  · cases h
  split at h
  · cases h
  split at h
  · assumption
  · cases h

theorem cmdOf_empty {x : Str} (h : cmdOf x = some .empty) : x = "empty".toList := by
  unfold cmdOf at h
  split at h
  · cases h
  split at h
  · cases h
  split at h
  · cases h
  split at h
  · cases h
  split at h
  · cases h
  split at h
  · cases h
  split at h
  · cases h
  split at h
  · cases h
  split at h
  · assumption
  · cases h

/-! the lines left are always a tail of the lines -/

theorem choose_suffix (n : ℕ) (ins : List Str) : (choose n ins).1 <:+ ins := by
  induction ins with
  | nil => exact List.suffix_refl _
  | cons x xs ih =>
    rw [choose]
    split
    · exact List.suffix_cons _ _
    · exact ih.trans (List.suffix_cons _ _)

theorem select_suffix (s : St W) (ins : List Str) : (select s ins).2.1 <:+ ins := by
  unfold select
  split
  · exact List.suffix_refl _
  · exact List.suffix_refl _
  · have := choose_suffix s.windows.length ins
    split
    · rename_i e; rw [e] at this; exact this
    · rename_i e; rw [e] at this
      split <;> exact this

theorem withKey_suffix (s : St W) (ins : List Str) (f : St W → List Str → Str → Path → W → Out W)
    (hf : ∀ s r k p w, (f s r k p w).2.1 <:+ r) : (withKey s ins f).2.1 <:+ ins := by
  have h := select_suffix s ins
  unfold withKey
  split
  · rename_i e; rw [e] at h; exact h
  · rename_i e; rw [e] at h; exact h
  · rename_i e; rw [e] at h
    split
    · exact h
    · exact (hf _ _ _ _ _).trans h

theorem askFloat_suffix (env : Env K W) (ins : List Str) : (askFloat env ins).2 <:+ ins := by
  cases ins with
  | nil => exact List.suffix_refl _
  | cons x xs =>
    have e : (askFloat env (x :: xs)).2 = xs := by
      show (match env.float x with
        | none => ((Except.error (.exc .valueError) : Except Stop K), xs)
        | some v => (.ok v, xs)).2 = xs
      split <;> rfl
    rw [e]; exact List.suffix_cons _ _

theorem store_rest (s : St W) (ins : List Str) (name : Str) (p : Path) (r : Except PyErr W) : (store s ins name p r).2.1 = ins :=
  (store_cases s ins name p r).2

theorem keep_rest (s : St W) (ins : List Str) (p : Path) (r : Except PyErr W) : (keep s ins p r).2.1 = ins := by
  cases r with
  | ok w => rfl
  | error e => cases e <;> rfl

theorem runOp_suffix (env : Env K W) (c : OpCmd) (s : St W) (ins : List Str) : (runOp env c s ins).2.1 <:+ ins := by
  have fl : ∀ (r : List Str) (s : St W) (g : K → List Str → Out W), (∀ v r, (g v r).2.1 <:+ r) →
      (match askFloat env r with
        | (.error e, r) => (s, r, some e)
        | (.ok v, r) => g v r : Out W).2.1 <:+ r := by
    intro r s g hg
    have h := askFloat_suffix env r
    split
    · rename_i e; rw [e] at h; exact h
    · rename_i e; rw [e] at h; exact (hg _ _).trans h
  cases c with
  | quit => exact List.suffix_refl _
  | empty => exact List.suffix_refl _
  | remove => exact withKey_suffix s ins _ (fun s r k p w => by rw [store_rest]; exact List.suffix_refl _)
  | soft =>
    exact withKey_suffix s ins _ (fun s r k p w => fl r s (fun v r => store s r (k ++ OpCmd.soft.tail) p (env.soften w v))
      (fun v r => by rw [store_rest]; exact List.suffix_refl _))
  | mitigate =>
    exact withKey_suffix s ins _ (fun s r k p w => fl r s (fun v r => store s r (k ++ OpCmd.mitigate.tail) p (env.mitigate w v))
      (fun v r => by rw [store_rest]; exact List.suffix_refl _))
  | add =>
    exact withKey_suffix s ins _ (fun s r k p w => fl r s (fun n r => match askFloat env r with
        | (.error e, r) => (s, r, some e)
        | (.ok v, r) => store s r (k ++ OpCmd.add.tail) p (env.add w n v))
      (fun n r => fl r s (fun v r => store s r (k ++ OpCmd.add.tail) p (env.add w n v))
        (fun v r => by rw [store_rest]; exact List.suffix_refl _)))

theorem operateLoop_suffix (env : Env K W) (n : ℕ) (s : St W) (ins : List Str) : (operateLoop env n s ins).2.1 <:+ ins := by
  induction n generalizing s ins with
  | zero => exact List.suffix_refl _
  | succ n ih =>
    cases ins with
    | nil => exact List.suffix_refl _
    | cons x ins =>
      rw [operateLoop]
      cases opCmdOf (lower x) with
      | none => exact (ih s ins).trans (List.suffix_cons _ _)
      | some c =>
        simp only
        have h := runOp_suffix env c s ins
        split
        · rename_i e; rw [e] at h; exact ((ih _ _).trans h).trans (List.suffix_cons _ _)
        · exact h.trans (List.suffix_cons _ _)

theorem handleOpen_suffix (env : Env K W) (s : St W) (ins : List Str) : (handleOpen env s ins).2.1 <:+ ins := by
  induction ins with
  | nil => exact List.suffix_refl _
  | cons x xs ih =>
    rw [handleOpen]
    split
    · split
      · rename_i he; rw [he] at ih; exact ih.trans (List.suffix_cons _ _)
      · rename_i he; rw [he] at ih; rw [keep_rest]; exact ih.trans (List.suffix_cons _ _)
    · rw [keep_rest]; exact List.suffix_cons _ _

theorem askDefault_suffix (env : Env K W) (d : K) (ins : List Str) : (askDefault env d ins).2 <:+ ins := by
  cases ins with
  | nil => exact List.suffix_refl _
  | cons x xs => exact List.suffix_cons _ _

theorem gvrEnd_suffix (env : Env K W) (s : St W) (p : Path) (ins : List Str) : (gvrEnd env s p ins).2.1 <:+ ins := by
  unfold gvrEnd
  have h1 := askDefault_suffix env env.five ins
  split
  · rename_i e; rw [e] at h1; exact h1
  · rename_i t r e
    rw [e] at h1
    have h2 := askDefault_suffix env env.one r
    split
    · rename_i e'; rw [e'] at h2; exact h2.trans h1
    · rename_i e'; rw [e'] at h2; rw [keep_rest]; exact h2.trans h1

theorem handleGvr_suffix (env : Env K W) (s : St W) (ins : List Str) : (handleGvr env s ins).2.1 <:+ ins := by
  induction ins with
  | nil => exact List.suffix_refl _
  | cons x xs ih =>
    rw [handleGvr]
    split
    · split
      · rename_i he; rw [he] at ih; exact ih.trans (List.suffix_cons _ _)
      · rename_i he; rw [he] at ih; exact ((gvrEnd_suffix env _ _ _).trans ih).trans (List.suffix_cons _ _)
    · exact (gvrEnd_suffix env _ _ _).trans (List.suffix_cons _ _)

theorem run_suffix (env : Env K W) (c : Cmd) (s : St W) (ins : List Str) : (run env c s ins).2.1 <:+ ins := by
  cases c with
  | opn => exact handleOpen_suffix env s ins
  | gvr => exact handleGvr_suffix env s ins
  | operate => exact operateLoop_suffix env _ _ ins
  | quit => exact List.suffix_refl _
  | empty => exact List.suffix_refl _
  | info => exact withKey_suffix s ins _ (fun s r k p w => List.suffix_refl _)
  | write => exact withKey_suffix s ins _ (fun s r k p w => List.suffix_refl _)
  | vtk => exact withKey_suffix s ins _ (fun s r k p w => List.suffix_refl _)
  | plot => exact withKey_suffix s ins _ (fun s r k p w => List.suffix_refl _)

theorem operateLoop_quiet (env : Env K W) (hc : Calm env) (n : ℕ) (s : St W) (ins : List Str) (hin : ∀ x ∈ ins, lower x ≠ "empty".toList) :
    Quiet (operateLoop env n s ins).2.2 := by
  induction n generalizing s ins with
  | zero => exact Or.inr (Or.inl rfl)
  | succ n ih =>
    cases ins with
    | nil => exact Or.inr (Or.inl rfl)
    | cons x ins =>
      have hin' : ∀ y ∈ ins, lower y ≠ "empty".toList := fun y hy => hin y (by simp [hy])
      rw [operateLoop]
      cases hx : opCmdOf (lower x) with
      | none => exact ih s ins hin'
      | some c =>
        simp only
        have hs := runOp_suffix env c s ins
        have hq := runOp_quiet env hc c (by rintro rfl; exact hin x (by simp) (opCmdOf_empty hx)) s ins
        split
        · rename_i s' r e
          rw [e] at hs
          exact ih s' r (fun y hy => hin' y (hs.subset hy))
        · exact hq

/-- C132: if the functions of weight windows raise only the exceptions for files not found and for wrong values, and the word `empty` is not typed,
no session ends otherwise than by the command `end` or the end of the input. -/
theorem session_ends (env : Env K W) (hc : Calm env) (s : St W) (ins : List Str) (hin : ∀ x ∈ ins, lower x ≠ "empty".toList) :
    (session env s ins).2 = .exit ∨ (session env s ins).2 = .eof := by
  unfold session
  generalize ins.length + 1 = n
  induction n generalizing s ins with
  | zero => exact Or.inr rfl
  | succ n ih =>
    cases ins with
    | nil => exact Or.inr rfl
    | cons x ins =>
      have hin' : ∀ y ∈ ins, lower y ≠ "empty".toList := fun y hy => hin y (by simp [hy])
      rw [mainLoop]
      cases hx : cmdOf (lower x) with
      | none => exact ih s ins hin'
      | some c =>
        simp only
        have hs := run_suffix env c s ins
        have hq : Quiet (run env c s ins).2.2 ∨ (run env c s ins).2.2 = some .exit := by
          cases c with
          | opn => exact Or.inl (handleOpen_quiet env hc s ins)
          | gvr => exact Or.inl (handleGvr_quiet env hc s ins)
          | operate => exact Or.inl (operateLoop_quiet env hc _ _ ins hin')
          | quit => exact Or.inr rfl
          | empty => exact absurd (cmdOf_empty hx) (hin x (by simp))
          | info => exact Or.inl (withKey_quiet s ins _ (fun r k p w => Or.inl rfl))
          | write => exact Or.inl (withKey_quiet s ins _ (fun r k p w => Or.inl rfl))
          | vtk => exact Or.inl (withKey_quiet s ins _ (fun r k p w => Or.inl rfl))
          | plot => exact Or.inl (withKey_quiet s ins _ (fun r k p w => Or.inl rfl))
        split
        · rename_i s' r e
          rw [e] at hs
          exact ih s' r (fun y hy => hin' y (hs.subset hy))
        · rename_i s' r e
          rw [e] at hs
          exact ih s' r (fun y hy => hin' y (hs.subset hy))
        · rename_i s' r e hne he
          rw [he] at hq
          rcases hq with (h | h | h) | h
          · cases h
          · simp only [Option.some.injEq] at h; exact Or.inr h
          · simp only [Option.some.injEq] at h; exact absurd h (hne)
          · simp only [Option.some.injEq] at h; exact Or.inl h

/-! ### opening -/

/-- C134: a file whose name is new is loaded under its name; nothing else changes. Partial: Proved for new names; false for names loaded already (open_loaded_replaces), and the splitting ratio typed is used as the number of the tally (split_ignored, split_is_tally). -/
theorem open_new_partial (env : Env K W) (s : St W) (x : Str) (ins : List Str) (w : W)
    (hn : Dict.get? s.windows (stemOf (env.path x).name) = none) (hl : env.load (env.path x) = .ok w) :
    (handleOpen env s (x :: ins)).1.windows = s.windows ++ [(stemOf (env.path x).name, (env.path x, w))] ∧
    (handleOpen env s (x :: ins)).2 = (ins, none) := by
  have hf : ¬ Dict.has s.windows (stemOf (env.path x).name) = true := by unfold Dict.has; rw [hn]; simp
  rw [handleOpen, if_neg hf, hl]
  refine ⟨?_, rfl⟩
  show Dict.set s.windows _ _ = _
  generalize stemOf (env.path x).name = k at hn
  generalize s.windows = d at hn
  induction d with
  | nil => rfl
  | cons q d ih =>
    obtain ⟨a, b⟩ := q
    rw [Dict.get?] at hn
    split at hn
    · cases hn
    · rename_i hne
      rw [Dict.set, if_neg hne, ih hn, List.cons_append]

/-- C134: a file that is not found changes no window -/
theorem open_missing (env : Env K W) (s : St W) (x : Str) (ins : List Str)
    (hn : Dict.get? s.windows (stemOf (env.path x).name) = none) (hl : env.load (env.path x) = .error .ioError) :
    handleOpen env s (x :: ins) = ({ s with extra := " File not found...".toList }, ins, none) := by
  have hf : ¬ Dict.has s.windows (stemOf (env.path x).name) = true := by unfold Dict.has; rw [hn]; simp
  rw [handleOpen, if_neg hf, hl]; rfl

/-- C134 fails for a name that is loaded already: another file is asked for, and then the first one is loaded all the same and replaces the window
of that name. -/
theorem open_loaded_replaces (env : Env K W) (s : St W) (x y : Str) (ins : List Str) (w wy : W)
    (hx : Dict.get? s.windows (stemOf (env.path x).name) ≠ none) (hy : Dict.get? s.windows (stemOf (env.path y).name) = none)
    (hlx : env.load (env.path x) = .ok w) (hly : env.load (env.path y) = .ok wy) :
    Dict.get? (handleOpen env s (x :: y :: ins)).1.windows (stemOf (env.path x).name) = some (env.path x, w) ∧
    Dict.get? (handleOpen env s (x :: y :: ins)).1.windows (stemOf (env.path y).name) = some (env.path y, wy) := by
  have hf : Dict.has s.windows (stemOf (env.path x).name) = true := by
    unfold Dict.has
    cases h : Dict.get? s.windows (stemOf (env.path x).name) with
    | none => exact absurd h hx
    | some _ => rfl
  have hne : stemOf (env.path x).name ≠ stemOf (env.path y).name := fun e => hx (by rw [e]; exact hy)
  have hf' : ¬ Dict.has s.windows (stemOf (env.path y).name) = true := by unfold Dict.has; rw [hy]; simp
  rw [handleOpen, if_pos hf, handleOpen, if_neg hf', hly, hlx]
  simp only [keep]
  exact ⟨Dict.get?_set_self _ _ _, by rw [Dict.get?_set_ne _ _ hne, Dict.get?_set_self]⟩

/-! ### generation of weight windows -/

/-- the same functions, but every splitting ratio is taken as the default one (specification) -/
def noSplit (env : Env K W) : Env K W := { env with gvr := fun p t _ => env.gvr p t env.five }

theorem gvrEnd_noSplit (env : Env K W) (s : St W) (p : Path) (ins : List Str) : gvrEnd (noSplit env) s p ins = gvrEnd env s p ins := rfl

theorem handleGvr_noSplit (env : Env K W) (s : St W) (ins : List Str) : handleGvr (noSplit env) s ins = handleGvr env s ins := by
  induction ins with
  | nil => rfl
  | cons x xs ih =>
    rw [handleGvr, handleGvr, ih]
    rfl

theorem handleOpen_noSplit (env : Env K W) (s : St W) (ins : List Str) : handleOpen (noSplit env) s ins = handleOpen env s ins := by
  induction ins with
  | nil => rfl
  | cons x xs ih =>
    rw [handleOpen, handleOpen, ih]
    rfl

theorem askFloat_noSplit (env : Env K W) (ins : List Str) : askFloat (noSplit env) ins = askFloat env ins := by
  cases ins <;> rfl

theorem runOp_noSplit (env : Env K W) (c : OpCmd) (s : St W) (ins : List Str) : runOp (noSplit env) c s ins = runOp env c s ins := by
  unfold runOp
  simp only [askFloat_noSplit]
  rfl

theorem operateLoop_noSplit (env : Env K W) (n : ℕ) (s : St W) (ins : List Str) : operateLoop (noSplit env) n s ins = operateLoop env n s ins := by
  induction n generalizing s ins with
  | zero => rfl
  | succ n ih =>
    cases ins with
    | nil => rfl
    | cons x ins =>
      rw [operateLoop, operateLoop]
      simp only [runOp_noSplit, ih]

/-- C134 fails for the splitting ratio: in no session does the ratio typed by the user reach the algorithm as such; the session is the same as with an
algorithm that always takes the default ratio. -/
theorem split_ignored (env : Env K W) (s : St W) (ins : List Str) : session (noSplit env) s ins = session env s ins := by
  unfold session
  generalize ins.length + 1 = n
  induction n generalizing s ins with
  | zero => rfl
  | succ n ih =>
    cases ins with
    | nil => rfl
    | cons x ins =>
      have hr : ∀ c, run (noSplit env) c s ins = run env c s ins := by
        intro c
        cases c with
        | opn => exact handleOpen_noSplit env s ins
        | gvr => exact handleGvr_noSplit env s ins
        | operate => exact operateLoop_noSplit env _ _ ins
        | _ => rfl
      rw [mainLoop, mainLoop]
      simp only [hr, ih]

/-- the ratio typed is the number of the tally looked for -/
theorem split_is_tally (env : Env K W) (s : St W) (x y z : Str) (ins : List Str) (t v : K)
    (hn : Dict.get? s.windows (stemOf (env.path x).name) = none) (hy : env.float y = some t) (hz : env.float z = some v) :
    handleGvr env s (x :: y :: z :: ins) = keep s ins (env.path x)
      (match env.gvr (env.path x) t env.five with
        | .error e => .error e
        | .ok w => env.soften w v) := by
  have hf : ¬ Dict.has s.windows (stemOf (env.path x).name) = true := by unfold Dict.has; rw [hn]; simp
  rw [handleGvr, if_neg hf]
  unfold gvrEnd
  simp only [askDefault, hy, hz, Option.getD_some]
  rfl

/-! ### files -/

/-- C135: `write` writes one window, as it is, beside the file it comes from, under its name with `_written`, and names that file. -/
theorem write_file (env : Env K W) (s : St W) (hG : Good env s) (ins : List Str) :
    (handleWrite s ins).1.windows = s.windows ∧
    ((handleWrite s ins).1.done = s.done ∨
     ∃ k p w, Dict.get? s.windows k = some (p, w) ∧
      (handleWrite s ins).1.done = s.done ++ [.wrote ⟨p.parent, k ++ "_written".toList⟩ w] ∧
      (handleWrite s ins).1.extra = " ".toList ++ (k ++ "_written".toList) ++ " saved!".toList ∧ (handleWrite s ins).2.2 = none) := by
  unfold handleWrite
  rcases withKey_cases s ins (fun s r k p w => ({ s with
    done := s.done ++ [.wrote ⟨p.parent, stemOf p.name ++ "_written".toList⟩ w],
    extra := " ".toList ++ k ++ "_written saved!".toList }, r, none)) with ⟨s', r, o, h, h1, h2, _, _⟩ | ⟨r, k, p, w, hg, h, hr⟩
  · rw [h]; exact ⟨h1, Or.inl h2⟩
  · rw [h]
    have hk := hG.name k p w hg
    refine ⟨rfl, Or.inr ⟨k, p, w, hg, ?_, ?_, rfl⟩⟩
    · simp only [← hk]
    · have : "_written saved!".toList = "_written".toList ++ " saved!".toList := by decide +kernel
      simp only [this, List.append_assoc]

/-- a dotless name: the exported file is named after the window, with `.vts` -/
theorem vtkName_plain (n : Str) (h : '.' ∉ stemOf n) : vtkName n = stemOf n ++ ".vts".toList := by
  unfold vtkName
  have hc : cutDot (stemOf n) = none := by
    unfold cutDot
    have hk : ((stemOf n).reverse.takeWhile (fun c => c != '.')).length = (stemOf n).length := by
      have : (stemOf n).reverse.takeWhile (fun c => c != '.') = (stemOf n).reverse := by
        rw [List.takeWhile_eq_self_iff]
        intro c hc
        simp only [bne_iff_ne, ne_eq]
        rintro rfl
        exact h (List.mem_reverse.1 hc)
      rw [this, List.length_reverse]
    simp only [hk, if_true]
  have hs : suffixOf (stemOf n) = [] := by
    unfold suffixOf
    rw [hc]
  rw [if_pos (by rw [hs]; decide)]
  unfold withSuffix
  rw [if_pos hs]

/-- C135 for `vtk`, names without a dot: one file, named after the window with `.vts`; the message names another file, with `.vtk`. -/
theorem vtk_file_partial (env : Env K W) (s : St W) (hG : Good env s) (hd : ∀ k p w, Dict.get? s.windows k = some (p, w) → '.' ∉ k) (ins : List Str) :
    (handleVtk s ins).1.windows = s.windows ∧
    ((handleVtk s ins).1.done = s.done ∨
     ∃ k p w, Dict.get? s.windows k = some (p, w) ∧
      (handleVtk s ins).1.done = s.done ++ [.exported ⟨p.parent, k ++ ".vts".toList⟩ w] ∧
      (handleVtk s ins).1.extra = " ".toList ++ k ++ ".vtk saved!".toList ∧ (handleVtk s ins).2.2 = none) := by
  unfold handleVtk
  rcases withKey_cases s ins (fun s r k p w => ({ s with
    done := s.done ++ [.exported ⟨p.parent, vtkName p.name⟩ w],
    extra := " ".toList ++ k ++ ".vtk saved!".toList }, r, none)) with ⟨s', r, o, h, h1, h2, _, _⟩ | ⟨r, k, p, w, hg, h, hr⟩
  · rw [h]; exact ⟨h1, Or.inl h2⟩
  · rw [h]
    have hk := hG.name k p w hg
    refine ⟨rfl, Or.inr ⟨k, p, w, hg, ?_, rfl, rfl⟩⟩
    rw [vtkName_plain p.name (by rw [← hk]; exact hd k p w hg), ← hk]

/-- C135 fails for `vtk` and names with a dot: all windows `a.b` are exported to the one file `a.vts` (unless `b` is `vts`). -/
theorem vtk_dotted (n a b : Str) (hn : stemOf n = a ++ '.' :: b) (ha : a ≠ []) (hb : '.' ∉ b) (hb0 : b ≠ []) (hv : b ≠ "vts".toList) :
    vtkName n = a ++ ".vts".toList := by
  have hs : suffixOf (a ++ '.' :: b) = '.' :: b := by
    unfold suffixOf
    rw [cutDot_dot a b hb]
    simp only
    rw [if_pos ⟨ha, by rw [List.length_cons]; have := List.length_pos_iff.2 hb0; omega⟩]
  unfold vtkName
  rw [hn, hs, if_pos (by
    intro e
    have : ".vts".toList = '.' :: "vts".toList := by decide
    rw [this, List.cons.injEq] at e
    exact hv e.2)]
  unfold withSuffix
  rw [hs, if_neg (by simp)]
  have hl : (a ++ '.' :: b).length - ('.' :: b).length = a.length := by rw [List.length_append]; omega
  rw [hl, List.take_left' rfl]

end F4Enix.Cli
