import Verif.WW.Cli
import Mathlib.Data.List.TakeWhile
/-!
# The menu of weight windows (C129-C135)
-/
namespace F4Enix.Cli
open F4Enix

variable {K W : Type}

/-! ### names -/

theorem cutDot_append {s a b : Str} (h : cutDot s = some (a, b)) : a ++ b = s := by
  unfold cutDot at h
  simp only at h
  split at h
  · cases h
  · simp only [Option.some.injEq, Prod.mk.injEq] at h
    obtain ⟨rfl, rfl⟩ := h
    exact List.take_append_drop _ _

theorem stemOf_cases (s : Str) : stemOf s = s ∨ ∃ b, 1 < b.length ∧ s = stemOf s ++ b := by
  unfold stemOf
  cases h : cutDot s with
  | none => exact Or.inl rfl
  | some x =>
    obtain ⟨a, b⟩ := x
    simp only
    by_cases hc : a ≠ [] ∧ 1 < b.length
    · rw [if_pos hc]
      exact Or.inr ⟨b, hc.2, (cutDot_append h).symm⟩
    · rw [if_neg hc]; exact Or.inl rfl

/-- a name without a dot is its own stem -/
theorem stemOf_plain {s : Str} (h : '.' ∉ s) : stemOf s = s := by
  have hk : (s.reverse.takeWhile (fun c => c != '.')).length = s.length := by
    have : s.reverse.takeWhile (fun c => c != '.') = s.reverse := by
      rw [List.takeWhile_eq_self_iff]
      intro c hc
      simp only [bne_iff_ne, ne_eq]
      rintro rfl
      exact h (List.mem_reverse.1 hc)
    rw [this, List.length_reverse]
  unfold stemOf cutDot
  simp only [hk, if_true]

/-- the name of the result of an operation is never that of the window operated on -/
theorem stem_tail_ne (c : OpCmd) (hc : c ≠ .quit ∧ c ≠ .empty) (k : Str) : stemOf (k ++ c.tail) ≠ k := by
  have hd : ∀ x ∈ c.tail, x ≠ '.' := by
    cases c <;> decide
  have hne : 0 < c.tail.length := by
    cases c
    · decide
    · decide
    · decide
    · decide
    · exact absurd rfl hc.1
    · exact absurd rfl hc.2
  intro h
  unfold stemOf at h
  have e0 : k ++ c.tail ≠ k := by
    intro e
    have := congrArg List.length e
    rw [List.length_append] at this
    omega
  cases hcut : cutDot (k ++ c.tail) with
  | none => rw [hcut] at h; exact e0 h
  | some x =>
    obtain ⟨a, b⟩ := x
    rw [hcut] at h
    simp only at h
    split at h
    · rename_i hab
      subst h
      have hb : b = c.tail := by
        have := cutDot_append hcut
        exact List.append_cancel_left this
      subst hb
      unfold cutDot at hcut
      simp only at hcut
      split at hcut
      · cases hcut
      · rename_i hk
        simp only [Option.some.injEq, Prod.mk.injEq] at hcut
        have h2 := congrArg List.length hcut.2
        rw [List.length_drop] at h2
        have h3 : c.tail.length ≤ ((a ++ c.tail).reverse.takeWhile (fun c => c != '.')).length := by
          rw [List.reverse_append, List.takeWhile_append_of_pos (by
            intro x hx
            simp only [bne_iff_ne, ne_eq]
            exact hd x (List.mem_reverse.1 hx))]
          simp
        have h4 : ((a ++ c.tail).reverse.takeWhile (fun c => c != '.')).length ≤ (a ++ c.tail).length := by
          have := (List.takeWhile_sublist (p := fun c => c != '.') (l := (a ++ c.tail).reverse)).length_le
          rw [List.length_reverse] at this
          exact this
        omega
    · exact e0 h

/-! ### choosing -/

theorem choose_mem {n : ℕ} {ins r : List Str} {i : ℕ} (h : choose n ins = (r, some i)) : 1 ≤ i ∧ i ≤ n ∧ r.length < ins.length := by
  induction ins with
  | nil => cases h
  | cons x xs ih =>
    rw [choose] at h
    split at h
    · rename_i hx
      simp only [Prod.mk.injEq, Option.some.injEq] at h
      obtain ⟨rfl, rfl⟩ := h
      exact ⟨hx.2.2.1, hx.2.2.2, by simp⟩
    · obtain ⟨h1, h2, h3⟩ := ih h
      exact ⟨h1, h2, by rw [List.length_cons]; omega⟩

theorem choose_le (n : ℕ) (ins : List Str) : (choose n ins).1.length ≤ ins.length := by
  induction ins with
  | nil => exact Nat.le_refl _
  | cons x xs ih =>
    rw [choose]
    split
    · simp
    · rw [List.length_cons]; omega

/-- C133: the first answer that is the number of a window decides; all others are asked again. -/
theorem choose_spec (n : ℕ) (bad : List Str) (x : Str) (rest : List Str)
    (hb : ∀ y ∈ bad, ¬ (y ≠ [] ∧ (∀ c ∈ y, isDigit c = true) ∧ 1 ≤ digitsVal y ∧ digitsVal y ≤ n))
    (hx : x ≠ [] ∧ (∀ c ∈ x, isDigit c = true) ∧ 1 ≤ digitsVal x ∧ digitsVal x ≤ n) :
    choose n (bad ++ x :: rest) = (rest, some (digitsVal x)) := by
  induction bad with
  | nil =>
    rw [List.nil_append, choose, if_pos ⟨hx.1, List.all_eq_true.2 hx.2.1, hx.2.2⟩]
  | cons y bad ih =>
    rw [List.cons_append, choose, if_neg (fun h => hb y (by simp) ⟨h.1, List.all_eq_true.1 h.2.1, h.2.2⟩)]
    exact ih (fun z hz => hb z (by simp [hz]))

/-- what `select` does: the windows stay, and the key chosen is one of them -/
theorem select_spec (s : St W) (ins : List Str) :
    (select s ins).1.windows = s.windows ∧ (select s ins).1.done = s.done ∧ (select s ins).2.1.length ≤ ins.length ∧
    (∀ k, (select s ins).2.2 = .ok (some k) → k ∈ Dict.keys s.windows ∧ (select s ins).1 = s) ∧
    (select s ins).2.2 ≠ .error (.exc .valueError) ∧ (select s ins).2.2 ≠ .error .exit ∧ ∀ e, (select s ins).2.2 ≠ .error (.exc e) := by
  unfold select
  split
  · exact ⟨rfl, rfl, Nat.le_refl _, fun k h => by simp at h, by simp, by simp, by simp⟩
  · rename_i k x hw
    refine ⟨rfl, rfl, Nat.le_refl _, fun k' h => ?_, by simp, by simp, by simp⟩
    simp only [Except.ok.injEq, Option.some.injEq] at h
    subst h
    rw [hw]
    exact ⟨by simp [Dict.keys], rfl⟩
  · cases hc : choose s.windows.length ins with
    | mk r o =>
      have hl := choose_le s.windows.length ins
      rw [hc] at hl
      cases o with
      | none => exact ⟨rfl, rfl, hl, by simp, by simp, by simp, by simp⟩
      | some i =>
        obtain ⟨h1, h2, _⟩ := choose_mem hc
        have hi : i - 1 < (Dict.keys s.windows).length := by
          unfold Dict.keys
          rw [List.length_map]; omega
        simp only [List.getElem?_eq_getElem hi]
        refine ⟨by trivial, by trivial, hl, fun k h => ?_, by simp, by simp, by simp⟩
        simp only [Except.ok.injEq, Option.some.injEq] at h
        rw [← h]
        exact ⟨List.getElem_mem hi, by trivial⟩

/-- every command that works on a window -/
theorem withKey_cases (s : St W) (ins : List Str) (f : St W → List Str → Str → Path → W → Out W) :
    (∃ s' r o, withKey s ins f = (s', r, o) ∧ s'.windows = s.windows ∧ s'.done = s.done ∧ r.length ≤ ins.length ∧ (o = none ∨ o = some .eof)) ∨
    ∃ r k p w, Dict.get? s.windows k = some (p, w) ∧ withKey s ins f = f s r k p w ∧ r.length ≤ ins.length := by
  obtain ⟨h1, h2, h3, h4, h5, h6, h7⟩ := select_spec s ins
  unfold withKey
  cases hs : select s ins with
  | mk s' x =>
    obtain ⟨r, o⟩ := x
    rw [hs] at h1 h2 h3 h4 h5 h6 h7
    cases o with
    | error e =>
      left
      refine ⟨s', r, some e, rfl, h1, h2, h3, Or.inr ?_⟩
      cases e with
      | eof => rfl
      | exit => exact absurd rfl h6
      | exc e => exact absurd rfl (h7 e)
    | ok k =>
      cases k with
      | none => left; exact ⟨s', r, none, rfl, h1, h2, h3, Or.inl rfl⟩
      | some k =>
        obtain ⟨hk, hss⟩ := h4 k rfl
        simp only at hss
        subst hss
        right
        cases hg : Dict.get? s'.windows k with
        | none => exact absurd hk ((Dict.get?_eq_none_iff _ _).1 hg)
        | some pw =>
          obtain ⟨p, w⟩ := pw
          exact ⟨r, k, p, w, hg, by simp only [hg], h3⟩

/-! ### operations -/

/-- the result of an operation, for some answers of the user (specification) -/
def Result (env : Env K W) : OpCmd → W → W → Prop
  | .soft, w, w' => ∃ v, env.soften w v = .ok w'
  | .add, w, w' => ∃ n v, env.add w n v = .ok w'
  | .remove, w, w' => env.remove w = .ok w'
  | .mitigate, w, w' => ∃ v, env.mitigate w v = .ok w'
  | .quit, _, _ => False
  | .empty, _, _ => False

/-- the window `k` stays, and the result is stored under the stem of its name with the tail of the operation (proof) -/
def Stored (env : Env K W) (s s' : St W) : Prop :=
  ∃ c k p w w', Dict.get? s.windows k = some (p, w) ∧ Result env c w w' ∧
    s'.windows = Dict.set s.windows (stemOf (k ++ c.tail)) (⟨p.parent, k ++ c.tail⟩, w')

theorem askFloat_le (env : Env K W) (ins : List Str) : (askFloat env ins).2.length ≤ ins.length := by
  cases ins with
  | nil => exact Nat.le_refl _
  | cons x xs =>
    have e : (askFloat env (x :: xs)).2 = xs := by
      show (match env.float x with
        | none => ((Except.error (.exc .valueError) : Except Stop K), xs)
        | some v => (.ok v, xs)).2 = xs
      split <;> rfl
    rw [e, List.length_cons]; exact Nat.le_succ _

theorem store_cases (s : St W) (ins : List Str) (name : Str) (p : Path) (r : Except PyErr W) :
    ((store s ins name p r).1 = s ∧ (∃ e, r = .error e ∧ (store s ins name p r).2.2 = some (.exc e)) ∨
    (∃ w, r = .ok w ∧ (store s ins name p r).1.windows = Dict.set s.windows (stemOf name) (⟨p.parent, name⟩, w) ∧
      (store s ins name p r).1.done = s.done ∧ (store s ins name p r).2.2 = none)) ∧ (store s ins name p r).2.1 = ins := by
  cases r with
  | error e => exact ⟨Or.inl ⟨rfl, e, rfl, rfl⟩, rfl⟩
  | ok w => exact ⟨Or.inr ⟨w, rfl, rfl, rfl, rfl⟩, rfl⟩

theorem runOp_cases (env : Env K W) (c : OpCmd) (s : St W) (ins : List Str) :
    (runOp env c s ins).2.1.length ≤ ins.length ∧ (runOp env c s ins).1.done = s.done ∧
    ((runOp env c s ins).1.windows = s.windows ∨ Stored env s (runOp env c s ins).1 ∧ (runOp env c s ins).2.2 = none) := by
  have key : ∀ f : St W → List Str → Str → Path → W → Out W,
      (∀ r k p w, Dict.get? s.windows k = some (p, w) → (f s r k p w).2.1.length ≤ r.length ∧ (f s r k p w).1.done = s.done ∧
        ((f s r k p w).1.windows = s.windows ∨ Stored env s (f s r k p w).1 ∧ (f s r k p w).2.2 = none)) →
      (withKey s ins f).2.1.length ≤ ins.length ∧ (withKey s ins f).1.done = s.done ∧
      ((withKey s ins f).1.windows = s.windows ∨ Stored env s (withKey s ins f).1 ∧ (withKey s ins f).2.2 = none) := by
    intro f hf
    rcases withKey_cases s ins f with ⟨s', r, o, h, h1, h2, h3, _⟩ | ⟨r, k, p, w, hg, h, hr⟩
    · rw [h]; exact ⟨h3, h2, Or.inl h1⟩
    · rw [h]
      obtain ⟨a, b, c⟩ := hf r k p w hg
      exact ⟨Nat.le_trans a hr, b, c⟩
  have fin : ∀ (c : OpCmd) (r : List Str) (k : Str) (p : Path) (w : W) (res : Except PyErr W), Dict.get? s.windows k = some (p, w) →
      (∀ w', res = .ok w' → Result env c w w') → ∀ r0 : List Str, r.length ≤ r0.length →
      (store s r (k ++ c.tail) p res).2.1.length ≤ r0.length ∧ (store s r (k ++ c.tail) p res).1.done = s.done ∧
      ((store s r (k ++ c.tail) p res).1.windows = s.windows ∨ Stored env s (store s r (k ++ c.tail) p res).1 ∧
        (store s r (k ++ c.tail) p res).2.2 = none) := by
    intro c r k p w res hg hres r0 hr0
    obtain ⟨h, hi⟩ := store_cases s r (k ++ c.tail) p res
    rw [hi]
    rcases h with ⟨h1, _⟩ | ⟨w', h1, h2, h3, h4⟩
    · rw [h1]; exact ⟨hr0, rfl, Or.inl rfl⟩
    · exact ⟨hr0, h3, Or.inr ⟨⟨c, k, p, w, w', hg, hres w' h1, h2⟩, h4⟩⟩
  cases c with
  | quit => exact ⟨Nat.le_refl _, rfl, Or.inl rfl⟩
  | empty => exact ⟨Nat.le_refl _, rfl, Or.inl rfl⟩
  | remove =>
    apply key
    intro r k p w hg
    exact fin .remove r k p w _ hg (fun w' h => h) r (Nat.le_refl _)
  | soft =>
    apply key
    intro r k p w hg
    have hl := askFloat_le env r
    cases ha : askFloat env r with
    | mk o r' =>
      rw [ha] at hl
      cases o with
      | error e => exact ⟨hl, rfl, Or.inl rfl⟩
      | ok v => exact fin .soft r' k p w _ hg (fun w' h => ⟨v, h⟩) r hl
  | mitigate =>
    apply key
    intro r k p w hg
    have hl := askFloat_le env r
    cases ha : askFloat env r with
    | mk o r' =>
      rw [ha] at hl
      cases o with
      | error e => exact ⟨hl, rfl, Or.inl rfl⟩
      | ok v => exact fin .mitigate r' k p w _ hg (fun w' h => ⟨v, h⟩) r hl
  | add =>
    apply key
    intro r k p w hg
    have hl := askFloat_le env r
    cases ha : askFloat env r with
    | mk o r' =>
      rw [ha] at hl
      cases o with
      | error e => exact ⟨hl, rfl, Or.inl rfl⟩
      | ok n =>
        have hl' := askFloat_le env r'
        simp only
        cases ha' : askFloat env r' with
        | mk o' r'' =>
          rw [ha'] at hl'
          have : r''.length ≤ r.length := Nat.le_trans hl' hl
          cases o' with
          | error e => exact ⟨this, rfl, Or.inl rfl⟩
          | ok v => exact fin .add r'' k p w _ hg (fun w' h => ⟨n, v, h⟩) r this

theorem operateLoop_cases (env : Env K W) (n : ℕ) (s : St W) (ins : List Str) :
    (operateLoop env n s ins).2.1.length ≤ ins.length ∧ (operateLoop env n s ins).1.done = s.done ∧
    ((operateLoop env n s ins).1.windows = s.windows ∨ Stored env s (operateLoop env n s ins).1) := by
  induction n generalizing s ins with
  | zero => exact ⟨Nat.le_refl _, rfl, Or.inl rfl⟩
  | succ n ih =>
    cases ins with
    | nil => exact ⟨Nat.le_refl _, rfl, Or.inl rfl⟩
    | cons x ins =>
      rw [operateLoop]
      cases opCmdOf (lower x) with
      | none =>
        obtain ⟨a, b, c⟩ := ih s ins
        exact ⟨by rw [List.length_cons]; exact Nat.le_succ_of_le a, b, c⟩
      | some c =>
        simp only
        obtain ⟨h1, h2, h3⟩ := runOp_cases env c s ins
        have hlen : (runOp env c s ins).2.1.length ≤ (x :: ins).length := by rw [List.length_cons]; exact Nat.le_succ_of_le h1
        split
        · rename_i s' r he
          rw [he] at h1 h2 h3
          have hw : s'.windows = s.windows := by
            rcases h3 with h | ⟨_, h⟩
            · exact h
            · cases h
          obtain ⟨a, b, c⟩ := ih s' r
          refine ⟨by rw [List.length_cons]; exact Nat.le_succ_of_le (Nat.le_trans a h1), b.trans h2, ?_⟩
          rcases c with c | ⟨c, k, p, w, w', e1, e2, e3⟩
          · exact Or.inl (c.trans hw)
          · exact Or.inr ⟨c, k, p, w, w', hw ▸ e1, e2, hw ▸ e3⟩
        · refine ⟨hlen, h2, ?_⟩
          rcases h3 with h | h
          · exact Or.inl h
          · exact Or.inr h.1

/-- C129: whatever is typed behind the command `operate`, either no window changes, or the result of one operation on a copy of a loaded window is
stored; the window operated on stays as it was, and so does every other one but the one that had the name of the result. -/
theorem operate_keeps (env : Env K W) (s : St W) (ins : List Str) :
    (handleOperate env s ins).1.windows = s.windows ∨
    ∃ c k p w w', Dict.get? s.windows k = some (p, w) ∧ Result env c w w' ∧
      Dict.get? (handleOperate env s ins).1.windows (stemOf (k ++ c.tail)) = some (⟨p.parent, k ++ c.tail⟩, w') ∧
      Dict.get? (handleOperate env s ins).1.windows k = some (p, w) ∧
      ∀ k', k' ≠ stemOf (k ++ c.tail) → Dict.get? (handleOperate env s ins).1.windows k' = Dict.get? s.windows k' := by
  obtain ⟨_, _, h⟩ := operateLoop_cases env (ins.length + 1) { s with extra := [] } ins
  rcases h with h | ⟨c, k, p, w, w', h1, h2, h3⟩
  · exact Or.inl h
  · right
    have hc : c ≠ .quit ∧ c ≠ .empty := by
      constructor
      · rintro rfl; exact h2
      · rintro rfl; exact h2
    have hne := stem_tail_ne c hc k
    refine ⟨c, k, p, w, w', h1, h2, ?_, ?_, ?_⟩
    · unfold handleOperate; rw [h3, Dict.get?_set_self]
    · unfold handleOperate; rw [h3, Dict.get?_set_ne _ _ hne]; exact h1
    · intro k' hk'
      unfold handleOperate
      rw [h3, Dict.get?_set_ne _ _ (fun e => hk' e.symm)]

/-! ### all histories -/

/-- how a window can come into being: read from a file, made from a mesh tally, or computed from another one. The text is the folder of the file
that it comes from. (specification) -/
inductive Made (env : Env K W) : Str → W → Prop
  | load {p w} : env.load p = .ok w → Made env p.parent w
  | gvr {p w w' t v} : env.gvr p t env.five = .ok w → env.soften w v = .ok w' → Made env p.parent w'
  | oper {d c w w'} : Made env d w → Result env c w w' → Made env d w'

/-- what holds of the object at all times (specification) -/
structure Good (env : Env K W) (s : St W) : Prop where
  wf : Dict.WF s.windows
  name : ∀ k p w, Dict.get? s.windows k = some (p, w) → k = stemOf p.name
  made : ∀ k p w, Dict.get? s.windows k = some (p, w) → Made env p.parent w
  wrote : ∀ q w, .wrote q w ∈ s.done → Made env q.parent w ∧ ∃ n, q.name = stemOf n ++ "_written".toList
  exported : ∀ q w, .exported q w ∈ s.done → Made env q.parent w ∧ ∃ n, q.name = vtkName n

theorem Good.start (env : Env K W) : Good env {} :=
  ⟨List.nodup_nil, by simp [Dict.get?], by simp [Dict.get?], by simp, by simp⟩

theorem Good.congr {env : Env K W} {s s' : St W} (h : Good env s) (h1 : s'.windows = s.windows) (h2 : s'.done = s.done) : Good env s' :=
  ⟨h1 ▸ h.wf, h1 ▸ h.name, h1 ▸ h.made, h2 ▸ h.wrote, h2 ▸ h.exported⟩

theorem Good.set {env : Env K W} {s s' : St W} (h : Good env s) {p : Path} {w : W}
    (h1 : s'.windows = Dict.set s.windows (stemOf p.name) (p, w)) (h2 : s'.done = s.done) (hm : Made env p.parent w) : Good env s' := by
  have hg : ∀ k q v, Dict.get? s'.windows k = some (q, v) → (k = stemOf p.name ∧ q = p ∧ v = w) ∨ Dict.get? s.windows k = some (q, v) := by
    intro k q v hk
    rw [h1, Dict.get?_set] at hk
    split at hk
    · rename_i e
      simp only [Option.some.injEq, Prod.mk.injEq] at hk
      exact Or.inl ⟨e.symm, hk.1.symm, hk.2.symm⟩
    · exact Or.inr hk
  refine ⟨h1 ▸ Dict.WF_set h.wf _ _, ?_, ?_, h2 ▸ h.wrote, h2 ▸ h.exported⟩
  · intro k q v hk
    rcases hg k q v hk with ⟨a, b, _⟩ | hk
    · rw [b]; exact a
    · exact h.name k q v hk
  · intro k q v hk
    rcases hg k q v hk with ⟨_, b, c⟩ | hk
    · rw [b, c]; exact hm
    · exact h.made k q v hk

/-- a command does not lengthen what is left to read, and keeps what holds at all times (proof) -/
def Fine (env : Env K W) (s : St W) (ins : List Str) (o : Out W) : Prop := o.2.1.length ≤ ins.length ∧ (Good env s → Good env o.1)

theorem keep_fine (env : Env K W) (s : St W) (ins : List Str) (p : Path) (r : Except PyErr W) (hr : ∀ w, r = .ok w → Made env p.parent w) :
    Fine env s ins (keep s ins p r) := by
  cases r with
  | ok w => exact ⟨Nat.le_refl _, fun h => h.set rfl rfl (hr w rfl)⟩
  | error e =>
    cases e <;> exact ⟨Nat.le_refl _, fun h => h.congr rfl rfl⟩

theorem handleOpen_fine (env : Env K W) (s : St W) (ins : List Str) : Fine env s ins (handleOpen env s ins) := by
  induction ins with
  | nil => exact ⟨Nat.le_refl _, fun h => h⟩
  | cons x xs ih =>
    rw [handleOpen]
    split
    · split
      · rename_i s' r e he
        rw [he] at ih
        exact ⟨Nat.le_trans ih.1 (by simp), ih.2⟩
      · rename_i s' r he
        rw [he] at ih
        have hk := keep_fine env s' r (env.path x) _ (fun w h => Made.load h)
        exact ⟨Nat.le_trans hk.1 (Nat.le_trans ih.1 (by simp)), fun h => hk.2 (ih.2 h)⟩
    · have hk := keep_fine env s xs (env.path x) _ (fun w h => Made.load h)
      exact ⟨Nat.le_trans hk.1 (by simp), hk.2⟩

theorem askDefault_le (env : Env K W) (d : K) (ins : List Str) : (askDefault env d ins).2.length ≤ ins.length := by
  cases ins with
  | nil => exact Nat.le_refl _
  | cons x xs => exact Nat.le_succ _

theorem gvrEnd_fine (env : Env K W) (s : St W) (p : Path) (ins : List Str) : Fine env s ins (gvrEnd env s p ins) := by
  unfold gvrEnd
  have h1 := askDefault_le env env.five ins
  split
  · rename_i r e
    rw [e] at h1
    exact ⟨h1, fun h => h⟩
  · rename_i t r e
    rw [e] at h1
    have h2 := askDefault_le env env.one r
    split
    · rename_i r' e'
      rw [e'] at h2
      exact ⟨Nat.le_trans h2 h1, fun h => h⟩
    · rename_i v r' e'
      rw [e'] at h2
      have hk := keep_fine env s r' p (match env.gvr p t env.five with
        | .error e => .error e
        | .ok w => env.soften w v) (by
          intro w hw
          cases hg : env.gvr p t env.five with
          | error e => rw [hg] at hw; cases hw
          | ok w0 => rw [hg] at hw; exact Made.gvr hg hw)
      exact ⟨Nat.le_trans hk.1 (Nat.le_trans h2 h1), hk.2⟩

theorem handleGvr_fine (env : Env K W) (s : St W) (ins : List Str) : Fine env s ins (handleGvr env s ins) := by
  induction ins with
  | nil => exact ⟨Nat.le_refl _, fun h => h⟩
  | cons x xs ih =>
    rw [handleGvr]
    split
    · split
      · rename_i s' r e he
        rw [he] at ih
        exact ⟨Nat.le_trans ih.1 (by simp), ih.2⟩
      · rename_i s' r he
        rw [he] at ih
        have hk := gvrEnd_fine env s' (env.path x) r
        exact ⟨Nat.le_trans hk.1 (Nat.le_trans ih.1 (by simp)), fun h => hk.2 (ih.2 h)⟩
    · have hk := gvrEnd_fine env s (env.path x) xs
      exact ⟨Nat.le_trans hk.1 (by simp), hk.2⟩

theorem withKey_fine (env : Env K W) (s : St W) (ins : List Str) (f : St W → List Str → Str → Path → W → Out W)
    (hf : ∀ r k p w, Dict.get? s.windows k = some (p, w) → Fine env s r (f s r k p w)) : Fine env s ins (withKey s ins f) := by
  rcases withKey_cases s ins f with ⟨s', r, o, h, h1, h2, h3, _⟩ | ⟨r, k, p, w, hg, h, hr⟩
  · rw [h]; exact ⟨h3, fun hG => hG.congr h1 h2⟩
  · rw [h]
    have := hf r k p w hg
    exact ⟨Nat.le_trans this.1 hr, this.2⟩

theorem Good.effect {env : Env K W} {s : St W} (h : Good env s) (x : Str) (e : Effect W)
    (h1 : ∀ q w, e = .wrote q w → Made env q.parent w ∧ ∃ n, q.name = stemOf n ++ "_written".toList)
    (h2 : ∀ q w, e = .exported q w → Made env q.parent w ∧ ∃ n, q.name = vtkName n) :
    Good env { s with done := s.done ++ [e], extra := x } := by
  refine ⟨h.wf, h.name, h.made, ?_, ?_⟩
  · intro q w hq
    rcases List.mem_append.1 hq with hq | hq
    · exact h.wrote q w hq
    · exact h1 q w (List.mem_singleton.1 hq).symm
  · intro q w hq
    rcases List.mem_append.1 hq with hq | hq
    · exact h.exported q w hq
    · exact h2 q w (List.mem_singleton.1 hq).symm

theorem operate_fine (env : Env K W) (s : St W) (ins : List Str) : Fine env s ins (handleOperate env s ins) := by
  obtain ⟨h1, h2, h3⟩ := operateLoop_cases env (ins.length + 1) { s with extra := [] } ins
  refine ⟨h1, fun hG => ?_⟩
  rcases h3 with h | ⟨c, k, p, w, w', e1, e2, e3⟩
  · exact hG.congr h h2
  · exact hG.set (p := ⟨p.parent, k ++ c.tail⟩) e3 h2 (.oper (hG.made k p w e1) e2)

theorem run_fine (env : Env K W) (c : Cmd) (s : St W) (ins : List Str) : Fine env s ins (run env c s ins) := by
  cases c with
  | opn => exact handleOpen_fine env s ins
  | info => exact withKey_fine env s ins _ (fun r k p w _ => ⟨Nat.le_refl _, fun h => h.congr rfl rfl⟩)
  | write =>
    refine withKey_fine env s ins _ (fun r k p w hg => ⟨Nat.le_refl _, fun h => h.effect _ _ ?_ (by simp)⟩)
    intro q v e
    simp only [Effect.wrote.injEq] at e
    obtain ⟨rfl, rfl⟩ := e
    exact ⟨h.made k p w hg, p.name, rfl⟩
  | vtk =>
    refine withKey_fine env s ins _ (fun r k p w hg => ⟨Nat.le_refl _, fun h => h.effect _ _ (by simp) ?_⟩)
    intro q v e
    simp only [Effect.exported.injEq] at e
    obtain ⟨rfl, rfl⟩ := e
    exact ⟨h.made k p w hg, p.name, rfl⟩
  | plot => exact withKey_fine env s ins _ (fun r k p w _ => ⟨Nat.le_refl _, fun h => h.effect s.extra (.plotted w) (by simp) (by simp)⟩)
  | operate => exact operate_fine env s ins
  | gvr => exact handleGvr_fine env s ins
  | quit => exact ⟨Nat.le_refl _, fun h => h⟩
  | empty => exact ⟨Nat.le_refl _, fun h => h⟩

/-- at every point of every session: distinct names, each window under the stem of its file name, made from a file of its folder by operations of
the menu; every file written or exported lies in the folder of the file the window comes from -/
theorem mainLoop_good (env : Env K W) (n : ℕ) (s : St W) (ins : List Str) (h : Good env s) : Good env (mainLoop env n s ins).1 := by
  induction n generalizing s ins with
  | zero => exact h
  | succ n ih =>
    cases ins with
    | nil => exact h
    | cons x ins =>
      rw [mainLoop]
      cases cmdOf (lower x) with
      | none => exact ih s ins h
      | some c =>
        simp only
        have hf := run_fine env c s ins
        split
        · rename_i s' r e
          rw [e] at hf
          exact ih s' r (hf.2 h)
        · rename_i s' r e
          rw [e] at hf
          exact ih s' r (hf.2 h)
        · rename_i s' r e _ he
          rw [he] at hf
          exact hf.2 h

theorem menu_good (env : Env K W) (ins : List Str) : Good env (menu env ins).1 := mainLoop_good env _ _ ins (Good.start env)

/-- the fuel of the loops does not matter: it is never used up -/
theorem operateLoop_fuel (env : Env K W) (n m : ℕ) (s : St W) (ins : List Str) (hn : ins.length < n) (hm : ins.length < m) :
    operateLoop env n s ins = operateLoop env m s ins := by
  induction n generalizing m s ins with
  | zero => omega
  | succ n ih =>
    cases m with
    | zero => omega
    | succ m =>
      cases ins with
      | nil => rfl
      | cons x ins =>
        rw [List.length_cons] at hn hm
        rw [operateLoop, operateLoop]
        cases opCmdOf (lower x) with
        | none => exact ih m s ins (by omega) (by omega)
        | some c =>
          have hl := (runOp_cases env c s ins).1
          simp only
          split
          · rename_i s' r e
            rw [e] at hl
            simp only at hl
            exact ih m s' r (by omega) (by omega)
          · rfl

theorem mainLoop_fuel (env : Env K W) (n m : ℕ) (s : St W) (ins : List Str) (hn : ins.length < n) (hm : ins.length < m) :
    mainLoop env n s ins = mainLoop env m s ins := by
  induction n generalizing m s ins with
  | zero => omega
  | succ n ih =>
    cases m with
    | zero => omega
    | succ m =>
      cases ins with
      | nil => rfl
      | cons x ins =>
        rw [List.length_cons] at hn hm
        rw [mainLoop, mainLoop]
        cases cmdOf (lower x) with
        | none => exact ih m s ins (by omega) (by omega)
        | some c =>
          have hl := (run_fine env c s ins).1
          simp only
          split
          · rename_i s' r e
            rw [e] at hl
            simp only at hl
            exact ih m s' r (by omega) (by omega)
          · rename_i s' r e
            rw [e] at hl
            simp only at hl
            exact ih m s' r (by omega) (by omega)
          · rfl

/-- the session from a given state (specification) -/
def session (env : Env K W) (s : St W) (ins : List Str) : St W × Stop := mainLoop env (ins.length + 1) s ins

theorem menu_session (env : Env K W) (ins : List Str) : menu env ins = session env {} ins := rfl

/-- a command that returns or raises `ValueError`: the session goes on from its state with the lines it left -/
theorem session_next (env : Env K W) (s s' : St W) (x : Str) (ins r : List Str) (c : Cmd) (hc : cmdOf (lower x) = some c) (o : Option Stop)
    (ho : o = none ∨ o = some (.exc .valueError)) (h : run env c s ins = (s', r, o)) : session env s (x :: ins) = session env s' r := by
  unfold session
  have hl := (run_fine env c s ins).1
  rw [h] at hl
  simp only at hl
  rw [List.length_cons, mainLoop]
  simp only [hc, h]
  rcases ho with rfl | rfl
  · exact mainLoop_fuel env _ _ s' r (by omega) (by omega)
  · exact mainLoop_fuel env _ _ s' r (by omega) (by omega)

/-- C132: lines that are no command are passed over, in both menus. -/
theorem session_bad (env : Env K W) (s : St W) (bad ins : List Str) (h : ∀ x ∈ bad, cmdOf (lower x) = none) :
    session env s (bad ++ ins) = session env s ins := by
  induction bad with
  | nil => rfl
  | cons x bad ih =>
    rw [← ih (fun y hy => h y (by simp [hy]))]
    unfold session
    rw [List.cons_append, List.length_cons, mainLoop]
    simp only [h x (by simp)]

theorem operate_bad (env : Env K W) (s : St W) (bad ins : List Str) (h : ∀ x ∈ bad, opCmdOf (lower x) = none) :
    handleOperate env s (bad ++ ins) = handleOperate env s ins := by
  unfold handleOperate
  induction bad with
  | nil => rfl
  | cons x bad ih =>
    rw [← ih (fun y hy => h y (by simp [hy])), List.cons_append, List.length_cons, operateLoop]
    simp only [h x (by simp)]

/-- C132: an answer that is no number stops the operation before anything is changed, and the menu of operations asks for a command again. -/
theorem soft_not_number (env : Env K W) (s : St W) (k : Str) (p : Path) (w : W) (hw : s.windows = [(k, (p, w))]) (c : Str) (x : Str)
    (ins : List Str) (hc : opCmdOf (lower c) = some .soft ∨ opCmdOf (lower c) = some .add ∨ opCmdOf (lower c) = some .mitigate)
    (hx : env.float x = none) :
    handleOperate env s (c :: x :: ins) = handleOperate env s ins := by
  have hsel : ∀ f : St W → List Str → Str → Path → W → Out W, withKey { s with extra := [] } (x :: ins) f = f { s with extra := [] } (x :: ins) k p w := by
    intro f
    unfold withKey select
    simp only [hw, Dict.get?, if_true]
  have ha : askFloat env (x :: ins) = (.error (.exc .valueError), ins) := by
    show (match env.float x with
        | none => ((Except.error (.exc .valueError) : Except Stop K), ins)
        | some v => (.ok v, ins)) = _
    rw [hx]
  have hr : ∀ c', (c' = .soft ∨ c' = .add ∨ c' = .mitigate) →
      runOp env c' { s with extra := [] } (x :: ins) = ({ s with extra := [] }, ins, some (.exc .valueError)) := by
    intro c' hc'
    rcases hc' with rfl | rfl | rfl <;> (unfold runOp; simp only [hsel, ha])
  unfold handleOperate
  rw [List.length_cons, List.length_cons, operateLoop]
  rcases hc with hc | hc | hc <;>
    (simp only [hc]; rw [hr _ (by decide)]; exact operateLoop_fuel env _ _ _ ins (by omega) (by omega))

end F4Enix.Cli
