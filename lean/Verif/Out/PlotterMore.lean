import Verif.Out.PlotterProps
import Mathlib.Algebra.BigOperators.Group.List.Basic
import Mathlib.Data.List.Range
import Mathlib.Data.List.Nodup
/-!
# Theorems about the slices, the atlas and the cumulative distributions (C144-C148)
-/
namespace F4Enix.Plot
open F4Enix

/-! ### plot_slices (C145) -/

/-- the settings with which slice number `i` is drawn: none without categories, else the labels and colours found with the dictionary
the session has at that point (its limits are reversed for every slice) (specification) -/
def StyleAt (c : Option Ctg) (i : ℕ) (xs : List ℚ) (st : Style) : Prop :=
  (c = none ∧ st = none) ∨
  ∃ c0 ls cs c', c = some c0 ∧ categorize (if i % 2 = 0 then c0 else flip c0) xs = .ok (ls, cs, c') ∧ st = some (ls, cs)

theorem styleAt_succ {c : Option Ctg} {i : ℕ} {xs : List ℚ} {st : Style} (h : StyleAt (c.map flip) i xs st) : StyleAt c (i + 1) xs st := by
  rcases h with ⟨h1, h2⟩ | ⟨c0, ls, cs, c', h1, h2, h3⟩
  · left
    cases c with
    | none => exact ⟨rfl, h2⟩
    | some c => simp at h1
  · right
    cases c with
    | none => simp at h1
    | some c =>
      simp only [Option.map_some, Option.some.injEq] at h1
      refine ⟨c, ls, cs, c', rfl, ?_, h3⟩
      rw [← h1] at h2
      by_cases he : i % 2 = 0
      · rw [if_pos he] at h2; rw [if_neg (by omega)]; exact h2
      · rw [if_neg he, flip_flip] at h2; rw [if_pos (by omega)]; exact h2

/-- the pictures `ims` are those of the first slices, in order, each drawn with its settings (specification) -/
def Drawn {α β γ : Type} (vals : α → List ℚ) (draw : α → Option β → Style → Except PyErr γ) (c : Option Ctg) (slices : List (Slice α β))
    (ims : List (Str × γ)) : Prop :=
  ims.length ≤ slices.length ∧ ∀ i name im, ims[i]? = some (name, im) →
    ∃ m stl st, slices[i]? = some (name, m, stl) ∧ StyleAt c i (vals m) st ∧ draw m stl st = .ok im

/-- the loop draws the slices in order up to the first that fails; what was drawn is saved -/
theorem loop_exact {α β γ : Type} (vals : α → List ℚ) (draw : α → Option β → Style → Except PyErr γ) (save : Bool)
    (slices : List (Slice α β)) (c : Option Ctg) (files : Dict Str γ) :
    ∃ ims, Drawn vals draw c slices ims ∧
      (plotLoop vals draw save c files slices).2.1 = (if save then ims.foldl (fun d p => Dict.set d p.1 p.2) files else files) ∧
      (∀ r, (plotLoop vals draw save c files slices).2.2 = .ok r → r = ims ∧ ims.length = slices.length) ∧
      (∀ e, (plotLoop vals draw save c files slices).2.2 = .error e → ims.length < slices.length) := by
  induction slices generalizing c files with
  | nil =>
    refine ⟨[], ⟨by simp, by simp⟩, ?_, ?_, ?_⟩
    · rw [plotLoop.eq_def]; simp
    · intro r hr; rw [plotLoop.eq_def] at hr; simpa using hr.symm
    · intro e he; rw [plotLoop.eq_def] at he; simp at he
  | cons s rest ih =>
    obtain ⟨name, m, stl⟩ := s
    have none_drawn : ∀ (c1 : Option Ctg) (e : PyErr), plotLoop vals draw save c files ((name, m, stl) :: rest) = (c1, files, .error e) →
        ∃ ims, Drawn vals draw c ((name, m, stl) :: rest) ims ∧
        (plotLoop vals draw save c files ((name, m, stl) :: rest)).2.1 = (if save then ims.foldl (fun d p => Dict.set d p.1 p.2) files else files) ∧
        (∀ r, (plotLoop vals draw save c files ((name, m, stl) :: rest)).2.2 = .ok r → r = ims ∧ ims.length = ((name, m, stl) :: rest).length) ∧
        (∀ e, (plotLoop vals draw save c files ((name, m, stl) :: rest)).2.2 = .error e → ims.length < ((name, m, stl) :: rest).length) := by
      intro c1 e he
      rw [he]
      exact ⟨[], ⟨by simp, by simp⟩, by simp, by simp, by simp⟩
    -- one step with a picture
    have step : ∀ (st : Style) (im : γ), StyleAt c 0 (vals m) st → draw m stl st = .ok im →
        plotLoop vals draw save c files ((name, m, stl) :: rest) =
          (match plotLoop vals draw save (c.map flip) (if save then Dict.set files name im else files) rest with
          | (c', files', .error e) => (c', files', .error e)
          | (c', files', .ok ims) => (c', files', .ok ((name, im) :: ims))) →
        ∃ ims, Drawn vals draw c ((name, m, stl) :: rest) ims ∧
        (plotLoop vals draw save c files ((name, m, stl) :: rest)).2.1 = (if save then ims.foldl (fun d p => Dict.set d p.1 p.2) files else files) ∧
        (∀ r, (plotLoop vals draw save c files ((name, m, stl) :: rest)).2.2 = .ok r → r = ims ∧ ims.length = ((name, m, stl) :: rest).length) ∧
        (∀ e, (plotLoop vals draw save c files ((name, m, stl) :: rest)).2.2 = .error e → ims.length < ((name, m, stl) :: rest).length) := by
      intro st im hst him heq
      obtain ⟨ims, ⟨hd1, hd2⟩, hf, hok, herr⟩ := ih (c.map flip) (if save then Dict.set files name im else files)
      rw [heq]
      generalize plotLoop vals draw save (c.map flip) (if save then Dict.set files name im else files) rest = q at *
      obtain ⟨c', f', r⟩ := q
      refine ⟨(name, im) :: ims, ⟨by simpa using hd1, ?_⟩, ?_, ?_, ?_⟩
      · intro i n im' hi
        cases i with
        | zero =>
          simp only [List.getElem?_cons_zero, Option.some.injEq, Prod.mk.injEq] at hi
          obtain ⟨rfl, rfl⟩ := hi
          exact ⟨m, stl, st, rfl, hst, him⟩
        | succ i =>
          obtain ⟨m', stl', st', h1, h2, h3⟩ := hd2 i n im' hi
          exact ⟨m', stl', st', h1, styleAt_succ h2, h3⟩
      · simp only at hf
        cases r <;> (simp only; rw [hf]; cases save <;> rfl)
      · intro r' hr'
        cases r with
        | error e => simp at hr'
        | ok ims' =>
          obtain ⟨h1, h2⟩ := hok ims' rfl
          simp only [Except.ok.injEq] at hr'
          rw [← hr', h1]
          exact ⟨rfl, by simpa using h2⟩
      · intro e he
        cases r with
        | error e' => have := herr e' rfl; simpa using this
        | ok ims' => simp at he
    cases c with
    | none =>
      cases hd : draw m stl none with
      | error e => exact none_drawn none e (by rw [plotLoop.eq_def]; simp only [hd])
      | ok im => exact step none im (Or.inl ⟨rfl, rfl⟩) hd (by
        rw [plotLoop.eq_def]; simp only [hd, Option.map_none]
        generalize plotLoop vals draw save none (if save then Dict.set files name im else files) rest = q
        obtain ⟨_, _, q⟩ := q
        cases q <;> rfl)
    | some c0 =>
      cases hcat : categorize c0 (vals m) with
      | error e => exact none_drawn (some c0) e (by rw [plotLoop.eq_def]; simp only [hcat])
      | ok r =>
        obtain ⟨ls, cs, c1⟩ := r
        have hc1 : c1 = flip c0 := categorize_state hcat
        subst hc1
        cases hd : draw m stl (some (ls, cs)) with
        | error e => exact none_drawn (some (flip c0)) e (by rw [plotLoop.eq_def]; simp only [hcat, hd])
        | ok im =>
          exact step (some (ls, cs)) im (Or.inr ⟨c0, ls, cs, flip c0, rfl, by simpa using hcat, rfl⟩) hd
            (by
        rw [plotLoop.eq_def]; simp only [hcat, hd, Option.map_some]
        generalize plotLoop vals draw save (some (flip c0)) (if save then Dict.set files name im else files) rest = q
        obtain ⟨_, _, q⟩ := q
        cases q <;> rfl)

theorem foldl_set_get {γ : Type} (ims : List (Str × γ)) (files : Dict Str γ) (n : Str) :
    Dict.get? (ims.foldl (fun d p => Dict.set d p.1 p.2) files) n =
      (((ims.reverse.find? (fun p => decide (p.1 = n))).map Prod.snd).or (Dict.get? files n)) := by
  induction ims using List.reverseRec with
  | nil => simp
  | append_singleton ims p ih =>
    rw [List.foldl_append, List.reverse_append]
    simp only [List.foldl_cons, List.foldl_nil, List.reverse_cons, List.reverse_nil, List.nil_append, List.singleton_append]
    rw [Dict.get?_set]
    by_cases h : p.1 = n
    · rw [List.find?_cons_of_pos (by simpa using h), if_pos (by simpa using h)]; rfl
    · rw [List.find?_cons_of_neg (by simpa using h), if_neg (by simpa using h), ih]

theorem names_inj {γ : Type} {l : List (Str × γ)} (h : (l.map Prod.fst).Nodup) {a b : Str × γ} (ha : a ∈ l) (hb : b ∈ l) (e : a.1 = b.1) :
    a = b := by
  obtain ⟨i, hi, rfl⟩ := List.getElem_of_mem ha
  obtain ⟨j, hj, rfl⟩ := List.getElem_of_mem hb
  have := (List.Nodup.getElem_inj_iff h (hi := by simpa using hi) (hj := by simpa using hj)).1 (by simpa using e)
  subst this
  rfl

/-- the dictionary a request starts with (specification) -/
def startOf (s : Consts) : Option Str → Option Ctg
  | none => none
  | some n => s.get n

/-- **C145.** A plot that succeeds gives one picture for each slice, in their order and with their names, each drawn with its own settings;
if a folder was given the file of a name is the last picture of that name and the other files are as before; without a folder no file is
written. -/
theorem plot_slices_ok {α β γ : Type} (vals : α → List ℚ) (draw : α → Option β → Style → Except PyErr γ) (s : Consts) (ctg : Option Str)
    (out : Option Bool) (files : Dict Str γ) (slices : List (Slice α β)) {ims : List (Str × γ)}
    (h : (plotSlices vals draw s ctg out files slices).2.2 = .ok ims) :
    ims.length = slices.length ∧ ims.map Prod.fst = slices.map Prod.fst ∧
    (∀ i name m stl, slices[i]? = some (name, m, stl) →
      ∃ im st, ims[i]? = some (name, im) ∧ StyleAt (startOf s ctg) i (vals m) st ∧ draw m stl st = .ok im) ∧
    (out = none → (plotSlices vals draw s ctg out files slices).2.1 = files) ∧
    (out = some true → ∀ n, Dict.get? (plotSlices vals draw s ctg out files slices).2.1 n =
      ((ims.reverse.find? (fun p => decide (p.1 = n))).map Prod.snd).or (Dict.get? files n)) := by
  have main : ∀ (c : Option Ctg), (plotSlices vals draw s ctg out files slices).2 = (plotLoop vals draw (decide (out = some true)) c files slices).2 →
      c = startOf s ctg → ims.length = slices.length ∧ ims.map Prod.fst = slices.map Prod.fst ∧
      (∀ i name m stl, slices[i]? = some (name, m, stl) →
        ∃ im st, ims[i]? = some (name, im) ∧ StyleAt (startOf s ctg) i (vals m) st ∧ draw m stl st = .ok im) ∧
      (out = none → (plotSlices vals draw s ctg out files slices).2.1 = files) ∧
      (out = some true → ∀ n, Dict.get? (plotSlices vals draw s ctg out files slices).2.1 n =
        ((ims.reverse.find? (fun p => decide (p.1 = n))).map Prod.snd).or (Dict.get? files n)) := by
    intro c h1 hc
    obtain ⟨ims', ⟨-, hd⟩, hf, hok, -⟩ := loop_exact vals draw (decide (out = some true)) slices c files
    rw [h1] at h
    obtain ⟨rfl, hlen⟩ := hok ims h
    have hi : ∀ i name m stl, slices[i]? = some (name, m, stl) →
        ∃ im st, ims[i]? = some (name, im) ∧ StyleAt (startOf s ctg) i (vals m) st ∧ draw m stl st = .ok im := by
      intro i name m stl hs
      have hlt : i < ims.length := by rw [hlen]; exact (List.getElem?_eq_some_iff.1 hs).1
      obtain ⟨m', stl', st, h3, h4, h5⟩ := hd i ims[i].1 ims[i].2 (by rw [List.getElem?_eq_getElem hlt])
      rw [hs, Option.some.injEq, Prod.mk.injEq, Prod.mk.injEq] at h3
      obtain ⟨e1, rfl, rfl⟩ := h3
      refine ⟨ims[i].2, st, ?_, hc ▸ h4, h5⟩
      rw [List.getElem?_eq_getElem hlt, e1]
    refine ⟨hlen, ?_, hi, ?_, ?_⟩
    · apply List.ext_getElem?
      intro i
      rw [List.getElem?_map, List.getElem?_map]
      cases hs : slices[i]? with
      | none =>
        have : ims[i]? = none := by
          rw [List.getElem?_eq_none_iff] at hs ⊢; omega
        rw [this]; rfl
      | some t =>
        obtain ⟨name, m, stl⟩ := t
        obtain ⟨im, st, h3, -⟩ := hi i name m stl hs
        rw [h3]; rfl
    · intro ho
      rw [h1, hf, ho]; rfl
    · intro ho n
      rw [h1, hf, ho]
      simp only [decide_true, if_true]
      exact foldl_set_get _ _ _
  unfold plotSlices at h
  cases hctg : ctg with
  | none =>
    subst hctg
    simp only at h
    split at h
    · simp at h
    · rename_i ho
      exact main none (by unfold plotSlices; simp only; rw [if_neg ho]) rfl
  | some n =>
    subst hctg
    simp only at h
    cases hg : s.get n with
    | none => rw [hg] at h; simp at h
    | some c0 =>
      rw [hg] at h
      simp only at h
      split at h
      · simp at h
      · rename_i ho
        exact main (some c0) (by unfold plotSlices; simp only [hg]; rw [if_neg ho]) hg.symm

/-- **C145 (distinct names).** With slices of different names every picture is in the folder. Partial: Proved; of slices with the same name only the last is in the folder, so 'each' needs different names (all_saved). -/
theorem all_saved_partial {α β γ : Type} (vals : α → List ℚ) (draw : α → Option β → Style → Except PyErr γ) (s : Consts) (ctg : Option Str)
    (files : Dict Str γ) (slices : List (Slice α β)) {ims : List (Str × γ)}
    (h : (plotSlices vals draw s ctg (some true) files slices).2.2 = .ok ims) (hn : (slices.map Prod.fst).Nodup) :
    ∀ p ∈ ims, Dict.get? (plotSlices vals draw s ctg (some true) files slices).2.1 p.1 = some p.2 := by
  obtain ⟨-, hnames, -, -, hf⟩ := plot_slices_ok vals draw s ctg (some true) files slices h
  intro p hp
  rw [hf rfl]
  have hnd : (ims.map Prod.fst).Nodup := hnames ▸ hn
  have : ims.reverse.find? (fun q => decide (q.1 = p.1)) = some p := by
    cases hq : ims.reverse.find? (fun q => decide (q.1 = p.1)) with
    | none =>
      rw [List.find?_eq_none] at hq
      exact (hq p (List.mem_reverse.2 hp) (by simp)).elim
    | some q =>
      have h1 := List.find?_some hq
      have h2 := List.mem_reverse.1 (List.mem_of_find?_eq_some hq)
      simp only [decide_eq_true_eq] at h1
      rw [names_inj hnd h2 hp h1]
  rw [this]; rfl

/-- **C145 (refusals).** An unknown category or a folder that does not exist is refused with a `ValueError`, and nothing changes: no file,
no dictionary. -/
theorem refused {α β γ : Type} (vals : α → List ℚ) (draw : α → Option β → Style → Except PyErr γ) (s : Consts) (ctg : Option Str)
    (out : Option Bool) (files : Dict Str γ) (slices : List (Slice α β))
    (h : out = some false ∨ ∃ n, ctg = some n ∧ n ∉ ["SDDR".toList, "TNF".toList, "TID".toList]) :
    plotSlices vals draw s ctg out files slices = (s, files, .error .valueError) := by
  have hu : ∀ n, n ∉ ["SDDR".toList, "TNF".toList, "TID".toList] → s.get n = none := by
    intro n hn
    simp only [List.mem_cons, List.not_mem_nil, or_false, not_or] at hn
    unfold Consts.get
    rw [if_neg hn.1, if_neg hn.2.1, if_neg hn.2.2]
  unfold plotSlices
  rcases h with rfl | ⟨n, rfl, hn⟩
  · cases ctg with
    | none => rfl
    | some n => cases hg : s.get n <;> (simp only [hg]; try rfl)
  · simp only [hu n hn]

/-- a failure while drawing leaves in the folder the pictures drawn before it -/
theorem plot_slices_error {α β γ : Type} (vals : α → List ℚ) (draw : α → Option β → Style → Except PyErr γ) (s : Consts)
    (ctg : Option Str) (files : Dict Str γ) (slices : List (Slice α β)) {e : PyErr}
    (h : (plotSlices vals draw s ctg (some true) files slices).2.2 = .error e) (hk : ∀ n, ctg = some n → (s.get n).isSome) :
    ∃ ims, ims.length < slices.length ∧ Drawn vals draw (startOf s ctg) slices ims ∧
      ∀ n, Dict.get? (plotSlices vals draw s ctg (some true) files slices).2.1 n =
        ((ims.reverse.find? (fun p => decide (p.1 = n))).map Prod.snd).or (Dict.get? files n) := by
  have h1 : (plotSlices vals draw s ctg (some true) files slices).2 = (plotLoop vals draw true (startOf s ctg) files slices).2 := by
    unfold plotSlices
    cases ctg with
    | none => rfl
    | some n =>
      have := hk n rfl
      cases hg : s.get n with
      | none => rw [hg] at this; simp at this
      | some c0 => simp only [startOf, hg]; rfl
  obtain ⟨ims, hd, hf, -, herr⟩ := loop_exact vals draw true slices (startOf s ctg) files
  rw [h1] at h
  refine ⟨ims, herr e h, hd, fun n => ?_⟩
  rw [h1, hf]
  exact foldl_set_get _ _ _

/-- two slices of the same name: one file, the second picture -/
example : plotSlices (α := ℕ) (β := ℕ) (γ := ℕ) (fun _ => []) (fun m _ _ => .ok m) fresh none (some true) [("b".toList, 7)]
    [("a".toList, 1, none), ("a".toList, 2, none)] =
    (fresh, [("b".toList, 7), ("a".toList, 2)], .ok [("a".toList, 1), ("a".toList, 2)]) := by decide +kernel

end F4Enix.Plot
