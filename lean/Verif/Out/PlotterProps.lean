import Verif.Out.Plotter
import Mathlib.Tactic.Linarith
import Mathlib.Tactic.Ring
import Mathlib.Tactic.FieldSimp
import Mathlib.Data.List.Basic
import Mathlib.Data.List.Induction
import Mathlib.Algebra.Order.Floor.Ring
/-!
# Theorems about categorical plots (C142, C143)
-/
namespace F4Enix.Plot
open F4Enix

/-! ### labels -/

/-- the value lies in category number `j`: not below the limits before, below the limit number `j` (if there is one) (specification) -/
def InCat (limits : List ℚ) (j : ℕ) (x : ℚ) : Prop :=
  (∀ i v, i < j → limits[i]? = some v → v ≤ x) ∧ (∀ v, limits[j]? = some v → x < v) ∧ j ≤ limits.length

/-- a dictionary as written: ascending limits, one category and one colour more than limits (specification) -/
def Proper (c : Ctg) : Prop :=
  c.values.Pairwise (· < ·) ∧ c.values ≠ [] ∧ c.categories.length = c.values.length + 1 ∧ c.colors.length = c.categories.length

theorem tid_proper : Proper tid := by unfold Proper; decide +kernel
theorem tnf_proper : Proper tnf := by unfold Proper; decide +kernel
theorem sddr_proper : Proper sddr := by unfold Proper; decide +kernel

theorem foldl_last (ps : List (ℚ × Str)) (d : Str) (x : ℚ) :
    ps.foldl (fun l p => if x < p.1 then p.2.take 10 else l) d = ((ps.reverse.find? (fun p => decide (x < p.1))).map (fun p => p.2.take 10)).getD d := by
  induction ps using List.reverseRec with
  | nil => rfl
  | append_singleton ps p ih =>
    rw [List.foldl_append, List.reverse_append]
    simp only [List.foldl_cons, List.foldl_nil, List.reverse_cons, List.reverse_nil, List.nil_append, List.singleton_append]
    by_cases h : x < p.1
    · rw [if_pos h, List.find?_cons_of_pos (by simpa using h)]; rfl
    · rw [if_neg h, List.find?_cons_of_neg (by simpa using h), ih]

theorem zip_reverse_more {α β : Type} (a : List α) (b : β) (bs : List β) (h : a.length = bs.length) :
    a.reverse.zip (b :: bs).reverse = (a.zip bs).reverse := by
  rw [List.reverse_cons]
  have e : a.reverse.zip (bs.reverse ++ [b]) = a.reverse.zip bs.reverse := by
    have : a.reverse = a.reverse ++ [] := by simp
    rw [this, List.zip_append (by simp [h])]; simp
  rw [e, List.zip_eq_zipWith, List.zip_eq_zipWith, List.reverse_zipWith h]

theorem find_zip {limits : List ℚ} {cs : List Str} (h : limits.length = cs.length) (x : ℚ) (j : ℕ) (hj : InCat limits j x) :
    (limits.zip cs).find? (fun p => decide (x < p.1)) = (limits.zip cs)[j]? := by
  induction limits generalizing cs j with
  | nil => simp
  | cons v vs ih =>
    match cs, h with
    | c :: cs, h =>
      obtain ⟨h1, h2, h3⟩ := hj
      cases j with
      | zero =>
        rw [List.zip_cons_cons, List.find?_cons_of_pos (by simpa using h2 v rfl)]; rfl
      | succ j =>
        rw [List.zip_cons_cons, List.find?_cons_of_neg (by simpa using h1 0 v (by omega) rfl), List.getElem?_cons_succ]
        refine ih (by simpa using h) j ⟨fun i w hi hw => h1 (i + 1) w (by omega) hw, fun w hw => h2 w hw, by simpa using h3⟩

/-- **C142 (first, third, ... slice plotted in a session).** A value in a category below the highest gets the label of the category above;
only the values of the highest category get its own. Labels have at most ten characters. -/
theorem label_first {c : Ctg} (hc : Proper c) {ls cs : List Str} {vals : List ℚ} {c' : Ctg}
    (h : categorize c vals = .ok (ls, cs, c')) {i j : ℕ} {x : ℚ} (hx : vals[i]? = some x) (hj : InCat c.values j x) :
    ls[i]? = (c.categories[min (j + 1) c.values.length]?).map (List.take 10) := by
  obtain ⟨-, hne, hlen, -⟩ := hc
  unfold categorize at h
  match hcat : c.categories, h with
  | [], h => simp at h
  | a :: as, h =>
    have hl : (a :: as).getLast? = some ((a :: as).getLast (by simp)) := List.getLast?_eq_some_getLast _
    rw [hl] at h
    simp only [Except.ok.injEq, Prod.mk.injEq] at h
    obtain ⟨rfl, -, -⟩ := h
    rw [hcat] at hlen
    have hlen' : c.values.length = as.length := by simpa using hlen.symm
    rw [List.getElem?_map, hx]
    simp only [Option.map_some]
    unfold labelOf
    rw [foldl_last, zip_reverse_more _ _ _ hlen', List.reverse_reverse, find_zip hlen' x j hj]
    have hj3 := hj.2.2
    by_cases hjn : j < c.values.length
    · rw [min_eq_left (by omega), List.getElem?_cons_succ]
      have ha : as[j]? = some (as[j]'(by omega)) := List.getElem?_eq_getElem _
      have hv : c.values[j]? = some (c.values[j]'(by omega)) := List.getElem?_eq_getElem _
      have hz : (c.values.zip as)[j]? = some (c.values[j]'(by omega), as[j]'(by omega)) := by
        rw [List.getElem?_zip_eq_some]; exact ⟨hv, ha⟩
      rw [hz, ha]; rfl
    · have e : j = c.values.length := by omega
      rw [min_eq_right (by omega)]
      have hz : (c.values.zip as)[j]? = none := by
        rw [List.getElem?_eq_none]; rw [List.length_zip]; omega
      rw [hz]
      have e2 : (a :: as)[c.values.length]? = some ((a :: as).getLast (by simp)) := by
        rw [← hl, List.getLast?_eq_getElem?, List.length_cons, hlen']; rfl
      rw [e2]; rfl

/-- after a call the limits are reversed, and nothing else is changed -/
theorem categorize_state {c c' : Ctg} {vals : List ℚ} {ls cs : List Str} (h : categorize c vals = .ok (ls, cs, c')) :
    c' = { c with values := c.values.reverse } := by
  unfold categorize at h
  split at h
  · simp at h
  · simp only [Except.ok.injEq, Prod.mk.injEq] at h
    exact h.2.2.symm

/-- **C142 (second, fourth, ... slice).** All values below the greatest limit get the label of the second category, the others that of
the highest. -/
theorem label_second {c : Ctg} (hc : Proper c) {ls cs : List Str} {vals : List ℚ} {c' : Ctg}
    (h : categorize { c with values := c.values.reverse } vals = .ok (ls, cs, c')) {i : ℕ} {x m : ℚ} (hx : vals[i]? = some x)
    (hm : c.values.getLast? = some m) :
    (x < m → ls[i]? = (c.categories[1]?).map (List.take 10)) ∧
    (m ≤ x → ls[i]? = (c.categories.getLast?).map (List.take 10)) := by
  obtain ⟨hs, hne, hlen, -⟩ := hc
  unfold categorize at h
  match hcat : c.categories, h with
  | [], h => simp at h
  | a :: as, h =>
    have hl : (a :: as).getLast? = some ((a :: as).getLast (by simp)) := List.getLast?_eq_some_getLast _
    simp only at h
    rw [hl] at h
    simp only [Except.ok.injEq, Prod.mk.injEq, List.reverse_reverse] at h
    obtain ⟨rfl, -, -⟩ := h
    rw [hcat] at hlen
    have hlen' : c.values.reverse.length = as.length := by simpa using hlen.symm
    have hz := zip_reverse_more c.values.reverse a as hlen'
    rw [List.reverse_reverse] at hz
    rw [List.getElem?_map, hx, hl]
    simp only [Option.map_some]
    unfold labelOf
    rw [foldl_last, hz, List.reverse_reverse]
    have hr : c.values.reverse = m :: c.values.reverse.tail := by
      cases hrr : c.values.reverse with
      | nil => exact absurd (List.reverse_eq_nil_iff.1 hrr) hne
      | cons b bs =>
        rw [← List.head?_reverse, hrr] at hm
        simp only [List.head?_cons, Option.some.injEq] at hm
        rw [hm]; rfl
    match as, hlen' with
    | [], hlen' => rw [hr] at hlen'; simp at hlen'
    | b :: bs, hlen' =>
      constructor
      · intro hlt
        rw [hr, List.zip_cons_cons, List.find?_cons_of_pos (by simpa using hlt)]
        rfl
      · intro hge
        have : (c.values.reverse.zip (b :: bs)).find? (fun p => decide (x < p.1)) = none := by
          rw [List.find?_eq_none]
          intro p hp
          have hv : p.1 ∈ c.values := by
            have := (List.of_mem_zip hp).1
            simpa using this
          have hle : p.1 ≤ m := by
            have hmem := List.mem_reverse.2 hv
            rw [hr] at hmem
            rcases List.mem_cons.1 hmem with h1 | h1
            · exact h1.le
            · have hp2 : c.values.reverse.Pairwise (fun a b => b < a) := List.pairwise_reverse.2 hs
              rw [hr] at hp2
              exact ((List.pairwise_cons.1 hp2).1 _ h1).le
          simp only [decide_eq_true_eq, not_lt]
          linarith
        rw [this]; rfl

/-! ### sessions -/

/-- the dictionary with its limits in the opposite order (specification) -/
def flip (c : Ctg) : Ctg := { c with values := c.values.reverse }

theorem flip_flip (c : Ctg) : flip (flip c) = c := by unfold flip; simp

/-- however the loop ends, the dictionary is as it was or has its limits reversed -/
theorem loop_state {α β γ : Type} (vals : α → List ℚ) (draw : α → Option β → Style → Except PyErr γ) (save : Bool)
    (slices : List (Slice α β)) (c : Option Ctg) (files : Dict Str γ) :
    (plotLoop vals draw save c files slices).1 = c ∨ (plotLoop vals draw save c files slices).1 = c.map flip := by
  induction slices generalizing c files with
  | nil => exact Or.inl rfl
  | cons s rest ih =>
    obtain ⟨name, m, stl⟩ := s
    rw [plotLoop.eq_def]
    simp only
    cases c with
    | none =>
      simp only
      cases draw m stl none with
      | error e => exact Or.inl rfl
      | ok im =>
        simp only
        have := ih none (if save then Dict.set files name im else files)
        generalize plotLoop vals draw save none (if save then Dict.set files name im else files) rest = r at *
        obtain ⟨c', f', r⟩ := r
        cases r <;> simpa using this
    | some c =>
      simp only
      cases hcat : categorize c (vals m) with
      | error e => exact Or.inl rfl
      | ok r =>
        obtain ⟨ls, cs, c1⟩ := r
        have hc1 : c1 = flip c := categorize_state hcat
        subst hc1
        simp only
        cases draw m stl (some (ls, cs)) with
        | error e => exact Or.inr rfl
        | ok im =>
          simp only
          have := ih (some (flip c)) (if save then Dict.set files name im else files)
          generalize plotLoop vals draw save (some (flip c)) (if save then Dict.set files name im else files) rest = r at *
          obtain ⟨c', f', r⟩ := r
          simp only [Option.map_some, flip_flip] at this
          cases r <;> (simp only [Option.map_some]; exact this.symm)

/-- the plots of a session, one after the other, whatever comes of them (specification) -/
structure Request (α β γ : Type) where
  vals : α → List ℚ
  draw : α → Option β → Style → Except PyErr γ
  ctg : Option Str
  out : Option Bool
  files : Dict Str γ
  slices : List (Slice α β)

/-- the constants after the plots (specification) -/
def session {α β γ : Type} (s : Consts) (rs : List (Request α β γ)) : Consts :=
  rs.foldl (fun s r => (plotSlices r.vals r.draw s r.ctg r.out r.files r.slices).1) s

theorem get_put (s : Consts) (n n' : Str) (c c0 : Ctg) (h0 : s.get n' = some c0) (h : (s.put n' c).get n = some c1) :
    (n = n' ∧ c1 = c) ∨ (n ≠ n' ∧ s.get n = some c1) := by
  unfold Consts.get Consts.put at *
  by_cases a1 : n' = "SDDR".toList
  · rw [if_pos a1] at h
    by_cases b1 : n = "SDDR".toList
    · rw [if_pos b1] at h; left; exact ⟨b1.trans a1.symm, by simpa using h.symm⟩
    · right
      rw [if_neg b1] at h
      exact ⟨fun e => b1 (e.trans a1), by rw [if_neg b1]; exact h⟩
  · rw [if_neg a1] at h h0
    by_cases a2 : n' = "TNF".toList
    · rw [if_pos a2] at h
      by_cases b2 : n = "TNF".toList
      · left
        have b1 : n ≠ "SDDR".toList := by rw [b2]; decide
        rw [if_neg b1, if_pos b2] at h
        exact ⟨b2.trans a2.symm, by simpa using h.symm⟩
      · right
        refine ⟨fun e => b2 (e.trans a2), ?_⟩
        by_cases b1 : n = "SDDR".toList
        · rw [if_pos b1] at h ⊢; exact h
        · rw [if_neg b1, if_neg b2] at h ⊢; exact h
    · rw [if_neg a2] at h h0
      by_cases a3 : n' = "TID".toList
      · rw [if_pos a3] at h
        by_cases b3 : n = "TID".toList
        · left
          have b1 : n ≠ "SDDR".toList := by rw [b3]; decide
          have b2 : n ≠ "TNF".toList := by rw [b3]; decide
          rw [if_neg b1, if_neg b2, if_pos b3] at h
          exact ⟨b3.trans a3.symm, by simpa using h.symm⟩
        · right
          refine ⟨fun e => b3 (e.trans a3), ?_⟩
          by_cases b1 : n = "SDDR".toList
          · rw [if_pos b1] at h ⊢; exact h
          · by_cases b2 : n = "TNF".toList
            · rw [if_neg b1, if_pos b2] at h ⊢; exact h
            · rw [if_neg b1, if_neg b2, if_neg b3] at h; simp at h
      · rw [if_neg a3] at h0; simp at h0

/-- one plot leaves each dictionary as it was, or reverses its limits -/
theorem plot_state {α β γ : Type} (r : Request α β γ) (s : Consts) {n : Str} {c : Ctg}
    (h : (plotSlices r.vals r.draw s r.ctg r.out r.files r.slices).1.get n = some c) : ∃ c0, s.get n = some c0 ∧ (c = c0 ∨ c = flip c0) := by
  unfold plotSlices at h
  cases hctg : r.ctg with
  | none =>
    rw [hctg] at h
    simp only at h
    split at h
    · exact ⟨c, h, Or.inl rfl⟩
    · exact ⟨c, h, Or.inl rfl⟩
  | some n' =>
    rw [hctg] at h
    simp only at h
    cases hg : s.get n' with
    | none => rw [hg] at h; exact ⟨c, h, Or.inl rfl⟩
    | some c0 =>
      rw [hg] at h
      simp only at h
      split at h
      · exact ⟨c, h, Or.inl rfl⟩
      · have hs := loop_state r.vals r.draw (decide (r.out = some true)) r.slices (some c0) r.files
        generalize plotLoop r.vals r.draw (decide (r.out = some true)) (some c0) r.files r.slices = q at *
        obtain ⟨c', f', q⟩ := q
        simp only at h hs
        cases c' with
        | none => simp at hs
        | some c1 =>
          simp only [Option.some.injEq, Option.map_some] at h hs
          rcases get_put s n n' c1 c0 hg h with ⟨rfl, rfl⟩ | ⟨h1, h2⟩
          · exact ⟨c0, hg, hs⟩
          · exact ⟨c, h2, Or.inl rfl⟩

/-- **Invariant of all sessions**: each dictionary is as written, or has its limits reversed. -/
theorem session_inv {α β γ : Type} (rs : List (Request α β γ)) (s : Consts) {n : Str} {c : Ctg} (h : (session s rs).get n = some c) :
    ∃ c0, s.get n = some c0 ∧ (c = c0 ∨ c = flip c0) := by
  induction rs generalizing s with
  | nil => exact ⟨c, h, Or.inl rfl⟩
  | cons r rs ih =>
    obtain ⟨c1, h1, h2⟩ := ih (plotSlices r.vals r.draw s r.ctg r.out r.files r.slices).1 h
    obtain ⟨c0, h3, h4⟩ := plot_state r s h1
    refine ⟨c0, h3, ?_⟩
    rcases h2 with rfl | rfl <;> rcases h4 with rfl | rfl
    · exact Or.inl rfl
    · exact Or.inr rfl
    · exact Or.inr rfl
    · rw [flip_flip]; exact Or.inl rfl

theorem fresh_get {n : Str} {c : Ctg} (h : fresh.get n = some c) : c = sddr ∨ c = tnf ∨ c = tid := by
  unfold Consts.get at h
  split at h
  · exact Or.inl (by simpa [fresh] using h.symm)
  · split at h
    · exact Or.inr (Or.inl (by simpa [fresh] using h.symm))
    · split at h
      · exact Or.inr (Or.inr (by simpa [fresh] using h.symm))
      · simp at h

/-- every value lies in one category -/
theorem inCat_exists (limits : List ℚ) (x : ℚ) : ∃ j, InCat limits j x := by
  induction limits with
  | nil => exact ⟨0, by unfold InCat; simp⟩
  | cons v vs ih =>
    by_cases h : x < v
    · refine ⟨0, by simp, ?_, by simp⟩
      intro w hw
      simp only [List.getElem?_cons_zero, Option.some.injEq] at hw
      rw [← hw]; exact h
    · obtain ⟨j, h1, h2, h3⟩ := ih
      refine ⟨j + 1, ?_, fun w hw => h2 w hw, by simpa using h3⟩
      intro i w hi hw
      cases i with
      | zero =>
        simp only [List.getElem?_cons_zero, Option.some.injEq] at hw
        rw [← hw]; exact not_lt.1 h
      | succ i => exact h1 i w (by omega) hw

/-- the highest category holds the values from the greatest limit on -/
theorem inCat_top {limits : List ℚ} {j : ℕ} {x m : ℚ} (hs : limits.Pairwise (· < ·)) (hm : limits.getLast? = some m) (h : InCat limits j x) :
    m ≤ x ↔ j = limits.length := by
  obtain ⟨h1, h2, h3⟩ := h
  rw [List.getLast?_eq_getElem?] at hm
  have hpos : 0 < limits.length := by
    by_contra h0
    have : limits = [] := List.length_eq_zero_iff.1 (by omega)
    rw [this] at hm; simp at hm
  constructor
  · intro hx
    by_contra hj
    have hjl : j < limits.length := by omega
    have h4 := h2 limits[j] (List.getElem?_eq_getElem hjl)
    have hml := List.getElem?_eq_some_iff.1 hm
    obtain ⟨hml, hme⟩ := hml
    have : limits[j] ≤ m := by
      rw [← hme]
      rcases Nat.lt_or_ge j (limits.length - 1) with h5 | h5
      · exact (List.pairwise_iff_getElem.1 hs j (limits.length - 1) hjl hml h5).le
      · have : j = limits.length - 1 := by omega
        subst this; exact le_refl _
    linarith
  · intro hj
    exact h1 (limits.length - 1) m (by omega) hm

/-- **C142 (partial).** In every session the values from the greatest limit on are labelled as such (with the first ten characters). -/
theorem top_label_partial {α β γ : Type} (rs : List (Request α β γ)) {n : Str} {c c0 : Ctg} (h0 : fresh.get n = some c0)
    (h : (session fresh rs).get n = some c) {vals : List ℚ} {ls cs : List Str} {c' : Ctg} (hc : categorize c vals = .ok (ls, cs, c'))
    {i : ℕ} {x m : ℚ} (hx : vals[i]? = some x) (hm : c0.values.getLast? = some m) (hmx : m ≤ x) :
    ls[i]? = (c0.categories.getLast?).map (List.take 10) := by
  have hp : Proper c0 := by
    rcases fresh_get h0 with rfl | rfl | rfl
    · exact sddr_proper
    · exact tnf_proper
    · exact tid_proper
  obtain ⟨c1, h1, h2⟩ := session_inv rs fresh h
  rw [h0, Option.some.injEq] at h1
  subst h1
  rcases h2 with rfl | rfl
  · obtain ⟨j, hj⟩ := inCat_exists c.values x
    have := (inCat_top hp.1 hm hj).1 hmx
    rw [label_first hp hc hx hj, min_eq_right (by omega), List.getLast?_eq_getElem?, hp.2.2.1]
    rfl
  · exact (label_second hp hc hx hm).2 hmx

/-- **C142 is false of the code**: in no session does any value get the label of the lowest category. -/
theorem lowest_never {α β γ : Type} (rs : List (Request α β γ)) {n : Str} {c c0 : Ctg} (h0 : fresh.get n = some c0)
    (h : (session fresh rs).get n = some c) {vals : List ℚ} {ls cs : List Str} {c' : Ctg} (hc : categorize c vals = .ok (ls, cs, c')) :
    ∀ l ∈ ls, some l ≠ (c0.categories.head?).map (List.take 10) := by
  have hp : Proper c0 ∧ c0.categories.length ≤ 6 ∧ ∀ k, k < 6 → 0 < k → k < c0.categories.length →
      (c0.categories[k]?).map (List.take 10) ≠ (c0.categories.head?).map (List.take 10) := by
    rcases fresh_get h0 with rfl | rfl | rfl
    · exact ⟨sddr_proper, by decide, by decide⟩
    · exact ⟨tnf_proper, by decide, by decide⟩
    · exact ⟨tid_proper, by decide, by decide⟩
  obtain ⟨hp, h6, hd⟩ := hp
  obtain ⟨c1, h1, h2⟩ := session_inv rs fresh h
  rw [h0, Option.some.injEq] at h1
  subst h1
  have hlen : ls.length = vals.length := by
    unfold categorize at hc
    split at hc
    · simp at hc
    · simp only [Except.ok.injEq, Prod.mk.injEq] at hc
      rw [← hc.1]; simp
  intro l hl
  obtain ⟨i, hi, rfl⟩ := List.getElem_of_mem hl
  have hx : vals[i]? = some (vals[i]'(by omega)) := List.getElem?_eq_getElem _
  have hvl : 0 < c0.values.length := List.length_pos_iff.2 hp.2.1
  have hcl := hp.2.2.1
  rcases h2 with rfl | rfl
  · obtain ⟨j, hj⟩ := inCat_exists c.values (vals[i]'(by omega))
    have e := label_first hp hc hx hj
    rw [List.getElem?_eq_getElem hi] at e
    rw [e]
    exact hd _ (by omega) (by omega) (by omega)
  · have hm : c0.values.getLast? = some (c0.values.getLast hp.2.1) := List.getLast?_eq_some_getLast _
    have e := label_second hp hc hx hm
    rcases lt_or_ge (vals[i]'(by omega)) (c0.values.getLast hp.2.1) with hlt | hge
    · have e := e.1 hlt
      rw [List.getElem?_eq_getElem hi] at e
      rw [e]
      exact hd 1 (by omega) (by omega) (by omega)
    · have e := e.2 hge
      rw [List.getElem?_eq_getElem hi, List.getLast?_eq_getElem?] at e
      rw [e]
      exact hd _ (by omega) (by omega) (by omega)

/-- **C142 is false of the code**: the first slice of a session shows every value below the greatest limit one category too high. -/
theorem first_wrong {n : Str} {c : Ctg} (h0 : fresh.get n = some c) {vals : List ℚ} {ls cs : List Str} {c' : Ctg}
    (hc : categorize c vals = .ok (ls, cs, c')) {i j : ℕ} {x : ℚ} (hx : vals[i]? = some x) (hj : InCat c.values j x) (hlt : j < c.values.length) :
    ls[i]? = (c.categories[j + 1]?).map (List.take 10) ∧ ls[i]? ≠ (c.categories[j]?).map (List.take 10) := by
  have hp : Proper c ∧ c.values.length ≤ 5 ∧ ∀ k, k < 5 → k < c.values.length →
      (c.categories[k + 1]?).map (List.take 10) ≠ (c.categories[k]?).map (List.take 10) := by
    rcases fresh_get h0 with rfl | rfl | rfl
    · exact ⟨sddr_proper, by decide, by decide⟩
    · exact ⟨tnf_proper, by decide, by decide⟩
    · exact ⟨tid_proper, by decide, by decide⟩
  obtain ⟨hp, h5, hd⟩ := hp
  have e := label_first hp hc hx hj
  rw [min_eq_left (by omega)] at e
  refine ⟨e, ?_⟩
  rw [e]
  exact hd j (by omega) hlt

/-! ### colours (C143) -/

theorem labelOf_short (ps : List (ℚ × Str)) (d : Str) (x : ℚ) : (labelOf ps d x).length ≤ 10 := by
  unfold labelOf
  have : ∀ (ps : List (ℚ × Str)) (l : Str), l.length ≤ 10 → (ps.foldl (fun l p => if x < p.1 then p.2.take 10 else l) l).length ≤ 10 := by
    intro ps
    induction ps with
    | nil => intro l h; exact h
    | cons p ps ih =>
      intro l h
      rw [List.foldl_cons]
      refine ih _ ?_
      split
      · rw [List.length_take]; omega
      · exact h
  exact this ps _ (by rw [List.length_take]; omega)

/-- which colours are used: those of the categories whose full name is the label of two values or more Partial: Exact rule proved; false of the code: labels are cut to ten characters, so SDDR and TNF have no colours (no_colours); a category with a single value has none. -/
theorem colours_exact_partial {c : Ctg} {vals : List ℚ} {ls cs : List Str} {c' : Ctg} (h : categorize c vals = .ok (ls, cs, c')) :
    cs = ((c.categories.zip c.colors).filter (fun p => decide (1 < ls.count p.1))).map Prod.snd := by
  unfold categorize at h
  split at h
  · simp at h
  · simp only [Except.ok.injEq, Prod.mk.injEq] at h
    rw [← h.2.1, ← h.1]

theorem labels_short {c : Ctg} {vals : List ℚ} {ls cs : List Str} {c' : Ctg} (h : categorize c vals = .ok (ls, cs, c')) :
    ∀ l ∈ ls, l.length ≤ 10 := by
  unfold categorize at h
  split at h
  · simp at h
  · simp only [Except.ok.injEq, Prod.mk.injEq] at h
    intro l hl
    rw [← h.1] at hl
    obtain ⟨x, -, rfl⟩ := List.mem_map.1 hl
    exact labelOf_short _ _ _

/-- **C143 is false of the code**: plots of the categories SDDR and TNF, whose names are longer than ten characters, have no colours at all,
in no session. -/
theorem no_colours {α β γ : Type} (rs : List (Request α β γ)) {n : Str} {c : Ctg} (hn : n = "SDDR".toList ∨ n = "TNF".toList)
    (h : (session fresh rs).get n = some c) {vals : List ℚ} {ls cs : List Str} {c' : Ctg} (hc : categorize c vals = .ok (ls, cs, c')) :
    cs = [] := by
  obtain ⟨c0, h1, h2⟩ := session_inv rs fresh h
  have hlong : ∀ p ∈ c0.categories.zip c0.colors, 10 < p.1.length := by
    rcases hn with rfl | rfl
    · have e : fresh.get "SDDR".toList = some sddr := rfl
      rw [e, Option.some.injEq] at h1
      subst h1; decide
    · have e : fresh.get "TNF".toList = some tnf := rfl
      rw [e, Option.some.injEq] at h1
      subst h1; decide
  have hcc : c.categories.zip c.colors = c0.categories.zip c0.colors := by
    rcases h2 with rfl | rfl <;> rfl
  rw [colours_exact_partial hc, hcc]
  have : (c0.categories.zip c0.colors).filter (fun p => decide (1 < ls.count p.1)) = [] := by
    rw [List.filter_eq_nil_iff]
    intro p hp
    have hno : p.1 ∉ ls := fun hm => by
      have h3 := labels_short hc p.1 hm
      have h4 := hlong p hp
      omega
    simp [List.count_eq_zero_of_not_mem hno]
  rw [this]; rfl

/-- **C143 (TID).** The colours of plots of TID are those, in order, of the categories that are the label of two values or more;
green is never used. -/
theorem tid_colours {α β γ : Type} (rs : List (Request α β γ)) {c : Ctg} (h : (session fresh rs).get "TID".toList = some c)
    {vals : List ℚ} {ls cs : List Str} {c' : Ctg} (hc : categorize c vals = .ok (ls, cs, c')) :
    cs = (if 1 < ls.count "1-10 Gy".toList then ["orange".toList] else []) ++ (if 1 < ls.count "> 10 Gy".toList then ["red".toList] else []) := by
  have e : fresh.get "TID".toList = some tid := rfl
  obtain ⟨c0, h1, h2⟩ := session_inv rs fresh h
  rw [e, Option.some.injEq] at h1
  subst h1
  have hcc : c.categories.zip c.colors = [("< 1 Gy".toList, "green".toList), ("1-10 Gy".toList, "orange".toList), ("> 10 Gy".toList, "red".toList)] := by
    rcases h2 with rfl | rfl <;> rfl
  have h0 : ls.count "< 1 Gy".toList = 0 := by
    rw [List.count_eq_zero]
    intro hm
    exact lowest_never rs e h hc _ hm (by decide)
  rw [colours_exact_partial hc, hcc]
  have key : ∀ (a b d x y z : Str), ls.count a = 0 →
      (([(a, x), (b, y), (d, z)] : List (Str × Str)).filter (fun p => decide (1 < ls.count p.1))).map Prod.snd =
        (if 1 < ls.count b then [y] else []) ++ (if 1 < ls.count d then [z] else []) := by
    intro a b d x y z h0
    by_cases h3 : 1 < ls.count b <;> by_cases h4 : 1 < ls.count d <;> simp [h0, h3, h4]
  exact key _ _ _ _ _ _ h0

/-! ### concrete cases -/

/-- one value in each category: the labels are shifted, and the last two carry the same label -/
example : categorize tid [1 / 2, 5, 20] =
    .ok (["1-10 Gy".toList, "> 10 Gy".toList, "> 10 Gy".toList], ["red".toList], { tid with values := [10, 1] }) := by decide +kernel

/-- the second slice -/
example : categorize { tid with values := [10, 1] } [1 / 2, 5, 20] =
    .ok (["1-10 Gy".toList, "1-10 Gy".toList, "> 10 Gy".toList], ["orange".toList], tid) := by decide +kernel

example : InCat tid.values 0 (1 / 2) := ⟨by simp, by decide +kernel, by decide⟩

end F4Enix.Plot
