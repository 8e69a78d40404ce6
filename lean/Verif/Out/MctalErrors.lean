import Verif.Out.MctalTotals
import Verif.Out.MctalValues
/-!
# The error summary (C65) and concrete tallies
-/
namespace F4Enix.Mctal
open F4Enix

theorem extreme_mem {better : ℚ → ℚ → Bool} {l : List (Nat × ℚ)} {x : Nat × ℚ} (h : extreme better l = some x) :
    x ∈ l := by
  induction l generalizing x with
  | nil => simp [extreme] at h
  | cons a l ih =>
    simp only [extreme] at h
    cases he : extreme better l with
    | none => rw [he] at h; cases h; simp
    | some y =>
      rw [he] at h
      simp only at h
      split_ifs at h
      · cases h; exact List.mem_cons_of_mem _ (ih he)
      · cases h; simp

theorem extreme_none {better : ℚ → ℚ → Bool} {l : List (Nat × ℚ)} (h : extreme better l = none) : l = [] := by
  cases l with
  | nil => rfl
  | cons a l =>
    simp only [extreme] at h
    cases he : extreme better l with
    | none => rw [he] at h; simp at h
    | some y => rw [he] at h; simp only at h; split_ifs at h

theorem extreme_min {l : List (Nat × ℚ)} {x : Nat × ℚ} (h : extreme (fun a b => decide (a < b)) l = some x) :
    ∀ y ∈ l, x.2 ≤ y.2 := by
  induction l generalizing x with
  | nil => simp
  | cons a l ih =>
    simp only [extreme] at h
    cases he : extreme (fun a b => decide (a < b)) l with
    | none =>
      rw [he] at h; cases h
      rw [extreme_none he]; simp
    | some z =>
      rw [he] at h
      simp only [decide_eq_true_eq] at h
      intro y hy
      split_ifs at h with hz
      · cases h
        rcases List.mem_cons.1 hy with hy | hy
        · rw [hy]; exact hz.le
        · exact ih he y hy
      · cases h
        rcases List.mem_cons.1 hy with hy | hy
        · rw [hy]
        · exact (not_lt.1 hz).trans (ih he y hy)

theorem extreme_max {l : List (Nat × ℚ)} {x : Nat × ℚ} (h : extreme (fun a b => decide (b < a)) l = some x) :
    ∀ y ∈ l, y.2 ≤ x.2 := by
  induction l generalizing x with
  | nil => simp
  | cons a l ih =>
    simp only [extreme] at h
    cases he : extreme (fun a b => decide (b < a)) l with
    | none =>
      rw [he] at h; cases h
      rw [extreme_none he]; simp
    | some z =>
      rw [he] at h
      simp only [decide_eq_true_eq] at h
      intro y hy
      split_ifs at h with hz
      · cases h
        rcases List.mem_cons.1 hy with hy | hy
        · rw [hy]; exact hz.le
        · exact ih he y hy
      · cases h
        rcases List.mem_cons.1 hy with hy | hy
        · rw [hy]
        · exact (ih he y hy).trans (not_lt.1 hz)

/-- no row has been dropped: the index labels are the positions (specification) -/
def Frame.Untouched (f : Frame) : Prop := ∀ (n : Nat) (r : Nat × Row), f.rows[n]? = some r → r.1 = n

/-- the error of a row, with the rule that zero error of a zero value means "no score" (specification) -/
def reported (r : Row) : Num := if (r .error).q = 0 ∧ (r .value).q = 0 then none else some (r .error).q

theorem extremeError_ok {better : ℚ → ℚ → Bool} {f : Frame} {e : Num} {v : ℚ} (hu : f.Untouched)
    (h : extremeError better f = .ok (e, v)) :
    ∃ r ∈ f.rows, extreme better (f.rows.map (fun r => (r.1, (r.2 .error).q))) = some (r.1, (r.2 .error).q) ∧
      e = reported r.2 ∧ v = (r.2 .value).q := by
  unfold extremeError at h
  by_cases h1 : Col.error ∉ f.cols
  · rw [if_pos h1] at h; simp at h
  rw [if_neg h1] at h
  cases he : extreme better (f.rows.map (fun r => (r.1, (r.2 .error).q))) with
  | none => rw [he] at h; simp at h
  | some x =>
    obtain ⟨label, q⟩ := x
    rw [he] at h
    simp only at h
    by_cases h2 : Col.value ∉ f.cols
    · rw [if_pos h2] at h; simp at h
    rw [if_neg h2] at h
    cases hr : f.rows[label]? with
    | none => rw [hr] at h; simp at h
    | some r =>
      rw [hr] at h
      simp only [Except.ok.injEq, Prod.mk.injEq] at h
      have hm := extreme_mem he
      obtain ⟨s, hs, hse⟩ := List.mem_map.1 hm
      simp only [Prod.mk.injEq] at hse
      obtain ⟨n, hn⟩ := List.getElem?_of_mem hs
      have h3 := hu n s hn
      rw [h3] at hse
      rw [hse.1] at hn
      rw [hr] at hn
      cases hn
      refine ⟨r, List.mem_of_getElem? hr, ?_, ?_, h.2.symm⟩
      · rw [h3, hse.2, hse.1]
      · rw [← h.1, hse.2.symm]; rfl

/-- **C65 (part that holds).** If no row of the frame has been dropped, the summary reports the smallest
and the largest relative error of the frame (NaN if the bin has no score), together with the *value* of a bin with that
error. -/
theorem error_summary_partial {f : Frame} {e1 e2 : Num} {v1 v2 : ℚ} (hu : f.Untouched)
    (h : errorSummary f = .ok (e1, v1, e2, v2)) :
    ∃ a ∈ f.rows, ∃ b ∈ f.rows, (∀ r ∈ f.rows, (a.2 .error).q ≤ (r.2 .error).q ∧ (r.2 .error).q ≤ (b.2 .error).q) ∧
      e1 = reported a.2 ∧ v1 = (a.2 .value).q ∧ e2 = reported b.2 ∧ v2 = (b.2 .value).q := by
  unfold errorSummary at h
  cases h1 : extremeError (fun a b => decide (a < b)) f with
  | error e => rw [h1] at h; simp at h
  | ok x =>
    obtain ⟨x1, y1⟩ := x
    rw [h1] at h
    simp only at h
    cases h2 : extremeError (fun a b => decide (b < a)) f with
    | error e => rw [h2] at h; simp at h
    | ok x =>
      obtain ⟨x2, y2⟩ := x
      rw [h2] at h
      simp only [Except.ok.injEq, Prod.mk.injEq] at h
      obtain ⟨rfl, rfl, rfl, rfl⟩ := h
      obtain ⟨a, ha, q1, q2, q3⟩ := extremeError_ok hu h1
      obtain ⟨b, hb, r1, r2, r3⟩ := extremeError_ok hu h2
      refine ⟨a, ha, b, hb, ?_, q2, q3, r2, r3⟩
      intro r hr
      have hm : (r.1, (r.2 .error).q) ∈ f.rows.map (fun r => (r.1, (r.2 .error).q)) := List.mem_map.2 ⟨r, hr, rfl⟩
      exact ⟨extreme_min q1 _ hm, extreme_max r1 _ hm⟩

/-! ### concrete tallies -/

/-- two cells, two energies and their total; the value of a bin is `10 f + e + 1`, its error `1/(10 f + e + 1)` -/
def sampleTally : Tally :=
  { number := 4, nCells := 2, cells := [some 11, some 12], nDir := 1, nMul := 1, nErg := 3, ergTC := some 't'
    erg := [some 1, some 2]
    vals := fun i => (some (10 * (i.getD 0 0 : ℚ) + (i.getD 6 0 : ℚ) + 1), some (1 / (10 * (i.getD 0 0 : ℚ) + (i.getD 6 0 : ℚ) + 1))) }

/-- a tally without total mark, with energies (specification) -/
def plainTally : Tally :=
  { number := 14, nCells := 1, cells := [some 11], nDir := 1, nMul := 1, nErg := 2, erg := [some 1, some 2]
    vals := fun i => (some ((i.getD 6 0 : ℚ) + 1), some (1 / 10)) }

/-- the visible part of a frame (specification) -/
def Frame.show (f : Frame) : List Col × List (List Val) := (f.cols, f.rows.map (fun r => f.cols.map r.2))

/-- the frames of a list of tallies, visible part (specification) -/
def shown (ts : List Tally) : Option (List (ℤ × (List Col × List (List Val)) × Option (List Col × List (List Val)))) :=
  match getDfs ts {} with
  | .error _ => none
  | .ok l => some (l.map (fun x => (x.1, x.2.1.show, x.2.2.map Frame.show)))

instance : DecidableEq (List Col × List (List Val)) := inferInstance
instance : DecidableEq ((List Col × List (List Val)) × Option (List Col × List (List Val))) := inferInstance
instance : DecidableEq (Num × ℚ × Num × ℚ) := inferInstance
instance : DecidableEq (Except PyErr (Num × ℚ × Num × ℚ)) := inferInstance

/-- `nv` (specification) -/
def nv (q : ℚ) : Val := .num (some q)

/-- the frame of the sample tally: all bins and the totals (constant axes are gone), and the leak: the second
tally gets an empty total frame -/
theorem sample_frames : shown [sampleTally, plainTally] =
    some [(4, ([.cells, .energy, .value, .error],
        [[nv 11, nv 1, nv 1, nv 1], [nv 11, nv 2, nv 2, nv (1/2)], [nv 11, totalVal, nv 3, nv (1/3)],
         [nv 12, nv 1, nv 11, nv (1/11)], [nv 12, nv 2, nv 12, nv (1/12)], [nv 12, totalVal, nv 13, nv (1/13)]]),
        some ([.cells, .energy, .value, .error],
          [[nv 11, totalVal, nv 3, nv (1/3)], [nv 12, totalVal, nv 13, nv (1/13)]])),
      (14, ([.energy, .value, .error], [[nv 1, nv 1, nv (1/10)], [nv 2, nv 2, nv (1/10)]]),
        some ([.energy, .value, .error], []))] := by
  decide +kernel

/-- alone, the second tally has no total frame -/
theorem plain_alone : (shown [plainTally]).map (fun l => l.map (fun x => x.2.2)) = some [none] := by
  decide +kernel

/-- the hypotheses of the look-up theorem hold for the sample tally -/
theorem sample_clean : cellLabels 0 sampleTally.cells = .ok [nv 11, nv 12] ∧ Clean sampleTally [nv 11, nv 12] ∧
    BinOf.Ok ⟨1, 0, 0, 0, 0, 0, 1, 0, 0, 0, 0, nv 12, nv 0, .num none, nv 0, .num none, nv 2, .num none, .num none,
      .num none, .num none⟩ sampleTally [nv 11, nv 12] := by
  refine ⟨by decide +kernel, ⟨by decide +kernel, ?_, ?_, ?_, ?_, ?_, ?_, ?_, ?_⟩, ⟨?_, ?_, ?_, ?_, ?_, ?_, ?_, ?_, ?_, ?_, ?_⟩⟩ <;>
    first
    | (unfold CleanNums; decide +kernel)
    | (unfold HasLabel; decide +kernel)
    | decide +kernel

/-- a mesh tally with two bins on the first axis and one on the third (specification) -/
def meshTally : Tally :=
  { number := 3, mesh := true, nCells := 1, meshInfo := (0, 2, 1, 1), cora := [some 5, some 6], corb := [some 7]
    corc := [some 8], nDir := 1, nMul := 1, vals := fun i => (some ((i.getD 8 0 : ℚ) + 1), some (1 / 10)) }

/-- **C63 (witness).** The first axis appears under `Cor C`. -/
theorem mesh_swapped : (shown [meshTally]).map (fun l => l.map (fun x => x.2.1)) =
    some [([.corC, .value, .error], [[nv 5, nv 1, nv (1/10)], [nv 6, nv 2, nv (1/10)]])] := by
  decide +kernel

/-- a tally that lists cell 11 twice before cell 12 (specification) -/
def twiceTally : Tally :=
  { number := 24, nCells := 3, cells := [some 11, some 11, some 12], nDir := 1, nMul := 1
    vals := fun i => if i.getD 0 0 = 2 then (some 9, some (1/2)) else (some 7, some (1/10)) }

/-- the summaries of all tallies (specification) -/
def summaries (ts : List Tally) : Option (List (Except PyErr (Num × ℚ × Num × ℚ))) :=
  match getDfs ts {} with
  | .error _ => none
  | .ok l => some (l.map (fun x => errorSummary x.2.1))

/-- **C65 (negation).** If a row was dropped as duplicate the summary raises `IndexError`. -/
theorem summary_raises : summaries [twiceTally] = some [.error .indexError] := by decide +kernel

/-- **C65 (negation).** The column called "abs err" holds the value of the tally, not an error: here the
value 1 with the relative error 1/10 is reported with the absolute error 1. -/
theorem summary_not_abs : summaries [plainTally] = some [.ok (some (1/10), 1, some (1/10), 1)] := by decide +kernel

/-- the frame of the sample tally is untouched, so that `error_summary_partial` applies -/
example : (match getDfs [sampleTally] {} with
    | .error _ => none
    | .ok l => some (l.map (fun x => (x.2.1.rows.map Prod.fst, errorSummary x.2.1)))) =
    some [([0, 1, 2, 3, 4, 5], .ok (some (1/13), 13, some 1, 1))] := by decide +kernel

end F4Enix.Mctal
