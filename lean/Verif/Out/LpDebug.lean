import Verif.Out.OutpTables
import Mathlib.Data.List.Sort
import Mathlib.Data.List.Dedup
import Mathlib.Algebra.Order.BigOperators.Group.List
import Mathlib.Algebra.BigOperators.Group.List.Lemmas
/-!
# Model of `Output.print_lp_debug`

`src/f4enix/output/MCNPoutput.py:255-330`. The files written are modelled as their content: the sheets of the Excel file as lists of lines, the csv file as
its lines, the cloud as its points. `groupby` of pandas leaves out the rows in which a key is missing (`dropna`, its default). Among lines with equal
counts pandas states no order (the model keeps one). The order of the points of the cloud (by surface and cell) is not modelled.
-/
namespace F4Enix.LpDebug
open F4Enix F4Enix.Outp

/-- `groupby(keys).sum()` of the column of ones (MCNPoutput.py:288, 290): a line for each key that occurs, with the number of rows; rows without a key are
left out -/
def tally {κ : Type} [DecidableEq κ] (key : LpRow → Option κ) (rows : List LpRow) : List (κ × ℕ) :=
  ((rows.filterMap key).dedup).map (fun k => (k, (rows.filterMap key).count k))

/-- `sort_values(by="count", ascending=False)` (MCNPoutput.py:291) -/
def descending {κ : Type} (ls : List (κ × ℕ)) : List (κ × ℕ) := ls.insertionSort (fun a b => b.2 ≤ a.2)

/-- the key of the sheet `global` (MCNPoutput.py:255-330) -/
def pairKey (r : LpRow) : Option (Str × Str) := some (r.cell, r.surface)

/-- the key of the sheet `by universe`: missing if the cell has no universe of its own (`get_u()` is `None`) (MCNPoutput.py:255-330) -/
def univKey (r : LpRow) : Option (ℤ × Str × Str) :=
  match r.univ with
  | some (some u) => some (u, r.cell, r.surface)
  | _ => none

/-- a line of the csv file (MCNPoutput.py:255-330) -/
structure CsvLine where
  point : ℚ × ℚ × ℚ
  direction : Option (ℚ × ℚ × ℚ)
  deriving DecidableEq, Repr

/-- what is written (MCNPoutput.py:255-330) -/
structure Files where
  «global» : List ((Str × Str) × ℕ)
  byUniverse : Option (List ((ℤ × Str × Str) × ℕ))
  csv : List CsvLine
  cloud : List (ℚ × ℚ × ℚ)
  deriving DecidableEq, Repr

/-- `print_lp_debug` (MCNPoutput.py:255-330) for the rows of the table; `withInput`: an input was given. Without any row there is no column `Universe`
(MCNPoutput.py:251), which is a `KeyError`. -/
def writeFiles (withInput cosine : Bool) (rows : List LpRow) : Except PyErr Files :=
  if withInput ∧ rows = [] then .error .keyError
  else .ok {
    «global» := descending (tally pairKey rows)
    byUniverse := if withInput then some (descending (tally univKey rows)) else none
    csv := rows.map (fun r => ⟨r.point, if cosine then r.cosines else none⟩)
    cloud := rows.dedup.map LpRow.point }

/-- the whole call (MCNPoutput.py:255-330) -/
def printDebug (num : Str → Option ℚ) (cosine : Bool) (cells : Option (Dict Str (Option ℤ))) (lines : List Str) : Except PyErr Files :=
  match lpTable num cosine cells lines with
  | .error e => .error e
  | .ok rows => writeFiles cells.isSome cosine rows

/-! ### lemmas -/

theorem tally_mem {κ : Type} [DecidableEq κ] {key : LpRow → Option κ} {rows : List LpRow} {k : κ} {n : ℕ} :
    (k, n) ∈ tally key rows ↔ 0 < n ∧ n = (rows.filter (fun r => key r = some k)).length := by
  have hc : (rows.filterMap key).count k = (rows.filter (fun r => key r = some k)).length := by
    induction rows with
    | nil => rfl
    | cons r rs ih =>
      cases hk : key r with
      | none =>
        rw [List.filterMap_cons_none hk, ih, List.filter_cons_of_neg (by simp [hk])]
      | some k' =>
        rw [List.filterMap_cons_some hk, List.count_cons, ih]
        by_cases h : k' = k
        · rw [List.filter_cons_of_pos (by simp [hk, h])]; simp [h]
        · rw [List.filter_cons_of_neg (by simp [hk, h])]; simp [h]
  unfold tally
  rw [List.mem_map]
  constructor
  · rintro ⟨k', hk', e⟩
    simp only [Prod.mk.injEq] at e
    obtain ⟨rfl, rfl⟩ := e
    rw [← hc]
    exact ⟨List.count_pos_iff.2 (List.mem_dedup.1 hk'), rfl⟩
  · rintro ⟨h0, hn⟩
    refine ⟨k, List.mem_dedup.2 (List.count_pos_iff.1 (by rw [hc]; omega)), by rw [hc, hn]⟩

theorem tally_keys {κ : Type} [DecidableEq κ] (key : LpRow → Option κ) (rows : List LpRow) : ((tally key rows).map Prod.fst).Nodup := by
  unfold tally
  rw [List.map_map]
  have : (Prod.fst ∘ fun k => (k, (rows.filterMap key).count k)) = id := rfl
  rw [this, List.map_id]
  exact List.nodup_dedup _

theorem sum_counts {κ : Type} [DecidableEq κ] (l : List κ) : (l.dedup.map (fun k => l.count k)).sum = l.length := by
  rw [List.sum_map_count_dedup_eq_length]

theorem tally_sum {κ : Type} [DecidableEq κ] (key : LpRow → Option κ) (rows : List LpRow) :
    ((tally key rows).map Prod.snd).sum = (rows.filter (fun r => (key r).isSome)).length := by
  unfold tally
  rw [List.map_map]
  have : (Prod.snd ∘ fun k => (k, (rows.filterMap key).count k)) = fun k => (rows.filterMap key).count k := rfl
  rw [this, sum_counts]
  clear this
  induction rows with
  | nil => rfl
  | cons r rs ih =>
    cases hk : key r with
    | none => rw [List.filterMap_cons_none hk, ih, List.filter_cons_of_neg (by simp [hk])]
    | some k => rw [List.filterMap_cons_some hk, List.length_cons, ih, List.filter_cons_of_pos (by simp [hk]), List.length_cons]

theorem descending_perm {κ : Type} (ls : List (κ × ℕ)) : (descending ls).Perm ls := List.perm_insertionSort _ _

theorem descending_sorted {κ : Type} (ls : List (κ × ℕ)) : (descending ls).Pairwise (fun a b => b.2 ≤ a.2) := by
  have : Std.Total (fun a b : κ × ℕ => b.2 ≤ a.2) := ⟨fun a b => Nat.le_total _ _⟩
  have : IsTrans _ (fun a b : κ × ℕ => b.2 ≤ a.2) := ⟨fun a b c h1 h2 => Nat.le_trans h2 h1⟩
  exact List.pairwise_insertionSort _ _

theorem writeFiles_ok {wi cosine : Bool} {rows : List LpRow} {f : Files} (h : writeFiles wi cosine rows = .ok f) :
    f.«global» = descending (tally pairKey rows) ∧ (wi = true → f.byUniverse = some (descending (tally univKey rows))) ∧
    f.csv = rows.map (fun r => ⟨r.point, if cosine then r.cosines else none⟩) ∧
    f.cloud = rows.dedup.map LpRow.point := by
  unfold writeFiles at h
  by_cases hc : wi = true ∧ rows = []
  · rw [if_pos hc] at h; cases h
  · rw [if_neg hc] at h
    simp only [Except.ok.injEq] at h
    subst h
    refine ⟨rfl, ?_, rfl, rfl⟩
    intro hw
    simp [hw]

/-! ### claims -/

/-- a sheet counts something: each key once with the number of rows that have it, the greatest numbers first (specification) -/
structure Counts {κ : Type} (sheet : List (κ × ℕ)) (has : LpRow → κ → Prop) (rows : List LpRow) : Prop where
  lines : ∀ k n, (k, n) ∈ sheet ↔ 0 < n ∧ ∃ sel : List LpRow, sel.Sublist rows ∧ (∀ r ∈ sel, has r k) ∧
    (∀ s : List LpRow, s.Sublist rows → (∀ r ∈ s, has r k) → s.length ≤ sel.length) ∧ n = sel.length
  once : (sheet.map Prod.fst).Nodup
  order : sheet.Pairwise (fun a b => b.2 ≤ a.2)

theorem counts_of {κ : Type} [DecidableEq κ] (key : LpRow → Option κ) (rows : List LpRow) :
    Counts (descending (tally key rows)) (fun r k => key r = some k) rows where
  lines k n := by
    rw [(descending_perm _).mem_iff, tally_mem]
    have hmax : ∀ s : List LpRow, s.Sublist rows → (∀ r ∈ s, key r = some k) → s.length ≤ (rows.filter (fun r => key r = some k)).length := by
      intro s hs hk
      have := (hs.filter (fun r => decide (key r = some k))).length_le
      rwa [List.filter_eq_self.2 (by intro r hr; simpa using hk r hr)] at this
    constructor
    · rintro ⟨h0, hn⟩
      exact ⟨h0, _, List.filter_sublist, fun r hr => by simpa using (List.mem_filter.1 hr).2, hmax, hn⟩
    · rintro ⟨h0, sel, h1, h2, h3, hn⟩
      refine ⟨h0, ?_⟩
      rw [hn]
      exact Nat.le_antisymm (hmax sel h1 h2) (h3 _ List.filter_sublist (fun r hr => by simpa using (List.mem_filter.1 hr).2))
  once := by
    have := (descending_perm (tally key rows)).map Prod.fst
    exact (this.nodup_iff).2 (tally_keys key rows)
  order := descending_sorted _

/-- **C176 (sheet `global`).** A line for each pair of cell and surface where particles were lost, with their number; the numbers add up to the lost
particles of the table. -/
theorem global_counts {wi cosine : Bool} {rows : List LpRow} {f : Files} (h : writeFiles wi cosine rows = .ok f) :
    Counts f.«global» (fun r k => r.cell = k.1 ∧ r.surface = k.2) rows ∧ (f.«global».map Prod.snd).sum = rows.length := by
  obtain ⟨hg, -⟩ := writeFiles_ok h
  rw [hg]
  refine ⟨?_, ?_⟩
  · have := counts_of pairKey rows
    have e : (fun (r : LpRow) (k : Str × Str) => pairKey r = some k) = (fun r k => r.cell = k.1 ∧ r.surface = k.2) := by
      funext r k
      obtain ⟨a, b⟩ := k
      simp [pairKey]
    rwa [e] at this
  · rw [((descending_perm (tally pairKey rows)).map Prod.snd).sum_eq, tally_sum]
    simp [pairKey]

/-- **C176 (sheet `by universe`).** With an input: a line for each universe, cell and surface, but only for cells with a universe of their own. Partial: Counts and points proved. False: the sheet by universe leaves out the cells without a universe of their own, and with an input and nothing lost the call fails. Writing of xlsx and vtp files is not modelled. -/
theorem universe_counts_partial {cosine : Bool} {rows : List LpRow} {f : Files} (h : writeFiles true cosine rows = .ok f) :
    ∃ sheet, f.byUniverse = some sheet ∧ Counts sheet (fun r k => r.univ = some (some k.1) ∧ r.cell = k.2.1 ∧ r.surface = k.2.2) rows := by
  refine ⟨_, (writeFiles_ok h).2.1 rfl, ?_⟩
  have := counts_of univKey rows
  have e : (fun (r : LpRow) (k : ℤ × Str × Str) => univKey r = some k) = (fun r k => r.univ = some (some k.1) ∧ r.cell = k.2.1 ∧ r.surface = k.2.2) := by
    funext r k
    obtain ⟨u, a, b⟩ := k
    unfold univKey
    cases hu : r.univ with
    | none => simp
    | some o => cases o <;> simp
  rwa [e] at this

/-- **C176 is false of the code for cells without universe**: the particles lost there are in no line of the sheet, so its numbers add up to less than the
lost particles. -/
theorem universe_main_lost {cosine : Bool} {rows : List LpRow} {f : Files} {sheet : List ((ℤ × Str × Str) × ℕ)} (h : writeFiles true cosine rows = .ok f)
    (hs : f.byUniverse = some sheet) {r : LpRow} (hr : r ∈ rows) (hu : r.univ = some none) : (sheet.map Prod.snd).sum < rows.length := by
  rw [(writeFiles_ok h).2.1 rfl, Option.some.injEq] at hs
  subst hs
  rw [((descending_perm (tally univKey rows)).map Prod.snd).sum_eq, tally_sum]
  apply Nat.lt_of_le_of_ne (List.length_filter_le _ _)
  intro he
  have := (List.length_filter_eq_length_iff.1 he) r hr
  simp [univKey, hu] at this

/-- **C176 (files of points).** The csv file has a line for each lost particle, in the order of the output, with its place (and direction if asked); the
cloud has exactly the places, particles that agree in everything counted once. -/
theorem points_written {wi cosine : Bool} {rows : List LpRow} {f : Files} (h : writeFiles wi cosine rows = .ok f) :
    f.csv.length = rows.length ∧ (∀ (i : ℕ) (r : LpRow), rows[i]? = some r → f.csv[i]? = some (CsvLine.mk r.point (if cosine then r.cosines else none))) ∧
    (∀ p, p ∈ f.cloud ↔ ∃ r ∈ rows, r.point = p) ∧ f.cloud.Perm (rows.dedup.map LpRow.point) := by
  obtain ⟨-, -, h1, h2⟩ := writeFiles_ok h
  rw [h1, h2]
  refine ⟨by simp, ?_, ?_, List.Perm.refl _⟩
  · intro i r hr
    simp [List.getElem?_map, hr]
  · intro p
    simp [List.mem_map, List.mem_dedup]

/-- **C176 (nothing lost).** Without an input, a run without lost particles gives empty sheets; with an input the call fails. -/
theorem nothing_lost (num : Str → Option ℚ) (cosine : Bool) (cells : Option (Dict Str (Option ℤ))) {lines : List Str} (h : ∀ l ∈ lines, ¬ surfaceId <:+: l) :
    printDebug num cosine cells lines = if cells.isSome then .error .keyError else .ok ⟨[], none, [], []⟩ := by
  have e : lpTable num cosine cells lines = .ok [] := by
    induction lines with
    | nil => rfl
    | cons l ls ih =>
      rw [lpTable, if_neg (by rw [Find.contains_iff]; exact h l (by simp)), ih (fun x hx => h x (by simp [hx]))]
  unfold printDebug
  rw [e]
  simp only
  cases cells <;> rfl

/-- with the table of C82: what the files show is what stands in the output -/
theorem print_of_table {num : Str → Option ℚ} {cosine : Bool} {cells : Option (Dict Str (Option ℤ))} {lines : List Str} {rows : List LpRow}
    (h : lpTable num cosine cells lines = .ok rows) (hr : rows ≠ []) : ∃ f, printDebug num cosine cells lines = .ok f := by
  unfold printDebug writeFiles
  rw [h]
  simp [hr]

/-! ### concrete cases -/

/-- `exRow` (example) -/
def exRow (c s : String) (u : Option ℤ) (x : ℚ) : LpRow := ⟨s.toList, c.toList, (x, 0, 0), none, some u⟩

example : (writeFiles true false [exRow "1" "5" none 1, exRow "2" "5" (some 3) 2, exRow "2" "5" (some 3) 2]).map Files.«global» =
    .ok [(("2".toList, "5".toList), 2), (("1".toList, "5".toList), 1)] := by decide +kernel

example : (writeFiles true false [exRow "1" "5" none 1, exRow "2" "5" (some 3) 2, exRow "2" "5" (some 3) 2]).map (fun f => f.byUniverse.getD []) =
    .ok [((3, "2".toList, "5".toList), 2)] := by decide +kernel

end F4Enix.LpDebug
