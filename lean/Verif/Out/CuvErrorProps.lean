import Verif.Out.CuvError
import Mathlib.Tactic.Linarith
import Mathlib.Tactic.FieldSimp
import Mathlib.Tactic.Ring
import Mathlib.Tactic.Positivity
/-!
# Sampling errors of cell-under-voxel files (C122, C123)
-/
namespace F4Enix.CuvErr
open F4Enix

variable {K : Type} [Field K] [LinearOrder K]

/-! ### C122: reading -/

/-- a voxel of the file: its number (from 1), the cells with their partial volumes -/
structure Voxel (K : Type) where
  number : ℤ
  cells : List (ℤ × K)

/-- lines of the cells of a voxel (specification) -/
inductive CellLines (pf : Str → Option K) : List Str → List (ℤ × K) → Prop
  | nil : CellLines pf [] []
  | cons {l w v : Str} {r : List Str} {ls : List Str} {c : ℤ} {p : K} {cs : List (ℤ × K)} (h : tokens l = w :: v :: r)
      (hc : parseInt w = some c) (hp : pf v = some p) (hr : CellLines pf ls cs) : CellLines pf (l :: ls) ((c, p) :: cs)

/-- the lines of a voxel: number and, as the sixth word, the number of cells; the cells; two more lines for each (specification) -/
inductive VoxelLines (pf : Str → Option K) : List Str → Voxel K → Prop
  | mk {l w a b c d m : Str} {r cl vl : List Str} {v : Voxel K} (h : tokens l = w :: a :: b :: c :: d :: m :: r)
      (hw : parseInt w = some v.number) (hm : parseInt m = some (v.cells.length : ℤ)) (hc : CellLines pf cl v.cells)
      (hv : vl.length = 2 * v.cells.length) : VoxelLines pf (l :: (cl ++ vl)) v

/-- the voxels of a mesh (specification) -/
inductive MeshLines (pf : Str → Option K) : List Str → List (Voxel K) → Prop
  | nil : MeshLines pf [] []
  | cons {ls ls' : List Str} {v : Voxel K} {vs : List (Voxel K)} (h : VoxelLines pf ls v) (hr : MeshLines pf ls' vs) :
      MeshLines pf (ls ++ ls') (v :: vs)

/-- the errors of a list of cells: the last entry of a cell counts (specification) -/
def CellErrors (sqrt : K → K) (pts : ℤ) (cs : List (ℤ × K)) (d : Dict ℤ K) : Prop :=
  ∀ c, match cs.reverse.find? (fun x => x.1 = c) with
    | none => Dict.get? d c = none
    | some x => ∃ e, samplingError sqrt x.2 pts = .ok e ∧ Dict.get? d c = some e

theorem readCells_ok {sqrt : K → K} {pf : Str → Option K} {pts : ℤ} {cl : List Str} {cs : List (ℤ × K)}
    (h : CellLines pf cl cs) (hp : ∀ c ∈ cs, ∃ e, samplingError sqrt c.2 pts = .ok e) (rest : List Str) (d : Dict ℤ K) :
    ∃ d', readCells sqrt pf pts cs.length d (cl ++ rest) = .ok (d', rest) ∧
      ∀ c, match cs.reverse.find? (fun x => x.1 = c) with
        | none => Dict.get? d' c = Dict.get? d c
        | some x => ∃ e, samplingError sqrt x.2 pts = .ok e ∧ Dict.get? d' c = some e := by
  induction h generalizing d with
  | nil => exact ⟨d, rfl, fun c => by simp⟩
  | @cons l w v r ls c p cs h hc hpv hr ih =>
    obtain ⟨e, he⟩ := hp (c, p) (by simp)
    obtain ⟨d', h1, h2⟩ := ih (fun x hx => hp x (List.mem_cons_of_mem _ hx)) (Dict.set d c e)
    refine ⟨d', ?_, ?_⟩
    · rw [List.length_cons, List.cons_append, readCells]
      simp only [List.headD_cons, h, hc, hpv, List.tail_cons]
      simp only at he
      rw [he]
      exact h1
    · intro c'
      have h2 := h2 c'
      rw [List.reverse_cons, List.find?_append]
      cases hf : cs.reverse.find? (fun x => x.1 = c') with
      | some x => rw [hf] at h2; simpa using h2
      | none =>
        rw [hf] at h2
        simp only at h2
        by_cases hcc : c = c'
        · subst hcc
          simp only [Option.none_or, List.find?_cons, decide_true]
          exact ⟨e, he, by rw [h2, Dict.get?_set, if_pos rfl]⟩
        · have hd : decide (c = c') = false := by simpa using hcc
          simp only [Option.none_or, List.find?_cons, hd, List.find?_nil]
          rw [h2, Dict.get?_set]
          rw [if_neg hcc]

theorem readVoxel_ok {sqrt : K → K} {pf : Str → Option K} {pts : ℤ} {ls : List Str} {v : Voxel K}
    (h : VoxelLines pf ls v) (hp : ∀ c ∈ v.cells, ∃ e, samplingError sqrt c.2 pts = .ok e) (rest : List Str) :
    ∃ d, readVoxel sqrt pf pts (ls ++ rest) = .ok (v.number - 1, d, rest) ∧ CellErrors sqrt pts v.cells d := by
  obtain ⟨h, hw, hm, hc, hv⟩ := h
  rename_i l w a b c d m r cl vl
  obtain ⟨d', h1, h2⟩ := readCells_ok hc hp (vl ++ rest) []
  refine ⟨d', ?_, ?_⟩
  · unfold readVoxel
    have e4 : (a :: b :: c :: d :: m :: r)[4]? = some m := rfl
    simp only [List.cons_append, List.headD_cons, List.tail_cons, h, hw, e4, hm, Int.toNat_natCast, List.append_assoc, h1]
    rw [← hv, List.drop_left']
    rfl
  · intro x
    have := h2 x
    revert this
    cases v.cells.reverse.find? (fun y => y.1 = x) with
    | none => intro h; simpa [Dict.get?] using h
    | some y => exact id

/-- the result for a list of voxels: for each number the last voxel counts (specification) -/
def MeshErrors (sqrt : K → K) (pts : ℤ) (vs : List (Voxel K)) (r : Dict ℤ (Dict ℤ K)) : Prop :=
  ∀ i, match vs.reverse.find? (fun v => v.number - 1 = i) with
    | none => Dict.get? r i = none
    | some v => ∃ d, Dict.get? r i = some d ∧ CellErrors sqrt pts v.cells d

theorem readData_ok {sqrt : K → K} {pf : Str → Option K} {pts : ℤ} {ls : List Str} {vs : List (Voxel K)}
    (h : MeshLines pf ls vs) (hp : ∀ v ∈ vs, ∀ c ∈ v.cells, ∃ e, samplingError sqrt c.2 pts = .ok e) {rest : List Str}
    (hrest : readVoxel sqrt pf pts rest = .error .indexError) (f : ℕ) (hf : vs.length < f) (d : Dict ℤ (Dict ℤ K)) :
    ∃ r, readData sqrt pf pts f d (ls ++ rest) = .ok r ∧
      ∀ i, match vs.reverse.find? (fun v => v.number - 1 = i) with
        | none => Dict.get? r i = Dict.get? d i
        | some v => ∃ c, Dict.get? r i = some c ∧ CellErrors sqrt pts v.cells c := by
  induction h generalizing f d with
  | nil =>
    cases f with
    | zero => omega
    | succ f => exact ⟨d, by rw [List.nil_append, readData, hrest], fun i => by simp⟩
  | @cons ls ls' v vs h hr ih =>
    cases f with
    | zero => omega
    | succ f =>
      obtain ⟨c, h1, h2⟩ := readVoxel_ok h (hp v (by simp)) (ls' ++ rest)
      obtain ⟨r, h3, h4⟩ := ih (fun x hx => hp x (List.mem_cons_of_mem _ hx)) f
        (by rw [List.length_cons] at hf; omega) (Dict.set d (v.number - 1) c)
      refine ⟨r, ?_, ?_⟩
      · rw [List.append_assoc, readData, h1]
        exact h3
      · intro i
        have h4 := h4 i
        rw [List.reverse_cons, List.find?_append]
        cases hfi : vs.reverse.find? (fun v => v.number - 1 = i) with
        | some x => rw [hfi] at h4; simpa using h4
        | none =>
          rw [hfi] at h4
          simp only at h4
          by_cases hvi : v.number - 1 = i
          · subst hvi
            simp only [Option.none_or, List.find?_cons, decide_true]
            exact ⟨c, by rw [h4, Dict.get?_set, if_pos rfl], h2⟩
          · have hd : decide (v.number - 1 = i) = false := by simpa using hvi
            simp only [Option.none_or, List.find?_cons, hd, List.find?_nil]
            rw [h4, Dict.get?_set]
            rw [if_neg hvi]

theorem meshLines_length {pf : Str → Option K} {ls : List Str} {vs : List (Voxel K)} (h : MeshLines pf ls vs) :
    vs.length ≤ ls.length := by
  induction h with
  | nil => simp
  | cons h hr ih =>
    cases h
    simp only [List.length_append, List.length_cons]
    omega

/-- **C122.** Of a file with a head, a line with `INDEX`, the lines of the voxels and the end of the file or a blank line,
the result has, for every voxel, the error of every cell of it, the voxels counted from 0, and nothing else. -/
theorem errors_read {sqrt : K → K} {pf : Str → Option K} {pts : ℤ} {head : List Str} {li : Str} {ls rest : List Str}
    {vs : List (Voxel K)} (hh : ∀ l ∈ head, ¬ "INDEX".toList <:+: l) (hi : "INDEX".toList <:+: li)
    (h : MeshLines pf ls vs) (hp : ∀ v ∈ vs, ∀ c ∈ v.cells, ∃ e, samplingError sqrt c.2 pts = .ok e)
    (hrest : rest = [] ∨ ∃ l r, rest = l :: r ∧ tokens l = []) :
    ∃ r, getErrors sqrt pf pts (head ++ li :: (ls ++ rest)) = .ok r ∧ MeshErrors sqrt pts vs r := by
  have hr : readVoxel sqrt pf pts rest = .error .indexError := by
    rcases hrest with rfl | ⟨l, r, rfl, hl⟩
    · simp [readVoxel, tokens_nil]
    · simp [readVoxel, hl]
  obtain ⟨r, h1, h2⟩ := readData_ok h hp hr ((ls ++ rest).length + 1) (by
    have := meshLines_length h
    rw [List.length_append]; omega) []
  refine ⟨r, ?_, ?_⟩
  · have : ∀ head : List Str, (∀ l ∈ head, ¬ "INDEX".toList <:+: l) →
        getErrors sqrt pf pts (head ++ li :: (ls ++ rest)) = .ok r := by
      intro head
      induction head with
      | nil =>
        intro _
        rw [List.nil_append, getErrors, if_pos ((Find.contains_iff _ _).2 hi)]
        exact h1
      | cons l head ih =>
        intro hh
        rw [List.cons_append, getErrors, if_neg (fun hc => hh l (by simp) ((Find.contains_iff _ _).1 hc))]
        exact ih (fun x hx => hh x (List.mem_cons_of_mem _ hx))
    exact this head hh
  · intro i
    have := h2 i
    revert this
    cases vs.reverse.find? (fun v => v.number - 1 = i) with
    | none => intro h; simpa [Dict.get?] using h
    | some v => exact id

/-- **C122 (silent end).** A line with fewer than six words at the place of a voxel - of a damaged file - ends the
reading without an error: the voxels behind it are missing. -/
theorem short_line {sqrt : K → K} {pf : Str → Option K} {pts : ℤ} {ls : List Str} {vs : List (Voxel K)} {l w : Str}
    {r rest : List Str} {n : ℤ}
    (h : MeshLines pf ls vs) (hp : ∀ v ∈ vs, ∀ c ∈ v.cells, ∃ e, samplingError sqrt c.2 pts = .ok e)
    (hl : tokens l = w :: r) (hw : parseInt w = some n) (hr : r.length < 5) {li : Str} (hi : "INDEX".toList <:+: li) :
    ∃ res, getErrors sqrt pf pts (li :: (ls ++ l :: rest)) = .ok res ∧ MeshErrors sqrt pts vs res := by
  have hrd : readVoxel sqrt pf pts (l :: rest) = .error .indexError := by
    have : r[4]? = none := List.getElem?_eq_none (by omega)
    simp [readVoxel, hl, hw, this]
  obtain ⟨res, h1, h2⟩ := readData_ok h hp hrd ((ls ++ l :: rest).length + 1) (by
    have := meshLines_length h
    rw [List.length_append]; omega) []
  refine ⟨res, ?_, ?_⟩
  · rw [getErrors, if_pos ((Find.contains_iff _ _).2 hi)]
    exact h1
  · intro i
    have := h2 i
    revert this
    cases vs.reverse.find? (fun v => v.number - 1 = i) with
    | none => intro h; simpa [Dict.get?] using h
    | some v => exact id

/-! ### the error -/

section value
variable [IsStrictOrderedRing K]

/-- the square root (specification) -/
structure SqrtOk (sqrt : K → K) : Prop where
  nonneg : ∀ x, 0 ≤ x → 0 ≤ sqrt x
  square : ∀ x, 0 ≤ x → sqrt x ^ 2 = x

/-- **C123.** For a partial volume `p` between 0 (excluded) and 1 and `n` points, the error is the relative standard
deviation of a binomial count: not negative, its square times `n p` is `1 - p`. Partial: Proved for partial volumes above 0; a cell with partial volume 0 makes the reading fail: error_zero. -/
theorem error_value_partial {sqrt : K → K} (hs : SqrtOk sqrt) {p : K} {n : ℤ} (hp : 0 < p) (hp1 : p ≤ 1) (hn : 0 < n) :
    ∃ e, samplingError sqrt p n = .ok e ∧ 0 ≤ e ∧ e ^ 2 * ((n : K) * p) = 1 - p := by
  have hn' : (0 : K) < (n : K) := by exact_mod_cast hn
  have hx : 0 ≤ (p - p ^ 2) / (n : K) := by
    apply div_nonneg _ hn'.le
    nlinarith
  refine ⟨_, by
    unfold samplingError
    rw [if_neg (by omega), if_neg (not_lt.2 hx), if_neg hp.ne'], ?_, ?_⟩
  · exact div_nonneg (hs.nonneg _ hx) hp.le
  · rw [div_pow, hs.square _ hx]
    field_simp

/-- **C123 (false at zero).** A cell with partial volume zero in the file makes the whole reading fail. -/
theorem error_zero (sqrt : K → K) (n : ℤ) : samplingError sqrt 0 n = .error .zeroDivision := by
  unfold samplingError
  split_ifs <;> simp_all

omit [IsStrictOrderedRing K] in
theorem foldl_max (a : K) (l : List K) : (a ≤ l.foldl max a ∧ ∀ x ∈ l, x ≤ l.foldl max a) ∧
    (l.foldl max a = a ∨ l.foldl max a ∈ l) := by
  induction l generalizing a with
  | nil => simp
  | cons b l ih =>
    obtain ⟨⟨h1, h2⟩, h3⟩ := ih (max a b)
    rw [List.foldl_cons]
    refine ⟨⟨le_trans (le_max_left _ _) h1, ?_⟩, ?_⟩
    · intro x hx
      rcases List.mem_cons.1 hx with rfl | hx
      · exact le_trans (le_max_right _ _) h1
      · exact h2 x hx
    · rcases h3 with h | h
      · rcases le_total a b with hab | hab
        · right; rw [h, max_eq_right hab]; simp
        · left; rw [h, max_eq_left hab]
      · right; exact List.mem_cons_of_mem _ h

omit [IsStrictOrderedRing K] in
/-- **C123.** The array added to the grid has one value per cell of the grid: the greatest error of the voxel, 0 if the
voxel is missing or empty. -/
theorem array_value (errs : Dict ℤ (Dict ℤ K)) (n : ℕ) :
    (errorArray errs n).length = n ∧ ∀ i : ℕ, i < n → ∃ x, (errorArray errs n)[i]? = some x ∧
      (∀ d, Dict.get? errs (i : ℤ) = some d → d ≠ [] → (∀ e ∈ d, e.2 ≤ x) ∧ ∃ e ∈ d, e.2 = x) ∧
      ((Dict.get? errs (i : ℤ) = none ∨ Dict.get? errs (i : ℤ) = some []) → x = 0) := by
  refine ⟨by simp [errorArray], ?_⟩
  intro i hi
  refine ⟨_, by rw [errorArray, List.getElem?_map, List.getElem?_range hi]; rfl, ?_, ?_⟩
  · intro d hd hne
    simp only [hd, Option.getD_some]
    cases d with
    | nil => exact absurd rfl hne
    | cons a l =>
      obtain ⟨⟨h1, h2⟩, h3⟩ := foldl_max a.2 (l.map Prod.snd)
      constructor
      · intro e he
        rcases List.mem_cons.1 he with rfl | he
        · exact h1
        · exact h2 _ (List.mem_map.2 ⟨e, he, rfl⟩)
      · rcases h3 with h | h
        · exact ⟨a, by simp, h.symm⟩
        · obtain ⟨e, he, hee⟩ := List.mem_map.1 h
          exact ⟨e, List.mem_cons_of_mem _ he, hee⟩
  · rintro (h | h) <;> simp only [h] <;> rfl

end value

/-! ### example -/

/-- whole numbers, and the root of a few squares (example) -/
def exPf (s : Str) : Option ℚ := if s = "0.5".toList then some (1 / 2) else if s = "0.2".toList then some (1 / 5) else (parseInt s).map (fun i => (i : ℚ))

/-- `exSqrt` (example) -/
def exSqrt (q : ℚ) : ℚ := if q = 1 / 100 then 1 / 10 else if q = 4 / 625 then 2 / 25 else 0

/-- `exFile` (example) -/
def exFile : List Str := ["head\n".toList, " INDEX x y z vol n\n".toList, "1 0 0 0 1 2\n".toList, "7 0.5 a\n".toList, "9 0.2 a\n".toList,
  "v\n".toList, "v\n".toList, "e\n".toList, "e\n".toList, "3 0 0 0 1 1\n".toList, "7 1 a\n".toList, "v\n".toList, "e\n".toList, "\n".toList]

example : getErrors exSqrt exPf 25 exFile = .ok [(0, [(7, 1 / 5), (9, 2 / 5)]), (2, [(7, 0)])] := by decide +kernel

example : (getErrors exSqrt exPf 25 exFile).toOption.map (fun d => errorArray d 4) = some [2 / 5, 0, 0, 0] := by decide +kernel

example : VoxelLines exPf ("3 0 0 0 1 1\n".toList :: (["7 1 a\n".toList] ++ ["v\n".toList, "e\n".toList])) ⟨3, [(7, 1)]⟩ :=
  .mk (pf := exPf) (l := "3 0 0 0 1 1\n".toList) (cl := ["7 1 a\n".toList]) (vl := ["v\n".toList, "e\n".toList]) (v := ⟨3, [(7, 1)]⟩)
    (w := "3".toList) (a := "0".toList) (b := "0".toList) (c := "0".toList) (d := "1".toList) (m := "1".toList) (r := [])
    (by decide +kernel) (by decide) (by decide)
    (.cons (pf := exPf) (l := "7 1 a\n".toList) (w := "7".toList) (v := "1".toList) (r := ["a".toList]) (c := 7) (p := 1)
      (ls := []) (cs := []) (by decide +kernel) (by decide) (by decide +kernel) .nil) (by decide)

end F4Enix.CuvErr
