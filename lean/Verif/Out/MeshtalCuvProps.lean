import Verif.Out.MeshtalCuv
import Verif.Out.MeshtalRead
import Mathlib.Tactic.Linarith
/-!
# Theorems about cell-under-voxel and source meshes (C73-C75)
-/
namespace F4Enix.Mesh
open F4Enix

/-! ### what a voxel should be worth -/

/-- the cells of the voxel that are asked for (specification) -/
def selected (filter : Option (List ℤ)) (cells : List VCell) : List VCell :=
  match filter with
  | none => cells
  | some f => cells.filter (fun c => decide (c.id ∈ f))

/-- fraction-weighted sum of a quantity over cells (specification) -/
def weighted (cells : List VCell) (q : VCell → ℚ) : ℚ := (cells.map (fun c => c.frac * q c)).sum

/-- the value of energy `e` in a voxel of the given volume: with `ctot` the total over the selected cells (mean
density times volume), with `celf` the mean over the selected cells (over the voxel when there is no filter) (specification) -/
def voxelValue (norm : Norm) (filter : Option (List ℤ)) (volume : ℚ) (cells : List VCell) (e : Nat) : ℚ :=
  let s := weighted (selected filter cells) (fun c => c.vals.getD e 0)
  match norm with
  | .ctot => s * volume
  | _ => match filter with
    | none => s
    | some _ => s / weighted (selected filter cells) (fun _ => 1)

/-- relative error: the absolute errors of the selected cells added with the same weights (specification) -/
def voxelError (filter : Option (List ℤ)) (cells : List VCell) (e : Nat) : ℚ :=
  weighted (selected filter cells) (fun c => c.vals.getD e 0 * c.errs.getD e 0) /
    weighted (selected filter cells) (fun c => c.vals.getD e 0)

/-- a voxel of `ne` energies: at least one cell, all rows of length `ne`, and a cell alone fills the voxel (specification) -/
structure VoxelOk (ne : Nat) (cells : List VCell) : Prop where
  nonempty : cells ≠ []
  rows : ∀ c ∈ cells, c.vals.length = ne ∧ c.errs.length = ne
  alone : cells.length = 1 → ∀ c ∈ cells, c.frac = 1

theorem weighted_one (cells : List VCell) : weighted cells (fun _ => 1) = (cells.map (fun c => c.frac)).sum := by
  unfold weighted; simp

theorem stretched_eq {v : List ℚ} {e : Nat} (h : e < v.length) : stretched v e = v.getD e 0 := by
  unfold stretched
  split_ifs with h1
  · obtain rfl : e = 0 := by omega
    cases v with
    | nil => rfl
    | cons => rfl
  · rfl

theorem meanVal_eq {ne : Nat} {cells : List VCell} (hr : ∀ c ∈ cells, c.vals.length = ne ∧ c.errs.length = ne) {e : Nat} (he : e < ne) :
    meanVal cells e = weighted cells (fun c => c.vals.getD e 0) := by
  unfold meanVal weighted
  congr 1
  apply List.map_congr_left
  intro c hc
  rw [stretched_eq (by rw [(hr c hc).1]; exact he)]

theorem meanErr_eq {ne : Nat} {cells : List VCell} (hr : ∀ c ∈ cells, c.vals.length = ne ∧ c.errs.length = ne) {e : Nat} (he : e < ne) :
    meanErr cells e = if weighted cells (fun c => c.vals.getD e 0) = 0 then 0 else
      weighted cells (fun c => c.vals.getD e 0 * c.errs.getD e 0) / weighted cells (fun c => c.vals.getD e 0) := by
  have h2 : (cells.map (fun c => c.frac * (stretched c.vals e * stretched c.errs e))).sum =
      weighted cells (fun c => c.vals.getD e 0 * c.errs.getD e 0) := by
    unfold weighted
    congr 1
    apply List.map_congr_left
    intro c hc
    rw [stretched_eq (by rw [(hr c hc).1]; exact he), stretched_eq (by rw [(hr c hc).2]; exact he)]
  unfold meanErr
  rw [meanVal_eq hr he, h2]
  by_cases h : weighted cells (fun c => c.vals.getD e 0) = 0
  · rw [if_neg (by simpa using h), if_pos h]
  · rw [if_pos h, if_neg h]

theorem meanValue_ok {ne : Nat} {cells : List VCell} (h : cells ≠ [])
    (hr : ∀ c ∈ cells, c.vals.length = ne ∧ c.errs.length = ne) :
    meanValue cells = .ok ((List.range ne).map (meanVal cells), (List.range ne).map (meanErr cells)) := by
  cases cells with
  | nil => exact absurd rfl h
  | cons c cs =>
    have hc := hr c (by simp)
    simp only [meanValue]
    rw [if_pos]
    · rw [hc.1, hc.2]
      simp
    · refine ⟨?_, Or.inl (by rw [hc.1, hc.2])⟩
      rw [List.all_eq_true]
      intro d hd
      have := hr d (by simp [hd])
      simp [this, hc]

/-- rows of the right length are put in their arrays as they are -/
theorem fit_ok {ne : Nat} {p : List ℚ × List ℚ} (h1 : p.1.length = ne) (h2 : p.2.length = ne) : fit ne p = .ok (List.zip p.1 p.2) := by
  unfold fit fitRow
  rw [if_pos h1]
  simp only
  rw [if_pos h2]

theorem zip_getD (a b : List ℚ) (e : Nat) (d : ℚ × ℚ) (h1 : e < a.length) (h2 : e < b.length) :
    (List.zip a b).getD e d = (a.getD e 0, b.getD e 0) := by
  simp only [List.getD_eq_getElem?_getD]
  rw [List.getElem?_eq_getElem (by rw [List.length_zip]; omega), List.getElem?_eq_getElem h1, List.getElem?_eq_getElem h2]
  simp

/-- **C73 (one voxel).** With `ctot` or `celf`, every voxel gets the weighted value of the selected cells in the
normalisation asked for, and zero when the selected cells fill none of it. -/
theorem cuvVoxel_value {ne : Nat} {cells : List VCell} (hv : VoxelOk ne cells) (norm : Norm) (hn : norm ≠ .other)
    (filter : Option (List ℤ)) (volume : ℚ) :
    ∃ vs, cuvVoxel norm filter volume cells = .ok vs ∧ (vs.1.length = ne ∧ vs.2.length = ne) ∧
      ∀ e, e < ne →
        ((∃ f, filter = some f ∧ weighted (selected filter cells) (fun _ => 1) = 0) → vs.1.getD e 0 = 0 ∧ vs.2.getD e 0 = 0) ∧
        (¬(∃ f, filter = some f ∧ weighted (selected filter cells) (fun _ => 1) = 0) →
          vs.1.getD e 0 = voxelValue norm filter volume cells e ∧
          (weighted (selected filter cells) (fun c => c.vals.getD e 0) ≠ 0 →
            vs.2.getD e 0 = voxelError filter cells e)) := by
  cases cells with
  | nil => exact absurd rfl hv.nonempty
  | cons c0 cs =>
  -- the sum that is tested
  have hsum : ∀ f, filter = some f → (((c0 :: cs).filter (fun c => decide (c.id ∈ f))).map (fun c => c.frac)).sum =
      weighted (selected filter (c0 :: cs)) (fun _ => 1) := by
    rintro f rfl
    rw [weighted_one]; rfl
  -- values before normalisation
  have hbase : ∀ sel : List VCell, sel ≠ [] → sel = selected filter (c0 :: cs) →
      ∃ b, (if 1 < (c0 :: cs).length then meanValue sel
        else match sel with
          | [] => Except.error PyErr.indexError
          | c :: _ => .ok (c.vals, c.errs)) = .ok b ∧ (b.1.length = ne ∧ b.2.length = ne) ∧
        ∀ e, e < ne → b.1.getD e 0 = weighted sel (fun c => c.vals.getD e 0) ∧
          (weighted sel (fun c => c.vals.getD e 0) ≠ 0 → b.2.getD e 0 =
            weighted sel (fun c => c.vals.getD e 0 * c.errs.getD e 0) / weighted sel (fun c => c.vals.getD e 0)) := by
    intro sel hne hsel
    have hmem : ∀ c ∈ sel, c ∈ c0 :: cs := by
      intro c hc
      rw [hsel] at hc
      cases filter with
      | none => exact hc
      | some f => exact (List.mem_filter.1 hc).1
    by_cases hl : 1 < (c0 :: cs).length
    · rw [if_pos hl, meanValue_ok hne (fun c hc => hv.rows c (hmem c hc))]
      refine ⟨_, rfl, by simp, ?_⟩
      intro e he
      have hr := fun c hc => hv.rows c (hmem c hc)
      simp only
      rw [getD_range_map _ _ _ _ he, getD_range_map _ _ _ _ he, meanVal_eq hr he, meanErr_eq hr he]
      exact ⟨rfl, fun h0 => if_neg h0⟩
    · rw [if_neg hl]
      have hcs : cs = [] := by
        cases cs with
        | nil => rfl
        | cons => simp at hl
      subst hcs
      cases sel with
      | nil => exact absurd rfl hne
      | cons c rest =>
        have hc : c = c0 := by simpa using hmem c (by simp)
        subst hc
        have hrest : rest = [] := by
          have hlen : (c :: rest).length ≤ 1 := by
            rw [hsel]
            cases filter with
            | none => simp [selected]
            | some f => exact List.length_filter_le _ _
          cases rest with
          | nil => rfl
          | cons => simp at hlen
        subst hrest
        have hr := hv.rows c (by simp)
        have hf := hv.alone rfl c (by simp)
        refine ⟨_, rfl, hr, ?_⟩
        intro e he
        simp only [weighted, List.map_cons, List.map_nil, List.sum_cons, List.sum_nil, hf, one_mul, add_zero, true_and]
        intro h0
        field_simp
  have r0 := hv.rows c0 (by simp)
  -- put together
  have finish : ∀ (sel : List VCell) (sumf : ℚ), sel ≠ [] → sel = selected filter (c0 :: cs) →
      (match filter with | none => sumf = 1 | some _ => sumf = weighted sel (fun _ => 1)) →
      ∃ vs, (match (if 1 < (c0 :: cs).length then meanValue sel
          else match sel with
            | [] => Except.error PyErr.indexError
            | c :: _ => .ok (c.vals, c.errs)) with
        | .error e => Except.error e
        | .ok b => match norm with
          | .ctot => .ok (b.1.map (fun q => q * volume), b.2)
          | .celf => .ok (b.1.map (fun q => q / sumf), b.2)
          | .other => Except.error PyErr.valueError) = Except.ok vs ∧ (vs.1.length = ne ∧ vs.2.length = ne) ∧ ∀ e, e < ne →
          vs.1.getD e 0 = voxelValue norm filter volume (c0 :: cs) e ∧
          (weighted (selected filter (c0 :: cs)) (fun c => c.vals.getD e 0) ≠ 0 →
            vs.2.getD e 0 = voxelError filter (c0 :: cs) e) := by
    intro sel sumf hne hsel hs
    obtain ⟨b, hb, hbl, hbe⟩ := hbase sel hne hsel
    rw [hb]
    have hget : ∀ (g : ℚ → ℚ) e, e < ne → (b.1.map g).getD e 0 = g (b.1.getD e 0) := by
      intro g e he
      simp only [List.getD_eq_getElem?_getD]
      rw [List.getElem?_map, List.getElem?_eq_getElem (by omega)]
      rfl
    cases norm with
    | ctot =>
      refine ⟨_, rfl, by simpa using hbl, ?_⟩
      intro e he
      simp only
      rw [hget _ e he]
      obtain ⟨h1, h2⟩ := hbe e he
      refine ⟨?_, ?_⟩
      · simp only [voxelValue]
        rw [h1, hsel]
      · intro h0
        simp only [voxelError]
        rw [← hsel] at h0 ⊢
        exact h2 h0
    | celf =>
      refine ⟨_, rfl, by simpa using hbl, ?_⟩
      intro e he
      simp only
      rw [hget _ e he]
      obtain ⟨h1, h2⟩ := hbe e he
      refine ⟨?_, ?_⟩
      · cases filter with
        | none =>
          simp only at hs
          simp only [voxelValue]
          rw [h1, hsel, hs, div_one]
        | some f =>
          simp only at hs
          simp only [voxelValue]
          rw [h1, hs, hsel]
      · intro h0
        simp only [voxelError]
        rw [← hsel] at h0 ⊢
        exact h2 h0
    | other => exact absurd rfl hn
  unfold cuvVoxel
  simp only
  cases hfl : filter with
  | none =>
    subst hfl
    simp only
    rw [if_neg (by norm_num)]
    obtain ⟨vs, h1, h2, h3⟩ := finish (c0 :: cs) 1 (by simp) rfl rfl
    refine ⟨vs, h1, h2, fun e he => ⟨?_, fun _ => h3 e he⟩⟩
    rintro ⟨f, hf, _⟩
    simp at hf
  | some f =>
    subst hfl
    simp only
    rw [hsum f rfl]
    by_cases h0 : weighted (selected (some f) (c0 :: cs)) (fun _ => 1) = 0
    · rw [if_pos h0]
      refine ⟨_, rfl, by simp [r0.1], fun e he => ⟨fun _ => ?_, fun hc => absurd ⟨f, rfl, h0⟩ hc⟩⟩
      simp only [List.getD_eq_getElem?_getD]
      rw [List.getElem?_replicate]
      split_ifs <;> exact ⟨rfl, rfl⟩
    · rw [if_neg h0]
      have hne : selected (some f) (c0 :: cs) ≠ [] := by
        intro he
        rw [he] at h0
        exact h0 (by simp [weighted])
      obtain ⟨vs, h1, h2, h3⟩ := finish (selected (some f) (c0 :: cs)) _ hne rfl rfl
      refine ⟨vs, h1, h2, fun e he => ⟨?_, fun _ => h3 e he⟩⟩
      rintro ⟨g, _, hg⟩
      exact absurd hg h0

/-- **C74 fails for every file**: without a normalisation (the default of `readMesh`) no voxel can be read, except
those that the filter empties. -/
theorem cuv_default_fails (volume : ℚ) (cells : List VCell) : ∃ e, cuvVoxel .other none volume cells = .error e := by
  cases cells with
  | nil => exact ⟨_, rfl⟩
  | cons c cs =>
    unfold cuvVoxel
    simp only
    rw [if_neg (by norm_num)]
    split
    · exact ⟨_, rfl⟩
    · exact ⟨_, rfl⟩

/-! ### the file -/

/-- the line shows exactly the numbers `qs` (specification) -/
def Line (num : ParseNum) (l : Str) (qs : List ℚ) : Prop := (tokens l).map num = qs.map some

/-- word `i` of the line is the number `q` (specification) -/
def WordIs (num : ParseNum) (l : Str) (i : Nat) (q : ℚ) : Prop := ∃ w, (tokens l)[i]? = some w ∧ num w = some q

/-- the lines of cells all end with a total and its error as third and fourth words, or none has four words (specification) -/
def Totals (num : ParseNum) (hs : List Str) : Prop :=
  (∀ l ∈ hs, (tokens l).length ≠ 4) ∨ ∀ l ∈ hs, (tokens l).length = 4 ∧ (∃ q, WordIs num l 2 q) ∧ ∃ q, WordIs num l 3 q

/-- a voxel in the file: a line with its volume and number of cells as fifth and sixth words, a line per cell
beginning with its number and fraction (and a total with its error, in all of them or in none), and per cell a line of values and one of errors (specification) -/
def IsCuvVoxel (num : ParseNum) (volume : ℚ) (cells : List VCell) (ls : List Str) : Prop :=
  ∃ (head : Str) (hs : List Str) (rs : List (Str × Str)), ls = head :: (hs ++ rs.flatMap (fun p => [p.1, p.2])) ∧
    WordIs num head 4 volume ∧ WordIs num head 5 (cells.length : ℚ) ∧
    List.Forall₂ (fun l (c : VCell) => WordIs num l 0 (c.id : ℚ) ∧ WordIs num l 1 c.frac) hs cells ∧ Totals num hs ∧
    List.Forall₂ (fun (p : Str × Str) (c : VCell) => Line num p.1 c.vals ∧ Line num p.2 c.errs) rs cells

theorem trunc_int (i : ℤ) : trunc (i : ℚ) = i := by
  unfold trunc
  split_ifs <;> simp

theorem trunc_nat (n : Nat) : (trunc (n : ℚ)).toNat = n := by
  have := trunc_int (n : ℤ)
  simp only [Int.cast_natCast] at this
  rw [this]; simp

theorem wordNum_ok {num : ParseNum} {l : Str} {i : Nat} {q : ℚ} (h : WordIs num l i q) : wordNum num l i = .ok q := by
  obtain ⟨w, h1, h2⟩ := h
  unfold wordNum toNum
  rw [h1]
  simp only
  rw [h2]

theorem cuvTotal_some {num : ParseNum} {l : Str} (h : (tokens l).length = 4 ∧ (∃ q, WordIs num l 2 q) ∧ ∃ q, WordIs num l 3 q) :
    cuvTotal num l = .ok 1 := by
  obtain ⟨h4, ⟨q, h2⟩, ⟨r, h3⟩⟩ := h
  unfold cuvTotal
  rw [if_pos h4, wordNum_ok h2]
  simp only
  rw [wordNum_ok h3]

theorem cuvHeads_ok {num : ParseNum} {hs : List Str} {cells : List VCell} {rest : List Str}
    (h : List.Forall₂ (fun l (c : VCell) => WordIs num l 0 (c.id : ℚ) ∧ WordIs num l 1 c.frac) hs cells) (ht : Totals num hs) :
    ∃ t, cuvHeads num cells.length (hs ++ rest) = .ok (cells.map (fun c => (c.id, c.frac)), t, rest) ∧ (t = 0 ∨ t = cells.length) := by
  have key : ∃ k : Nat, (k = 0 ∨ k = 1) ∧ ∀ l ∈ hs, cuvTotal num l = .ok k := by
    rcases ht with ht | ht
    · exact ⟨0, Or.inl rfl, fun l hl => if_neg (ht l hl)⟩
    · exact ⟨1, Or.inr rfl, fun l hl => cuvTotal_some (ht l hl)⟩
  clear ht
  obtain ⟨k, hk, ht⟩ := key
  refine ⟨k * cells.length, ?_, by rcases hk with rfl | rfl <;> simp⟩
  clear hk
  induction h with
  | nil => rfl
  | cons h _ ih =>
    simp only [List.length_cons, cuvHeads, List.cons_append, List.headD_cons, List.tail_cons]
    rw [wordNum_ok h.1]
    simp only
    rw [wordNum_ok h.2]
    simp only
    rw [ht _ (by simp)]
    simp only
    rw [ih (fun l hl => ht l (List.mem_cons_of_mem _ hl)), trunc_int]
    simp only [List.map_cons, Except.ok.injEq, Prod.mk.injEq, true_and, and_true]
    ring

theorem cuvRows_ok {num : ParseNum} {rs : List (Str × Str)} {cells : List VCell} {rest : List Str}
    (h : List.Forall₂ (fun (p : Str × Str) (c : VCell) => Line num p.1 c.vals ∧ Line num p.2 c.errs) rs cells) {t i : Nat}
    (ht : t = 0 ∨ i + cells.length ≤ t) :
    cuvRows num t i (cells.map (fun c => (c.id, c.frac))) (rs.flatMap (fun p => [p.1, p.2]) ++ rest) = .ok (cells, rest) := by
  induction h generalizing i with
  | nil => rfl
  | cons h _ ih =>
    simp only [List.map_cons, cuvRows, List.flatMap_cons, List.cons_append, List.nil_append, List.headD_cons, List.tail_cons]
    rw [rowNums_ok h.1]
    simp only
    rw [rowNums_ok h.2]
    simp only
    rw [List.length_cons] at ht
    rw [if_neg (by omega), ih (by omega)]

theorem cuvElement_ok {num : ParseNum} {volume : ℚ} {cells : List VCell} {ls rest : List Str} (norm : Norm)
    (filter : Option (List ℤ)) (h : IsCuvVoxel num volume cells ls) :
    cuvElement num norm filter (ls ++ rest) =
      match cuvVoxel norm filter volume cells with
      | .error e => .error e
      | .ok v => .ok (v, rest) := by
  obtain ⟨head, hs, rs, rfl, w4, w5, fh, ft, fr⟩ := h
  obtain ⟨t, ht, ht2⟩ := cuvHeads_ok (rest := rs.flatMap (fun p => [p.1, p.2]) ++ rest) fh ft
  unfold cuvElement
  simp only [List.cons_append, List.headD_cons, List.tail_cons, List.append_assoc]
  rw [wordNum_ok w4]
  simp only
  rw [wordNum_ok w5]
  simp only
  rw [trunc_nat, ht]
  simp only
  rw [cuvRows_ok fr (by omega)]
  rfl

theorem cuvLoop_ok {num : ParseNum} (norm : Norm) (hn : norm ≠ .other) (filter : Option (List ℤ)) {ne n : Nat}
    {volume : Nat → ℚ} {cells : Nat → List VCell} {ls rest : List Str}
    (h : Pieces n (fun p => IsCuvVoxel num (volume p) (cells p)) ls) (hv : ∀ p, p < n → VoxelOk ne (cells p)) :
    ∃ vs, cuvLoop num norm filter ne n (ls ++ rest) = .ok vs ∧ vs.length = n ∧
      ∀ p, p < n → ∃ v, cuvVoxel norm filter (volume p) (cells p) = .ok v ∧ vs.getD p [] = List.zip v.1 v.2 := by
  induction n generalizing volume cells ls with
  | zero => exact ⟨[], rfl, rfl, fun p hp => by omega⟩
  | succ n ih =>
    obtain ⟨a, b, rfl, ha, hb⟩ := pieces_succ h
    obtain ⟨v, h1, h2, _⟩ := cuvVoxel_value (hv 0 (by omega)) norm hn filter (volume 0)
    obtain ⟨vs, i1, i2, i3⟩ := ih hb (fun p hp => hv (p + 1) (by omega))
    simp only [cuvLoop, List.append_assoc]
    rw [cuvElement_ok norm filter ha, h1]
    simp only
    rw [fit_ok h2.1 h2.2]
    simp only
    rw [i1]
    refine ⟨List.zip v.1 v.2 :: vs, rfl, by simp [i2], ?_⟩
    intro p hp
    cases p with
    | zero => exact ⟨v, h1, rfl⟩
    | succ p => exact i3 p (by omega)

/-- **C73.** A cell-under-voxel file is read voxel by voxel, the third axis fastest: every voxel of the mesh gets
the value of its own record, in the normalisation asked for. -/
theorem cuv_exact {num : ParseNum} (junk : Data) (norm : Norm) (hn : norm ≠ .other) (filter : Option (List ℤ))
    {ne nx3 nx2 nx1 : Nat} {volume : Nat → ℚ} {cells : Nat → List VCell} {title : Str} {ls rest : List Str}
    (h : Pieces (nx1 * nx2 * nx3) (fun p => IsCuvVoxel num (volume p) (cells p)) ls)
    (hv : ∀ p, p < nx1 * nx2 * nx3 → VoxelOk ne (cells p)) :
    ∃ d, readCuv num junk norm filter ne nx3 nx2 nx1 (title :: (ls ++ rest)) = .ok d ∧
      ∀ e c b a, e < ne → c < nx3 → b < nx2 → a < nx1 →
        let p := (a * nx2 + b) * nx3 + c
        ((∃ f, filter = some f ∧ weighted (selected filter (cells p)) (fun _ => 1) = 0) → d [0, e, c, b, a] = (0, 0)) ∧
        (¬(∃ f, filter = some f ∧ weighted (selected filter (cells p)) (fun _ => 1) = 0) →
          (d [0, e, c, b, a]).1 = voxelValue norm filter (volume p) (cells p) e ∧
          (weighted (selected filter (cells p)) (fun c => c.vals.getD e 0) ≠ 0 →
            (d [0, e, c, b, a]).2 = voxelError filter (cells p) e)) := by
  obtain ⟨vs, h1, h2, h3⟩ := cuvLoop_ok (rest := rest) norm hn filter h hv
  unfold readCuv
  simp only [List.tail_cons]
  rw [h1]
  refine ⟨_, rfl, ?_⟩
  intro e c b a he hc hb ha
  have hp : (a * nx2 + b) * nx3 + c < nx1 * nx2 * nx3 := by
    have e1 : a * nx2 + b < nx1 * nx2 := by
      have := Nat.mul_le_mul_right nx2 (show a + 1 ≤ nx1 by omega)
      rw [Nat.add_mul] at this; omega
    have := Nat.mul_le_mul_right nx3 (show a * nx2 + b + 1 ≤ nx1 * nx2 by omega)
    rw [Nat.add_mul] at this
    omega
  obtain ⟨v, k1, k2, k3⟩ := cuvVoxel_value (hv _ hp) norm hn filter (volume ((a * nx2 + b) * nx3 + c))
  have hvp : vs.getD ((a * nx2 + b) * nx3 + c) [] = List.zip v.1 v.2 := by
    obtain ⟨w, h4, h5⟩ := h3 _ hp
    rw [k1] at h4
    rw [h5, Except.ok.inj h4]
  simp only [voxelData]
  rw [hvp, zip_getD _ _ _ _ (by omega) (by omega)]
  obtain ⟨q1, q2⟩ := k3 e he
  exact ⟨fun h => by rw [(q1 h).1, (q1 h).2], q2⟩

/-- **C75 fails**: totals given in the line of the cell do not become the total bin. When the rows hold fewer
values than the mesh has bins (because the total is apart) the file is refused. -/
theorem cuv_totals_refused {num : ParseNum} (junk : Data) (norm : Norm) (hn : norm ≠ .other) (filter : Option (List ℤ))
    {ne k nx3 nx2 nx1 : Nat} {volume : ℚ} {cells : List VCell} {title : Str} {ls rest : List Str}
    (h : IsCuvVoxel num volume cells ls) (hv : VoxelOk k cells) (h0 : 0 < nx1 * nx2 * nx3) (hk : k ≠ ne) (h1 : k ≠ 1) :
    readCuv num junk norm filter ne nx3 nx2 nx1 (title :: (ls ++ rest)) = .error .valueError := by
  obtain ⟨v, k1, k2, _⟩ := cuvVoxel_value hv norm hn filter volume
  unfold readCuv
  simp only [List.tail_cons]
  cases hN : nx1 * nx2 * nx3 with
  | zero => omega
  | succ n =>
    simp only [cuvLoop]
    rw [cuvElement_ok norm filter h, k1]
    simp only
    unfold fit fitRow
    rw [if_neg (by omega), if_neg (by omega)]

theorem cuvHeads_count {num : ParseNum} {hs rest ls : List Str} {c : List (ℤ × ℚ)} {t : Nat} (h : cuvHeads num hs.length (hs ++ rest) = .ok (c, t, ls)) :
    c.length = hs.length ∧ t = (hs.filter (fun l => decide ((tokens l).length = 4))).length := by
  induction hs generalizing c t ls with
  | nil =>
    simp only [List.length_nil, cuvHeads, Except.ok.injEq, Prod.mk.injEq] at h
    rw [← h.1, ← h.2.1]
    exact ⟨rfl, rfl⟩
  | cons l hs ih =>
    simp only [List.length_cons, cuvHeads, List.cons_append, List.headD_cons, List.tail_cons] at h
    cases h0 : wordNum num l 0 with
    | error e => rw [h0] at h; cases h
    | ok q =>
      rw [h0] at h
      simp only at h
      cases h1 : wordNum num l 1 with
      | error e => rw [h1] at h; cases h
      | ok f =>
        rw [h1] at h
        simp only at h
        cases ht : cuvTotal num l with
        | error e => rw [ht] at h; cases h
        | ok k =>
          rw [ht] at h
          simp only at h
          cases hr : cuvHeads num hs.length (hs ++ rest) with
          | error e => rw [hr] at h; cases h
          | ok r =>
            obtain ⟨c', t', ls'⟩ := r
            rw [hr] at h
            simp only [Except.ok.injEq, Prod.mk.injEq] at h
            obtain ⟨i1, i2⟩ := ih hr
            rw [← h.1, ← h.2.1, List.length_cons, i1, i2]
            refine ⟨rfl, ?_⟩
            have hk : k = if (tokens l).length = 4 then 1 else 0 := by
              unfold cuvTotal at ht
              split_ifs at ht ⊢ with h4
              · cases h2 : wordNum num l 2 with
                | error e => rw [h2] at ht; cases ht
                | ok q =>
                  rw [h2] at ht
                  simp only at ht
                  cases h3 : wordNum num l 3 with
                  | error e => rw [h3] at ht; cases ht
                  | ok q => rw [h3] at ht; exact (Except.ok.inj ht).symm
              · exact (Except.ok.inj ht).symm
            rw [hk, List.filter_cons]
            by_cases h4 : (tokens l).length = 4
            · rw [if_pos h4, if_pos (by simpa using h4), List.length_cons]; omega
            · rw [if_neg h4, if_neg (by simpa using h4)]; omega

theorem cuvRows_missing {num : ParseNum} {t : Nat} (ht : 0 < t) {i : Nat} {hs : List (ℤ × ℚ)} (h : t < i + hs.length) (h0 : hs ≠ []) (ls : List Str) :
    ∃ e, cuvRows num t i hs ls = .error e := by
  induction hs generalizing i ls with
  | nil => exact absurd rfl h0
  | cons c hs ih =>
    simp only [cuvRows]
    cases rowNums num (tokens (ls.headD [])) with
    | error e => exact ⟨e, rfl⟩
    | ok v =>
      simp only
      cases rowNums num (tokens (ls.tail.headD [])) with
      | error e => exact ⟨e, rfl⟩
      | ok r =>
        simp only
        by_cases hi : 0 < t ∧ t ≤ i
        · rw [if_pos hi]; exact ⟨_, rfl⟩
        · rw [if_neg hi]
          rw [List.length_cons] at h
          obtain ⟨e, he⟩ := ih (i := i + 1) (by omega) (by
            rintro rfl
            simp at h
            omega) ls.tail.tail
          rw [he]
          exact ⟨e, rfl⟩

/-- **C75 fails**: a voxel with totals in the lines of some of its cells but not of all is refused, whatever its values. -/
theorem cuv_mixed_totals_refused {num : ParseNum} (norm : Norm) (filter : Option (List ℤ)) {head : Str} {hs rest : List Str}
    (h5 : WordIs num head 5 (hs.length : ℚ)) {l m : Str} (hl : l ∈ hs) (h4 : (tokens l).length = 4) (hm : m ∈ hs) (hn : (tokens m).length ≠ 4) :
    ∃ e, cuvElement num norm filter (head :: (hs ++ rest)) = .error e := by
  unfold cuvElement
  simp only [List.headD_cons, List.tail_cons]
  cases wordNum num head 4 with
  | error e => exact ⟨e, rfl⟩
  | ok v =>
    simp only
    rw [wordNum_ok h5]
    simp only
    rw [trunc_nat]
    cases hr : cuvHeads num hs.length (hs ++ rest) with
    | error e => exact ⟨e, rfl⟩
    | ok r =>
      obtain ⟨c, t, ls⟩ := r
      simp only
      obtain ⟨i1, i2⟩ := cuvHeads_count hr
      have ht : 0 < t := by
        rw [i2]
        exact List.length_pos_of_mem (List.mem_filter.2 ⟨hl, by simpa using h4⟩)
      have ht2 : t < c.length := by
        rw [i1, i2]
        apply lt_of_le_of_ne (List.length_filter_le _ _)
        intro he
        have := List.length_filter_eq_length_iff.1 he m hm
        simp at this
        exact hn this
      obtain ⟨e, he⟩ := cuvRows_missing (num := num) ht (i := 0) (hs := c) (by omega) (by rintro rfl; simp at ht2) ls
      rw [he]
      exact ⟨e, rfl⟩

/-- a voxel of two cells, one with a total -/
example : ∃ e, cuvElement digit .ctot none (["1 0 0 0 5 2", "7 1 3 0", "8 1", "4", "2", "6", "3"].map String.toList) = .error e :=
  cuv_mixed_totals_refused (hs := ["7 1 3 0", "8 1"].map String.toList) (rest := ["4", "2", "6", "3"].map String.toList) .ctot none
    ⟨"2".toList, by decide, by decide +kernel⟩ (l := "7 1 3 0".toList) (by simp) (by decide) (m := "8 1".toList) (by simp) (by decide)

/-- the voxel of the repository's sample file with two cells (fractions 0.276 and 0.724): total and mean -/
example : (cuvVoxel .ctot none 250 [⟨10, 276 / 1000, [2], [1 / 10]⟩, ⟨1, 724 / 1000, [4], [1 / 5]⟩]).toOption =
      some ([(276 / 1000 * 2 + 724 / 1000 * 4) * 250],
        [(276 / 1000 * (2 * (1 / 10)) + 724 / 1000 * (4 * (1 / 5))) / (276 / 1000 * 2 + 724 / 1000 * 4)]) ∧
    (cuvVoxel .celf (some [1]) 250 [⟨10, 276 / 1000, [2], [1 / 10]⟩, ⟨1, 724 / 1000, [4], [1 / 5]⟩]).toOption =
      some ([4], [1 / 5]) ∧
    (cuvVoxel .celf (some [7]) 250 [⟨10, 276 / 1000, [2], [1 / 10]⟩, ⟨1, 724 / 1000, [4], [1 / 5]⟩]).toOption =
      some ([0], [0]) := by
  decide +kernel

example : VoxelOk 1 [⟨10, 276 / 1000, [2], [1 / 10]⟩, ⟨1, 724 / 1000, [4], [1 / 5]⟩] :=
  ⟨by simp, by simp, by simp⟩

/-! ### sources -/

/-- `n` numbers over several lines, ending with the line that completes them (specification) -/
def IsMulti (num : ParseNum) (qs : List ℚ) (ls : List Str) : Prop :=
  (ls.flatMap tokens).map num = qs.map some ∧
  ∀ k, k < ls.length → ((ls.take k).flatMap tokens).length < qs.length

theorem multilines_ok {ls rest acc : List Str} {n : Nat} (hn : acc.length + (ls.flatMap tokens).length = n)
    (hk : ∀ k, k < ls.length → acc.length + ((ls.take k).flatMap tokens).length < n) :
    multilines n (ls ++ rest) acc = .ok (acc ++ ls.flatMap tokens, rest) := by
  induction ls generalizing acc with
  | nil =>
    simp only [List.flatMap_nil, List.length_nil, Nat.add_zero] at hn
    simp only [List.nil_append, List.flatMap_nil, List.append_nil]
    cases rest with
    | nil => simp only [multilines]; rw [if_pos (by omega)]
    | cons l ls => simp only [multilines]; rw [if_pos (by omega)]
  | cons l ls ih =>
    have h0 := hk 0 (by simp)
    simp only [List.take_zero, List.flatMap_nil, List.length_nil, Nat.add_zero] at h0
    simp only [List.cons_append, multilines]
    rw [if_neg (by omega), ih]
    · simp [List.flatMap_cons]
    · simp only [List.flatMap_cons, List.length_append] at hn ⊢; omega
    · intro k hkl
      have := hk (k + 1) (by simpa using hkl)
      simp only [List.take_succ_cons, List.flatMap_cons, List.length_append] at this ⊢
      omega

theorem multinums_ok {num : ParseNum} {qs : List ℚ} {ls rest : List Str} {n : Nat} (h : IsMulti num qs ls)
    (hn : qs.length = n) : multinums num n (ls ++ rest) = .ok (qs, rest) := by
  have hl : (ls.flatMap tokens).length = qs.length := by
    have := congrArg List.length h.1
    simpa using this
  unfold multinums
  rw [multilines_ok (acc := []) (n := n) (by simp [hl, hn]) (fun k hk => by simpa [hn] using h.2 k hk)]
  simp only [List.nil_append]
  rw [rowNums_ok h.1]

/-- a source cell in the file: a line with number, fraction and, optionally, total and its error; the values; the
errors. `cell` is the cell with the total appended when there are several energies. (specification) -/
def IsCdgsCell (num : ParseNum) (ner : Nat) (cell : VCell) (ls : List Str) : Prop :=
  ∃ (head : Str) (vl el : List Str) (vals errs : List ℚ), ls = head :: (vl ++ el) ∧
    WordIs num head 0 (cell.id : ℚ) ∧ WordIs num head 1 cell.frac ∧
    vals.length = ner ∧ errs.length = ner ∧ IsMulti num vals vl ∧ IsMulti num errs el ∧
    ((ner = 1 ∧ cell.vals = vals ∧ cell.errs = errs) ∨
     (ner ≠ 1 ∧ (tokens head).length = 2 ∧ cell.vals = vals ++ [vals.sum] ∧ cell.errs = errs ++ [0]) ∨
     (ner ≠ 1 ∧ (tokens head).length = 3 ∧ ∃ t, WordIs num head 2 t ∧ cell.vals = vals ++ [t] ∧ cell.errs = errs ++ [0]) ∨
     (ner ≠ 1 ∧ 4 ≤ (tokens head).length ∧ ∃ t r, WordIs num head 2 t ∧ WordIs num head 3 r ∧
       cell.vals = vals ++ [t] ∧ cell.errs = errs ++ [r]))

theorem cdgsCell_ok {num : ParseNum} {ner : Nat} {cell : VCell} {ls rest : List Str} (h : IsCdgsCell num ner cell ls) :
    cdgsCell num ner (ls ++ rest) = .ok (cell, rest) := by
  obtain ⟨head, vl, el, vals, errs, rfl, w0, w1, lv, le, mv, me, hc⟩ := h
  obtain ⟨cid, cf, cv, ce⟩ := cell
  simp only at w0 w1 hc
  unfold cdgsCell
  simp only [List.cons_append, List.headD_cons, List.tail_cons, List.append_assoc]
  rw [wordNum_ok w0]
  simp only
  rw [wordNum_ok w1]
  simp only
  rw [multinums_ok mv lv]
  simp only
  rw [multinums_ok me le]
  simp only
  rw [trunc_int]
  rcases hc with ⟨h1, rfl, rfl⟩ | ⟨h1, h2, rfl, rfl⟩ | ⟨h1, h2, t, wt, rfl, rfl⟩ | ⟨h1, h2, t, r, wt, wr, rfl, rfl⟩
  · rw [if_pos h1]
  · rw [if_neg h1]
    unfold cdgsTotal
    rw [if_pos h2]
  · rw [if_neg h1]
    unfold cdgsTotal
    rw [if_neg (by omega), if_pos h2, wordNum_ok wt]
  · rw [if_neg h1]
    unfold cdgsTotal
    rw [if_neg (by omega), if_neg (by omega), wordNum_ok wt]
    simp only
    rw [wordNum_ok wr]

/-- the line begins with the voxel number and ends with volume and number of cells (specification) -/
def CdgsHead (num : ParseNum) (l : Str) (index : Nat) (n : Nat) : Prop :=
  ∃ w ws v k, tokens l = w :: ws ++ [v, k] ∧ w ≠ "end_source_data".toList ∧ num w = some (index : ℚ) ∧
    (∃ q, num v = some q) ∧ num k = some (n : ℚ)

/-- a source voxel in the file (specification) -/
def IsCdgsVoxel (num : ParseNum) (ner : Nat) (index : Nat) (cells : List VCell) (ls : List Str) : Prop :=
  ∃ head B, ls = head :: B ∧ CdgsHead num head index cells.length ∧
    Pieces cells.length (fun i => IsCdgsCell num ner (cells.getD i ⟨0, 0, [], []⟩)) B

theorem cdgsCells_ok {num : ParseNum} {ner : Nat} {cells : List VCell} {ls rest : List Str}
    (h : Pieces cells.length (fun i => IsCdgsCell num ner (cells.getD i ⟨0, 0, [], []⟩)) ls) :
    cdgsCells num ner cells.length (ls ++ rest) = .ok (cells, rest) := by
  induction cells generalizing ls with
  | nil => rw [pieces_zero h]; rfl
  | cons c cs ih =>
    obtain ⟨a, b, rfl, ha, hb⟩ := pieces_succ h
    simp only [List.getD_cons_zero, List.getD_cons_succ] at ha hb
    simp only [List.length_cons, cdgsCells, List.append_assoc]
    rw [cdgsCell_ok ha]
    simp only
    rw [ih hb]

/-- value and error of energy `e` of a source voxel: those of its cell, or the weighted means (specification) -/
def sourceAt (cells : List VCell) (e : Nat) : ℚ × ℚ :=
  match cells with
  | [c] => (c.vals.getD e 0, c.errs.getD e 0)
  | _ => (weighted cells (fun c => c.vals.getD e 0),
      if weighted cells (fun c => c.vals.getD e 0) = 0 then 0 else
        weighted cells (fun c => c.vals.getD e 0 * c.errs.getD e 0) / weighted cells (fun c => c.vals.getD e 0))

/-- a source voxel that can be read (specification) -/
structure SourceOk (ne : Nat) (cells : List VCell) : Prop where
  filled : weighted cells (fun _ => 1) ≠ 0
  rows : ∀ c ∈ cells, c.vals.length = ne ∧ c.errs.length = ne

theorem cdgsVoxel_ok {ne : Nat} {cells : List VCell} (h : SourceOk ne cells) :
    ∃ v, cdgsVoxel cells = .ok v ∧ (v.1.length = ne ∧ v.2.length = ne) ∧ ∀ e, e < ne → (v.1.getD e 0, v.2.getD e 0) = sourceAt cells e := by
  unfold cdgsVoxel
  have hf := h.filled
  rw [weighted_one] at hf
  rw [if_neg hf]
  cases cells with
  | nil => exact absurd (by simp [weighted]) h.filled
  | cons c cs =>
    cases cs with
    | nil =>
      have hr := h.rows c (by simp)
      rw [if_neg (by simp)]
      exact ⟨_, rfl, hr, fun e he => rfl⟩
    | cons c2 cs =>
      rw [if_pos (by simp), meanValue_ok (by simp) h.rows]
      refine ⟨_, rfl, by simp, fun e he => ?_⟩
      simp only
      rw [getD_range_map _ _ _ _ he, getD_range_map _ _ _ _ he, meanVal_eq h.rows he, meanErr_eq h.rows he]
      rfl

/-- **C76 fails**: a voxel whose cells have zero fractions makes the reading fail. -/
theorem cdgs_zero_fraction (cells : List VCell) (h : weighted cells (fun _ => 1) = 0) :
    cdgsVoxel cells = .error .valueError := by
  unfold cdgsVoxel
  rw [weighted_one] at h
  rw [if_pos h]

theorem cdgsElement_ok {num : ParseNum} {ner index : Nat} {cells : List VCell} {ls rest : List Str} {v : List ℚ × List ℚ}
    (h : IsCdgsVoxel num ner index cells ls) (hv : cdgsVoxel cells = .ok v) :
    cdgsElement num ner (ls ++ rest) = .ok (some ((index : ℤ), v), rest) := by
  obtain ⟨head, B, rfl, ⟨w, ws, vw, k, ht, hne, hw, ⟨q, hq⟩, hk⟩, hB⟩ := h
  unfold cdgsElement
  simp only [List.cons_append, List.headD_cons, List.tail_cons]
  rw [ht]
  simp only [List.cons_append]
  rw [if_neg hne]
  unfold toNum
  rw [hw]
  simp only
  have f2 : fromEnd (w :: (ws ++ [vw, k])) 2 = .ok vw := by
    unfold fromEnd; simp
  have f1 : fromEnd (w :: (ws ++ [vw, k])) 1 = .ok k := by
    unfold fromEnd; simp
  rw [f2]
  simp only
  rw [hq]
  simp only
  rw [f1]
  simp only
  rw [hk]
  simp only
  rw [trunc_nat, cdgsCells_ok hB]
  simp only
  rw [hv]
  simp only
  have := trunc_int (index : ℤ)
  simp only [Int.cast_natCast] at this
  rw [this]

theorem cdgsElement_end {num : ParseNum} {ner : Nat} {l : Str} {rest : List Str} {ws : List Str}
    (h : tokens l = "end_source_data".toList :: ws) : cdgsElement num ner (l :: rest) = .ok (none, rest) := by
  unfold cdgsElement
  simp only [List.headD_cons, List.tail_cons]
  rw [h]
  simp only
  rw [if_pos trivial]

/-- the voxels listed in the file one after the other, then the end line (specification) -/
inductive Source (num : ParseNum) (ner ne : Nat) : List (Nat × List VCell) → List Str → Prop
  | done (l : Str) (ws rest : List Str) (h : tokens l = "end_source_data".toList :: ws) : Source num ner ne [] (l :: rest)
  | voxel (index : Nat) (cells : List VCell) (vs : List (Nat × List VCell)) (a b : List Str)
      (h : IsCdgsVoxel num ner index cells a) (ok : SourceOk ne cells) (t : Source num ner ne vs b) :
      Source num ner ne ((index, cells) :: vs) (a ++ b)

/-- value listed for voxel number `p` (from one) (specification) -/
def listed (vs : List (Nat × List VCell)) (p e : Nat) : ℚ × ℚ :=
  match vs.find? (fun x => decide (x.1 = p)) with
  | none => (0, 0)
  | some x => sourceAt x.2 e

theorem replicate_getD (n e : Nat) : (List.replicate n ((0, 0) : ℚ × ℚ)).getD e (0, 0) = (0, 0) := by
  simp only [List.getD_eq_getElem?_getD, List.getElem?_replicate]
  split_ifs <;> rfl

theorem cdgsLoop_ended {num : ParseNum} {ne n i : Nat} {ls : List Str} :
    cdgsLoop num ne n i .ended ls = .ok (List.replicate n (List.replicate ne (0, 0))) := by
  induction n generalizing i with
  | zero => rfl
  | succ n ih =>
    simp only [cdgsLoop, cdgsPending]
    rw [ih]
    rfl

/-- the loop with a voxel in hand or about to read one -/
theorem cdgsLoop_ok {num : ParseNum} {ne : Nat} (n i : Nat) (vs : List (Nat × List VCell))
    (hs : vs.Pairwise (fun x y => x.1 < y.1)) (hi : ∀ x ∈ vs, i < x.1) :
    (∀ ls, Source num (if ne = 1 then ne else ne - 1) ne vs ls →
      ∃ r, cdgsLoop num ne n i .next ls = .ok r ∧ r.length = n ∧
        ∀ p e, p < n → e < ne → (r.getD p []).getD e (0, 0) = listed vs (i + p + 1) e) ∧
    (∀ x xs ls v, vs = x :: xs → Source num (if ne = 1 then ne else ne - 1) ne xs ls → SourceOk ne x.2 →
      cdgsVoxel x.2 = .ok v →
      ∃ r, cdgsLoop num ne n i (.have_ ((x.1 : ℤ) - 1) v) ls = .ok r ∧ r.length = n ∧
        ∀ p e, p < n → e < ne → (r.getD p []).getD e (0, 0) = listed vs (i + p + 1) e) := by
  induction n generalizing i vs with
  | zero =>
    exact ⟨fun ls _ => ⟨[], rfl, rfl, fun p e hp => by omega⟩, fun x xs ls v _ _ _ _ => ⟨[], rfl, rfl, fun p e hp => by omega⟩⟩
  | succ n ih =>
    have second : ∀ x xs ls v, vs = x :: xs → Source num (if ne = 1 then ne else ne - 1) ne xs ls → SourceOk ne x.2 →
        cdgsVoxel x.2 = .ok v →
        ∃ r, cdgsLoop num ne (n + 1) i (.have_ ((x.1 : ℤ) - 1) v) ls = .ok r ∧ r.length = n + 1 ∧
          ∀ p e, p < n + 1 → e < ne → (r.getD p []).getD e (0, 0) = listed vs (i + p + 1) e := by
      intro x xs ls v hvs hsrc hok hv
      obtain ⟨v', q1, q2, q3⟩ := cdgsVoxel_ok hok
      rw [hv] at q1
      simp only [Except.ok.injEq] at q1
      subst q1
      have hx := hi x (by rw [hvs]; simp)
      rw [hvs, List.pairwise_cons] at hs
      simp only [cdgsLoop, cdgsPending]
      by_cases he : (i : ℤ) = (x.1 : ℤ) - 1
      · rw [if_pos he]
        rw [fit_ok q2.1 q2.2]
        simp only
        obtain ⟨r, r1, r2, r3⟩ := (ih (i + 1) xs hs.2 (fun y hy => by have := hs.1 y hy; omega)).1 ls hsrc
        rw [r1]
        refine ⟨List.zip v.1 v.2 :: r, rfl, by simp [r2], ?_⟩
        intro p e hp hee
        cases p with
        | zero =>
          simp only [List.getD_cons_zero]
          rw [zip_getD _ _ _ _ (by omega) (by omega), q3 e hee]
          unfold listed
          rw [hvs, List.find?_cons, decide_eq_true (by omega : x.1 = i + 0 + 1)]
        | succ p =>
          simp only [List.getD_cons_succ]
          rw [r3 p e (by omega) hee]
          unfold listed
          rw [hvs, List.find?_cons, decide_eq_false (by omega : ¬ x.1 = i + (p + 1) + 1)]
          rw [show i + 1 + p + 1 = i + (p + 1) + 1 by omega]
      · rw [if_neg he]
        obtain ⟨r, r1, r2, r3⟩ := (ih (i + 1) vs (by rw [hvs]; exact List.pairwise_cons.2 hs) (fun y hy => by
          rw [hvs] at hy
          rcases List.mem_cons.1 hy with rfl | hy
          · omega
          · have := hs.1 y hy; omega)).2 x xs ls v hvs hsrc hok hv
        rw [r1]
        refine ⟨List.replicate ne (0, 0) :: r, rfl, by simp [r2], ?_⟩
        intro p e hp hee
        cases p with
        | zero =>
          simp only [List.getD_cons_zero]
          rw [replicate_getD]
          unfold listed
          have : vs.find? (fun y => decide (y.1 = i + 0 + 1)) = none := by
            rw [List.find?_eq_none]
            intro y hy
            rw [hvs] at hy
            simp only [decide_eq_true_eq]
            rcases List.mem_cons.1 hy with rfl | hy
            · omega
            · have := hs.1 y hy; omega
          rw [this]
        | succ p =>
          simp only [List.getD_cons_succ]
          rw [r3 p e (by omega) hee, show i + 1 + p + 1 = i + (p + 1) + 1 by omega]
    refine ⟨?_, second⟩
    intro ls hsrc
    cases hsrc with
    | done l ws rest h =>
      simp only [cdgsLoop, cdgsPending]
      rw [cdgsElement_end h]
      simp only
      rw [cdgsLoop_ended]
      refine ⟨_, rfl, by simp, ?_⟩
      intro p e hp he
      rw [show (List.replicate ne ((0, 0) : ℚ × ℚ) :: List.replicate n (List.replicate ne (0, 0))) =
        List.replicate (n + 1) (List.replicate ne (0, 0)) from rfl]
      have : (List.replicate (n + 1) (List.replicate ne ((0, 0) : ℚ × ℚ))).getD p [] = List.replicate ne (0, 0) := by
        simp only [List.getD_eq_getElem?_getD, List.getElem?_replicate]
        rw [if_pos hp]; rfl
      rw [this, replicate_getD]
      rfl
    | voxel index cells vs' a b h ok t =>
      obtain ⟨v, q1, _, _⟩ := cdgsVoxel_ok ok
      obtain ⟨r, r1, r2, r3⟩ := second (index, cells) vs' b v rfl t ok q1
      refine ⟨r, ?_, r2, r3⟩
      rw [← r1]
      simp only [cdgsLoop, cdgsPending]
      rw [cdgsElement_ok h q1]

/-- **C76.** A source file that lists some voxels in ascending order gives those voxels their values and zero to
all the others; voxel numbers start at one and go through the third axis fastest. -/
theorem cdgs_exact_partial {num : ParseNum} (junk : Data) {ne nx3 nx2 nx1 : Nat} {vs : List (Nat × List VCell)}
    {head ls : List Str} (hs : vs.Pairwise (fun x y => x.1 < y.1)) (hpos : ∀ x ∈ vs, 0 < x.1)
    (h : Source num (if ne = 1 then ne else ne - 1) ne vs ls) :
    ∃ d, readCdgs num junk head.length ne nx3 nx2 nx1 (head ++ ls) = .ok d ∧
      ∀ e c b a, e < ne → c < nx3 → b < nx2 → a < nx1 →
        d [0, e, c, b, a] = listed vs ((a * nx2 + b) * nx3 + c + 1) e := by
  obtain ⟨r, r1, r2, r3⟩ := (cdgsLoop_ok (nx1 * nx2 * nx3) 0 vs hs hpos).1 ls h
  unfold readCdgs
  rw [List.drop_left, r1]
  refine ⟨_, rfl, ?_⟩
  intro e c b a he hc hb ha
  have hp : (a * nx2 + b) * nx3 + c < nx1 * nx2 * nx3 := by
    have e1 : a * nx2 + b < nx1 * nx2 := by
      have := Nat.mul_le_mul_right nx2 (show a + 1 ≤ nx1 by omega)
      rw [Nat.add_mul] at this; omega
    have := Nat.mul_le_mul_right nx3 (show a * nx2 + b + 1 ≤ nx1 * nx2 by omega)
    rw [Nat.add_mul] at this
    omega
  simp only [voxelData]
  rw [r3 _ e hp he, Nat.zero_add]

/-- two voxels of four, the first and the third, one energy -/
example : (readCdgs digit (fun _ => (9, 9)) 1 1 4 1 1
    (["source_data", "1 5 1", "7 1", "4", "2", "3 5 1", "8 1", "6", "3", "end_source_data"].map String.toList)).toOption.map
    (fun d => [d [0, 0, 0, 0, 0], d [0, 0, 1, 0, 0], d [0, 0, 2, 0, 0], d [0, 0, 3, 0, 0]]) =
    some [(4, 2), (0, 0), (6, 3), (0, 0)] := by
  decide +kernel

/-- out of order: the second record is never placed, without any message -/
example : (readCdgs digit (fun _ => (9, 9)) 1 1 4 1 1
    (["source_data", "3 5 1", "7 1", "4", "2", "1 5 1", "8 1", "6", "3", "end_source_data"].map String.toList)).toOption.map
    (fun d => [d [0, 0, 0, 0, 0], d [0, 0, 1, 0, 0], d [0, 0, 2, 0, 0], d [0, 0, 3, 0, 0]]) =
    some [(0, 0), (0, 0), (4, 2), (0, 0)] := by
  decide +kernel

end F4Enix.Mesh
