import Verif.Out.MeshtalCuvProps
import Verif.Base.Cut
/-!
# Voxels of cell-under-voxel files that were cut off (C211)
-/
namespace F4Enix.Mesh
open F4Enix

/-- what is left of the line that was cut (proof) -/
def leftOver (part : Str) : List Str := if part = [] then [] else [part]

theorem leftOver_tail (part : Str) : (leftOver part).tail = [] := by
  unfold leftOver
  split_ifs <;> rfl

theorem leftOver_length (part : Str) : (leftOver part).length ≤ 1 := by
  unfold leftOver
  split_ifs <;> simp

/-- cells read from a voxel that was cut: those of the voxel, but each with its values or without errors (proof) -/
def CutCell (c' c : VCell) : Prop := c'.id = c.id ∧ c'.frac = c.frac ∧ (c'.vals = c.vals ∨ c'.errs = [])

theorem fitRow_pos {ne : Nat} (h : 0 < ne) {v r : List ℚ} (hf : fitRow ne v = .ok r) : v ≠ [] ∧ r.length = ne := by
  unfold fitRow at hf
  split_ifs at hf with h1 h2
  · rw [← Except.ok.inj hf]
    exact ⟨fun h0 => by rw [h0] at h1; simp at h1; omega, h1⟩
  · rw [← Except.ok.inj hf]
    exact ⟨fun h0 => by rw [h0] at h2; simp at h2, by simp⟩

theorem fit_both {ne : Nat} {p : List ℚ × List ℚ} {row : List (ℚ × ℚ)} (h : fit ne p = .ok row) :
    ∃ v r, fitRow ne p.1 = .ok v ∧ fitRow ne p.2 = .ok r ∧ row = List.zip v r := by
  unfold fit at h
  cases hv : fitRow ne p.1 with
  | error e => rw [hv] at h; cases h
  | ok v =>
    rw [hv] at h
    simp only at h
    cases hr : fitRow ne p.2 with
    | error e => rw [hr] at h; cases h
    | ok r => rw [hr] at h; exact ⟨v, r, rfl, rfl, (Except.ok.inj h).symm⟩

theorem cut_selected {cells' cells : List VCell} (h : List.Forall₂ CutCell cells' cells) (filter : Option (List ℤ)) :
    List.Forall₂ CutCell (selected filter cells') (selected filter cells) := by
  cases filter with
  | none => exact h
  | some f =>
    induction h with
    | nil => exact List.Forall₂.nil
    | cons h t ih =>
      simp only [selected, List.filter_cons, h.1] at ih ⊢
      split_ifs
      · exact List.Forall₂.cons h ih
      · exact ih

theorem cut_fracs {cells' cells : List VCell} (h : List.Forall₂ CutCell cells' cells) :
    (cells'.map (fun c => c.frac)).sum = (cells.map (fun c => c.frac)).sum := by
  induction h with
  | nil => rfl
  | cons h t ih => rw [List.map_cons, List.map_cons, List.sum_cons, List.sum_cons, ih, h.2.1]

theorem cut_same {cells' cells : List VCell} (h : List.Forall₂ CutCell cells' cells) (he : ∀ c ∈ cells', c.errs ≠ []) (e : Nat) :
    meanVal cells' e = meanVal cells e := by
  induction h with
  | nil => rfl
  | cons h t ih =>
    have hv := h.2.2.resolve_right (he _ (by simp))
    unfold meanVal at ih ⊢
    rw [List.map_cons, List.map_cons, List.sum_cons, List.sum_cons, ih (fun c hc => he c (List.mem_cons_of_mem _ hc)), h.2.1, hv]

theorem cut_lengths {cells' cells : List VCell} (h : List.Forall₂ CutCell cells' cells) (he : ∀ c ∈ cells', c.errs ≠ []) {ne : Nat}
    (hr : ∀ c ∈ cells, c.vals.length = ne) : ∀ c ∈ cells', c.vals.length = ne := by
  induction h with
  | nil => simp
  | cons h t ih =>
    intro c hc
    rcases List.mem_cons.1 hc with rfl | hc
    · rw [h.2.2.resolve_right (he _ (by simp))]
      exact hr _ (by simp)
    · exact ih (fun c hc => he c (List.mem_cons_of_mem _ hc)) (fun c hc => hr c (List.mem_cons_of_mem _ hc)) c hc

/-- values of one energy before normalisation: what `_get_cuv_element` has after the mean -/
theorem cut_base {ne : Nat} (hne : 0 < ne) {cells' cells : List VCell} (h : List.Forall₂ CutCell cells' cells) {p : List ℚ × List ℚ} {r : List ℚ}
    (hm : meanValue cells' = .ok p) (hf : fitRow ne p.2 = .ok r) (hr : ∀ c ∈ cells, c.vals.length = ne ∧ c.errs.length = ne) :
    ∃ q, meanValue cells = .ok q ∧ p.1 = q.1 := by
  cases h with
  | nil => cases hm
  | @cons c' c cs' cs hc t =>
    have h0 : (c :: cs) ≠ [] := by simp
    refine ⟨_, meanValue_ok h0 hr, ?_⟩
    simp only [meanValue] at hm
    by_cases hcond : (cs'.all fun d => decide (d.vals.length = c'.vals.length ∧ d.errs.length = c'.errs.length)) = true ∧
        (c'.errs.length = c'.vals.length ∨ c'.errs.length = 1 ∨ c'.vals.length = 1)
    swap
    · rw [if_neg hcond] at hm
      cases hm
    rw [if_pos hcond] at hm
    obtain ⟨hall, hlen⟩ := hcond
    rw [List.all_eq_true] at hall
    have hp2 := (fitRow_pos hne hf).1
    rw [← Except.ok.inj hm] at hp2 ⊢
    have he0 : c'.errs ≠ [] := by
      intro h0
      apply hp2
      simp only [h0, List.length_nil] at hlen ⊢
      rcases hlen with hl | hl | hl
      · rw [← hl]; split_ifs <;> rfl
      · cases hl
      · rw [if_pos hl]; rfl
    have he : ∀ d ∈ c' :: cs', d.errs ≠ [] := by
      intro d hd
      rcases List.mem_cons.1 hd with rfl | hd
      · exact he0
      · have := hall d hd
        simp only [decide_eq_true_eq] at this
        intro h1
        rw [h1] at this
        exact he0 (List.length_eq_zero_iff.1 (by rw [← this.2]; rfl))
    have hl := cut_lengths (List.Forall₂.cons hc t) he (fun c hc => (hr c hc).1) c' (by simp)
    simp only
    rw [hl]
    apply List.map_congr_left
    intro e _
    exact cut_same (List.Forall₂.cons hc t) he e

/-- the fraction the selected cells fill (proof) -/
def filledBy (filter : Option (List ℤ)) (cs : List VCell) : ℚ :=
  match filter with
  | none => 1
  | some _ => ((selected filter cs).map (fun c => c.frac)).sum

/-- values and errors before the normalisation (proof) -/
def rawOf (filter : Option (List ℤ)) (cs : List VCell) : Except PyErr (List ℚ × List ℚ) :=
  if 1 < cs.length then meanValue (selected filter cs)
  else match selected filter cs with
    | [] => .error .indexError
    | c :: _ => .ok (c.vals, c.errs)

theorem unfolded (norm : Norm) (filter : Option (List ℤ)) (volume : ℚ) {cs : List VCell} (h0 : cs ≠ []) : cuvVoxel norm filter volume cs =
    (if filledBy filter cs = 0 then
      .ok (List.replicate (cs.headD ⟨0, 0, [], []⟩).vals.length 0, List.replicate (cs.headD ⟨0, 0, [], []⟩).vals.length 0)
    else
      match rawOf filter cs with
      | .error e => .error e
      | .ok b =>
        match norm with
        | .ctot => .ok (b.1.map (fun q => q * volume), b.2)
        | .celf => .ok (b.1.map (fun q => q / filledBy filter cs), b.2)
        | .other => .error .valueError) := by
  cases cs with
  | nil => exact absurd rfl h0
  | cons c cs => cases filter <;> rfl

/-- the values of a voxel that was cut and is read all the same are those of the whole voxel -/
theorem cut_voxel {ne : Nat} (hne : 0 < ne) {cells' cells : List VCell} (h : List.Forall₂ CutCell cells' cells) (hv : VoxelOk ne cells) {norm : Norm}
    (hn : norm ≠ .other) {filter : Option (List ℤ)} {volume : ℚ} {p : List ℚ × List ℚ} {row : List (ℚ × ℚ)}
    (hp : cuvVoxel norm filter volume cells' = .ok p) (hf : fit ne p = .ok row) :
    ∃ q, cuvVoxel norm filter volume cells = .ok q ∧ row.length = ne ∧ ∀ e, e < ne → (row.getD e (0, 0)).1 = q.1.getD e 0 := by
  obtain ⟨v, r, f1, f2, rfl⟩ := fit_both hf
  obtain ⟨q, hq, hq1, _⟩ := cuvVoxel_value hv norm hn filter volume
  have lv := (fitRow_pos hne f1).2
  have lr := (fitRow_pos hne f2).2
  refine ⟨q, hq, by rw [List.length_zip, lv, lr]; simp, ?_⟩
  suffices hs : v = q.1 by
    intro e he
    rw [zip_getD _ _ _ _ (by omega) (by omega), hs]
  have hsel := cut_selected h filter
  have hsum : filledBy filter cells' =
      filledBy filter cells := by
    cases filter with
    | none => rfl
    | some f => exact cut_fracs hsel
  have hlen := h.length_eq
  have hr : ∀ c ∈ selected filter cells, c.vals.length = ne ∧ c.errs.length = ne := by
    intro c hc
    apply hv.rows
    cases filter with
    | none => exact hc
    | some f => exact (List.mem_filter.1 hc).1
  have hne' : cells' ≠ [] := by
    intro h0
    apply hv.nonempty
    rw [h0] at hlen
    exact List.length_eq_zero_iff.1 hlen.symm
  rw [unfolded _ _ _ hne'] at hp
  rw [unfolded _ _ _ hv.nonempty] at hq
  rw [hsum] at hp
  by_cases h0 : filledBy filter cells = 0
  · rw [if_pos h0] at hp hq
    have e1 := Except.ok.inj hp
    have e2 := Except.ok.inj hq
    rw [← e2] at hq1 ⊢
    rw [← e1] at f1
    simp only [List.length_replicate] at hq1
    simp only
    rw [hq1.1]
    unfold fitRow at f1
    split_ifs at f1 with g1 g2
    · rw [List.length_replicate] at g1
      rw [← Except.ok.inj f1, g1]
    · rw [List.length_replicate] at g2
      rw [← Except.ok.inj f1]
      simp only
      rw [g2]
      rfl
  · rw [if_neg h0] at hp hq
    have hbase : ∀ b r', rawOf filter cells' = .ok b → fitRow ne b.2 = .ok r' →
        ∃ b', rawOf filter cells = .ok b' ∧ b.1 = b'.1 := by
      intro b r' hb hbf
      unfold rawOf at hb ⊢
      rw [hlen] at hb
      by_cases h1 : 1 < cells.length
      · rw [if_pos h1] at hb ⊢
        exact cut_base hne hsel hb hbf hr
      · rw [if_neg h1] at hb ⊢
        revert hb
        generalize selected filter cells' = sel' at hsel
        generalize selected filter cells = sel at hsel
        cases hsel with
        | nil => intro hb; cases hb
        | @cons c' c cs' cs hc t =>
          intro hb
          simp only at hb ⊢
          refine ⟨_, rfl, ?_⟩
          rw [← Except.ok.inj hb] at hbf ⊢
          exact hc.2.2.resolve_right (fitRow_pos hne hbf).1
    cases hb : rawOf filter cells' with
    | error e => rw [hb] at hp; cases hp
    | ok b =>
      rw [hb] at hp
      have hb2 : b.2 = p.2 := by
        cases norm with
        | ctot => rw [← Except.ok.inj hp]
        | celf => rw [← Except.ok.inj hp]
        | other => exact absurd rfl hn
      obtain ⟨b', h1, h2⟩ := hbase b r hb (by rw [hb2]; exact f2)
      rw [h1] at hq
      have hpq : p.1 = q.1 := by
        cases norm with
        | ctot => rw [← Except.ok.inj hp, ← Except.ok.inj hq, h2]
        | celf => rw [← Except.ok.inj hp, ← Except.ok.inj hq, h2]
        | other => exact absurd rfl hn
      rw [hpq] at f1
      unfold fitRow at f1
      rw [if_pos hq1.1] at f1
      exact (Except.ok.inj f1).symm

/-! ### the lines of a voxel -/

theorem rowNums_nil (num : ParseNum) : rowNums num (tokens []) = .ok [] := rfl

/-- the rows of cells behind the end of the file -/
theorem rows_nil {num : ParseNum} {t i : Nat} {cells cells' : List VCell} {rest : List Str}
    (h : cuvRows num t i (cells.map (fun c => (c.id, c.frac))) [] = .ok (cells', rest)) : List.Forall₂ CutCell cells' cells := by
  induction cells generalizing i cells' rest with
  | nil =>
    simp only [List.map_nil, cuvRows, Except.ok.injEq, Prod.mk.injEq] at h
    rw [← h.1]
    exact List.Forall₂.nil
  | cons c cells ih =>
    simp only [List.map_cons, cuvRows, List.headD_nil, List.tail_nil] at h
    rw [rowNums_nil] at h
    simp only at h
    by_cases hi : 0 < t ∧ t ≤ i
    · rw [if_pos hi] at h; cases h
    · rw [if_neg hi] at h
      cases hr : cuvRows num t (i + 1) (cells.map (fun c => (c.id, c.frac))) [] with
      | error e => rw [hr] at h; cases h
      | ok p =>
        obtain ⟨cs, rs⟩ := p
        rw [hr] at h
        simp only [Except.ok.injEq, Prod.mk.injEq] at h
        rw [← h.1]
        exact List.Forall₂.cons ⟨rfl, rfl, Or.inr rfl⟩ (ih hr)

theorem rows_cut {num : ParseNum} {rs : List (Str × Str)} {cells : List VCell}
    (h : List.Forall₂ (fun (p : Str × Str) (c : VCell) => Line num p.1 c.vals ∧ Line num p.2 c.errs) rs cells) {u v : List Str} {l part : Str}
    (he : rs.flatMap (fun p => [p.1, p.2]) = u ++ l :: v) {t i : Nat} {cells' : List VCell} {rest : List Str}
    (hr : cuvRows num t i (cells.map (fun c => (c.id, c.frac))) (u ++ leftOver part) = .ok (cells', rest)) : List.Forall₂ CutCell cells' cells := by
  induction h generalizing u i cells' rest with
  | nil => simp at he
  | @cons p c rs cells hp t' ih =>
    simp only [List.flatMap_cons, List.cons_append, List.nil_append] at he
    simp only [List.map_cons, cuvRows] at hr
    have key : ∀ (ls : List Str) (a b : List ℚ), rowNums num (tokens ((u ++ leftOver part).headD [])) = .ok a →
        rowNums num (tokens ((u ++ leftOver part).tail.headD [])) = .ok b → (a = c.vals ∨ b = []) → (u ++ leftOver part).tail.tail = ls →
        (∀ cs rs, cuvRows num t (i + 1) (cells.map (fun c => (c.id, c.frac))) ls = .ok (cs, rs) → List.Forall₂ CutCell cs cells) →
        List.Forall₂ CutCell cells' (c :: cells) := by
      intro ls a b ha hb hab hls hrec
      rw [ha] at hr
      simp only at hr
      rw [hb] at hr
      simp only at hr
      by_cases hi : 0 < t ∧ t ≤ i
      · rw [if_pos hi] at hr; cases hr
      · rw [if_neg hi, hls] at hr
        cases hx : cuvRows num t (i + 1) (cells.map (fun c => (c.id, c.frac))) ls with
        | error e => rw [hx] at hr; cases hr
        | ok q =>
          obtain ⟨cs, rs'⟩ := q
          rw [hx] at hr
          simp only [Except.ok.injEq, Prod.mk.injEq] at hr
          rw [← hr.1]
          exact List.Forall₂.cons ⟨rfl, rfl, hab⟩ (hrec cs rs' hx)
    cases u with
    | nil =>
      rw [List.nil_append] at hr key
      cases ha : rowNums num (tokens ((leftOver part).headD [])) with
      | error e => rw [ha] at hr; cases hr
      | ok a =>
        refine key [] a [] ha (by rw [leftOver_tail]; exact rowNums_nil num) (Or.inr rfl) (by rw [leftOver_tail]; rfl) (fun cs rs' hx => rows_nil hx)
    | cons m u =>
      have he1 := List.cons.inj (he.trans (List.cons_append ..))
      cases u with
      | nil =>
        have ha : rowNums num (tokens (([m] ++ leftOver part).headD [])) = .ok c.vals := by
          rw [← he1.1]
          exact rowNums_ok hp.1
        cases hb : rowNums num (tokens (([m] ++ leftOver part).tail.headD [])) with
        | error e => rw [ha] at hr; simp only at hr; rw [hb] at hr; cases hr
        | ok b =>
          refine key [] c.vals b ha hb (Or.inl rfl) ?_ (fun cs rs' hx => rows_nil hx)
          rw [List.cons_append, List.nil_append, List.tail_cons, leftOver_tail]
      | cons m' u =>
        have he2 := List.cons.inj (he1.2.trans (List.cons_append ..))
        refine key (u ++ leftOver part) c.vals c.errs ?_ ?_ (Or.inl rfl) rfl (fun cs rs' hx => ih he2.2 hx)
        · rw [← he1.1]; exact rowNums_ok hp.1
        · rw [← he2.1]; exact rowNums_ok hp.2

/-- reading the lines of cells needs as many lines -/
theorem heads_lines {num : ParseNum} {n : Nat} {ls : List Str} {r : List (ℤ × ℚ) × Nat × List Str} (h : cuvHeads num n ls = .ok r) :
    n ≤ ls.length ∧ r.1.length = n ∧ r.2.2 = ls.drop n := by
  induction n generalizing ls r with
  | zero =>
    simp only [cuvHeads, Except.ok.injEq] at h
    rw [← h]
    exact ⟨by omega, rfl, rfl⟩
  | succ n ih =>
    simp only [cuvHeads] at h
    cases ls with
    | nil => cases h
    | cons l ls =>
      simp only [List.headD_cons, List.tail_cons] at h
      cases h0 : wordNum num l 0 with
      | error e => rw [h0] at h; cases h
      | ok q =>
        rw [h0] at h
        simp only at h
        cases h1 : wordNum num l 1 with
        | error e => rw [h1] at h; cases h
        | ok f =>
          rw [h1] at h
          simp only at h
          cases ht : cuvTotal num l with
          | error e => rw [ht] at h; cases h
          | ok k =>
            rw [ht] at h
            simp only at h
            cases hr : cuvHeads num n ls with
            | error e => rw [hr] at h; cases h
            | ok x =>
              rw [hr] at h
              simp only [Except.ok.injEq] at h
              obtain ⟨i1, i2, i3⟩ := ih hr
              rw [← h]
              exact ⟨by simp; omega, by simp [i2], by rw [i3]; rfl⟩

theorem rows_empty {num : ParseNum} {t i : Nat} {hs : List (ℤ × ℚ)} {cells : List VCell} {rest : List Str}
    (h : cuvRows num t i hs [] = .ok (cells, rest)) : ∀ c ∈ cells, c.vals = [] := by
  induction hs generalizing i cells rest with
  | nil =>
    simp only [cuvRows, Except.ok.injEq, Prod.mk.injEq] at h
    rw [← h.1]
    simp
  | cons c hs ih =>
    simp only [cuvRows, List.headD_nil, List.tail_nil] at h
    rw [rowNums_nil] at h
    simp only at h
    by_cases hi : 0 < t ∧ t ≤ i
    · rw [if_pos hi] at h; cases h
    · rw [if_neg hi] at h
      cases hr : cuvRows num t (i + 1) hs [] with
      | error e => rw [hr] at h; cases h
      | ok p =>
        obtain ⟨cs, rs⟩ := p
        rw [hr] at h
        simp only [Except.ok.injEq, Prod.mk.injEq] at h
        rw [← h.1]
        intro d hd
        rcases List.mem_cons.1 hd with rfl | hd
        · rfl
        · exact ih hr d hd

/-- cells without values give a voxel without values -/
theorem voxel_empty {norm : Norm} {filter : Option (List ℤ)} {volume : ℚ} {cells : List VCell} {p : List ℚ × List ℚ}
    (h : cuvVoxel norm filter volume cells = .ok p) (he : ∀ c ∈ cells, c.vals = []) : p.1 = [] := by
  have h0 : cells ≠ [] := by rintro rfl; cases h
  have hm : ∀ c ∈ selected filter cells, c.vals = [] := by
    intro c hc
    apply he
    cases filter with
    | none => exact hc
    | some f => exact (List.mem_filter.1 hc).1
  rw [unfolded _ _ _ h0] at h
  split_ifs at h with hz
  · rw [← Except.ok.inj h]
    cases cells with
    | nil => exact absurd rfl h0
    | cons c cs =>
      simp only [List.headD_cons]
      rw [he c (by simp)]
      rfl
  · cases hb : rawOf filter cells with
    | error e => rw [hb] at h; cases h
    | ok b =>
      rw [hb] at h
      have hb1 : b.1 = [] := by
        unfold rawOf at hb
        generalize selected filter cells = sel at hb hm
        by_cases h1 : 1 < cells.length
        · rw [if_pos h1] at hb
          unfold meanValue at hb
          cases sel with
          | nil => cases hb
          | cons c cs =>
            simp only at hb
            by_cases hc : (cs.all fun d => decide (d.vals.length = c.vals.length ∧ d.errs.length = c.errs.length)) = true ∧
                (c.errs.length = c.vals.length ∨ c.errs.length = 1 ∨ c.vals.length = 1)
            · rw [if_pos hc] at hb
              rw [← Except.ok.inj hb, hm c (by simp)]
              rfl
            · rw [if_neg hc] at hb; cases hb
        · rw [if_neg h1] at hb
          cases sel with
          | nil => cases hb
          | cons c cs =>
            rw [← Except.ok.inj hb]
            exact hm c (by simp)
      cases norm with
      | ctot => rw [← Except.ok.inj h, hb1]; rfl
      | celf => rw [← Except.ok.inj h, hb1]; rfl
      | other => cases h

/-- **C211 (one voxel).** A voxel whose lines were cut off anywhere, if it is read, has the values of the whole voxel. -/
theorem element_cut {num : ParseNum} {ne : Nat} (hne : 0 < ne) {volume : ℚ} {cells : List VCell} {ls : List Str} (h : IsCuvVoxel num volume cells ls)
    (hv : VoxelOk ne cells) {norm : Norm} (hn : norm ≠ .other) {filter : Option (List ℤ)} {u v : List Str} {l part : Str} (he : ls = u ++ l :: v)
    {p : List ℚ × List ℚ} {rest : List Str} (hp : cuvElement num norm filter (u ++ leftOver part) = .ok (p, rest)) {row : List (ℚ × ℚ)}
    (hf : fit ne p = .ok row) :
    ∃ q, cuvVoxel norm filter volume cells = .ok q ∧ row.length = ne ∧ ∀ e, e < ne → (row.getD e (0, 0)).1 = q.1.getD e 0 := by
  obtain ⟨head, hs, rs, rfl, w4, w5, fh, ft, fr⟩ := h
  have hp1 : p.1 ≠ [] := by
    obtain ⟨a, b, f1, _, _⟩ := fit_both hf
    exact (fitRow_pos hne f1).1
  unfold cuvElement at hp
  cases u with
  | nil =>
    exfalso
    rw [List.nil_append] at hp
    cases h4 : wordNum num ((leftOver part).headD []) 4 with
    | error e => rw [h4] at hp; cases hp
    | ok vol =>
      rw [h4] at hp
      simp only at hp
      cases h5 : wordNum num ((leftOver part).headD []) 5 with
      | error e => rw [h5] at hp; cases hp
      | ok n =>
        rw [h5, leftOver_tail] at hp
        simp only at hp
        cases hh : cuvHeads num (trunc n).toNat [] with
        | error e => rw [hh] at hp; cases hp
        | ok r =>
          obtain ⟨hd, t, ls⟩ := r
          rw [hh] at hp
          simp only at hp
          obtain ⟨i1, i2, i3⟩ := heads_lines hh
          simp only [List.length_nil, Nat.le_zero] at i1
          have : hd = [] := List.length_eq_zero_iff.1 (by rw [show hd.length = _ from i2, i1])
          rw [this] at hp
          cases hp
  | cons m u =>
    have he1 := List.cons.inj (he.trans (List.cons_append ..))
    rw [← he1.1] at hp
    simp only [List.cons_append, List.headD_cons, List.tail_cons] at hp
    rw [wordNum_ok w4] at hp
    simp only at hp
    rw [wordNum_ok w5] at hp
    simp only at hp
    rw [trunc_nat] at hp
    have hlen := fh.length_eq
    cases hh : cuvHeads num cells.length (u ++ leftOver part) with
    | error e => rw [hh] at hp; cases hp
    | ok r =>
      obtain ⟨hd, t, ls⟩ := r
      rw [hh] at hp
      simp only at hp
      obtain ⟨i1, i2, i3⟩ := heads_lines hh
      simp only at i2 i3
      cases hr : cuvRows num t 0 hd ls with
      | error e => rw [hr] at hp; cases hp
      | ok r =>
        obtain ⟨cells', rest'⟩ := r
        rw [hr] at hp
        simp only at hp
        cases hc : cuvVoxel norm filter volume cells' with
        | error e => rw [hc] at hp; cases hp
        | ok p' =>
          rw [hc] at hp
          simp only [Except.ok.injEq, Prod.mk.injEq] at hp
          rw [hp.1] at hc
          rcases List.append_eq_append_iff.1 he1.2 with ⟨a, g1, g2⟩ | ⟨a, g1, g2⟩
          · -- the lines of the cells are whole
            obtain ⟨t', ht', _⟩ := cuvHeads_ok (rest := a ++ leftOver part) fh ft
            rw [g1, List.append_assoc] at hh
            rw [hh] at ht'
            have hx := Except.ok.inj ht'
            simp only [Prod.mk.injEq] at hx
            rw [hx.1, hx.2.2] at hr
            exact cut_voxel hne (rows_cut fr g2 hr) hv hn hc hf
          · cases a with
            | nil =>
              rw [List.append_nil] at g1
              obtain ⟨t', ht', _⟩ := cuvHeads_ok (rest := leftOver part) fh ft
              rw [g1] at ht'
              rw [hh] at ht'
              have hx := Except.ok.inj ht'
              simp only [Prod.mk.injEq] at hx
              rw [hx.1, hx.2.2] at hr
              exact cut_voxel hne (rows_cut (u := []) fr g2.symm hr) hv hn hc hf
            | cons m' a =>
              exfalso
              have hl : (u ++ leftOver part).length ≤ cells.length := by
                rw [← hlen, g1]
                have := leftOver_length part
                simp
                omega
              have : ls = [] := by rw [i3, List.drop_eq_nil_iff]; exact hl
              rw [this] at hr
              exact hp1 (voxel_empty hc (rows_empty hr))

end F4Enix.Mesh
