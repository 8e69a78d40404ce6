import Verif.Out.CuvCut
import Verif.Out.MeshFileEx
import Mathlib.Data.List.GetD
/-!
# Cell-under-voxel files that were cut off (C211)
-/
namespace F4Enix.MeshFile
open F4Enix F4Enix.Mesh F4Enix.Find

/-! ### the bins -/

theorem afterColon_has {l t : Str} (h : afterColon l = .ok t) : ':' ∈ l := by
  unfold afterColon at h
  by_contra hc
  rw [dropWhile_eq_nil_of_all (fun c hm => by
    have : c ≠ ':' := fun he => hc (he ▸ hm)
    simpa using this)] at h
  cases h

theorem binList_colon {num : ParseNum} {l : Str} {qs : List ℚ} (h : binList num l = .ok qs) : ':' ∈ l := by
  unfold binList at h
  cases ha : afterColon l with
  | error e => rw [ha] at h; cases h
  | ok t => exact afterColon_has ha

theorem extraBin_colon {num : ParseNum} {l : Str} {b : EBin} (h : extraBin num l = .ok b) : ':' ∈ l := by
  unfold extraBin at h
  cases ha : binList num l with
  | error e => rw [ha] at h; cases h
  | ok t => exact binList_colon ha

/-- a line of the bins is there (proof) -/
def Has (ls : List Str) (i : Nat) : Prop := ∃ g, ls[i]? = some g ∧ (blank g = true ∨ ':' ∈ g)

theorem headD_dropped (ls : List Str) (i : Nat) : (ls.drop i).headD [] = ls.getD i [] := by
  rw [List.getD_eq_getElem?_getD, List.headD_eq_head?_getD, List.head?_drop]

theorem has_of {ls : List Str} {i : Nat} (h : blank (ls.getD i []) = true ∨ ':' ∈ ls.getD i []) : Has ls i := by
  rw [List.getD_eq_getElem?_getD] at h
  cases hg : ls[i]? with
  | none =>
    rw [hg] at h
    rcases h with h | h
    · exact absurd h (by decide)
    · simp at h
  | some g =>
    rw [hg] at h
    exact ⟨g, hg, h⟩

/-- where the line of energies is (proof) -/
def numberAt (ls : List Str) (i : Nat) : Nat := if contains "number:".toList (ls.getD i []) then 1 else 0

/-- where the first axis is (proof) -/
def originAt (ls : List Str) : Nat := if contains "origin at".toList (ls.headD []) then 1 else 0

theorem extraLines_needs {num : ParseNum} {ls : List Str} {i : Nat} {x : EBin × EBin × List Str} (h : extraLines num (ls.drop i) = .ok x) :
    Has ls (i + numberAt ls i + 1) := by
  unfold extraLines at h
  rw [headD_dropped] at h
  have key : (if contains "number:".toList (ls.getD i []) then (ls.drop i).tail else ls.drop i) = ls.drop (i + numberAt ls i) := by
    unfold numberAt
    split_ifs
    · rw [List.tail_drop]
    · rfl
  rw [key] at h
  generalize i + numberAt ls i = j at h
  unfold extraLists at h
  rw [headD_dropped, List.tail_drop, headD_dropped] at h
  cases hb : extraBin num (ls.getD j []) with
  | error e => rw [hb] at h; cases h
  | ok b =>
    rw [hb] at h
    simp only at h
    by_cases hbl : blank (ls.getD (j + 1) []) = true
    · exact has_of (Or.inl hbl)
    · rw [if_neg hbl] at h
      cases hb' : extraBin num (ls.getD (j + 1) []) with
      | error e => rw [hb'] at h; cases h
      | ok b' => exact has_of (Or.inr (extraBin_colon hb'))

theorem boundaries_needs {num : ParseNum} {ls : List Str} {x : Bounds × List Str} (h : boundaries num ls = .ok x) :
    Has ls (originAt ls + 3 + numberAt ls (originAt ls + 3) + 1) := by
  unfold boundaries at h
  simp only [bind, Except.bind, pure, Except.pure] at h
  have ho : ∀ c p ls', originLine num ls = .ok (c, p, ls') → ls' = ls.drop (originAt ls) := by
    intro c p ls' ho
    unfold originLine at ho
    unfold originAt
    split_ifs at ho ⊢ with h0
    · cases hc : cylPlace num (ls.headD []) with
      | error e => rw [hc] at ho; cases ho
      | ok q =>
        rw [hc] at ho
        simp only [Except.ok.injEq, Prod.mk.injEq] at ho
        rw [← ho.2.2, List.drop_one]
    · simp only [Except.ok.injEq, Prod.mk.injEq] at ho
      exact ho.2.2.symm
  cases h0 : originLine num ls with
  | error e => rw [h0] at h; cases h
  | ok o =>
    obtain ⟨c, p, ls'⟩ := o
    rw [h0] at h
    simp only at h
    obtain rfl := ho c p ls' h0
    cases h1 : binList num ((ls.drop (originAt ls)).headD []) with
    | error e => rw [h1] at h; cases h
    | ok x1 =>
      rw [h1] at h
      simp only at h
      cases h2 : binList num ((ls.drop (originAt ls)).tail.headD []) with
      | error e => rw [h2] at h; cases h
      | ok x2 =>
        rw [h2] at h
        simp only at h
        cases h3 : binList num ((ls.drop (originAt ls)).tail.tail.headD []) with
        | error e => rw [h3] at h; cases h
        | ok x3 =>
          rw [h3] at h
          simp only at h
          rw [List.tail_drop, List.tail_drop, List.tail_drop] at h
          cases h4 : extraLines num (ls.drop (originAt ls + 1 + 1 + 1)) with
          | error e => rw [h4] at h; cases h
          | ok y => exact extraLines_needs h4

theorem has_lt {ls : List Str} {i : Nat} (h : Has ls i) : i < ls.length := by
  obtain ⟨g, hg, _⟩ := h
  exact (List.getElem?_eq_some_iff.1 hg).1

theorem place_lines {num : ParseNum} {c : Bool} {p : Option Place} {pl : List Str} (h : ShowsPlace num c p pl) {l1 : Str}
    (ho : c = false → ¬ "origin at".toList <:+: l1) (r : List Str) :
    pl.length = if contains "origin at".toList ((pl ++ l1 :: r).headD []) then 1 else 0 := by
  cases h with
  | flat =>
    rw [List.nil_append, List.headD_cons, contains_false (ho rfl)]
    rfl
  | cyl6 hl hp =>
    rw [List.cons_append, List.headD_cons, contains_true (place_infix6 hl)]
    rfl
  | cyl5 hl hp =>
    rw [List.cons_append, List.headD_cons, contains_true (place_infix5 hl)]
    rfl

theorem extra_lines {num : ParseNum} {e t : EBin} {ex : List Str} (h : ShowsExtra num e t ex) (ht : t = noTime) :
    ex.length = (if contains "number:".toList (ex.headD []) then 1 else 0) + 1 := by
  have hno : ∀ l, ¬ ShowsBin num l t := by
    intro l hl
    have := hl.1
    rw [ht] at this
    exact absurd this (by decide)
  cases h with
  | one h1 h2 =>
    rw [List.headD_cons, contains_false h2]
    rfl
  | two h1 => exact absurd h1 (hno _)
  | counted h1 h2 =>
    rw [List.headD_cons, contains_true h1]
    rcases h2 with ⟨l, rfl, _⟩ | ⟨l, l', rfl, h3, _⟩
    · rfl
    · exact absurd h3 (hno _)

theorem blank_newline {l : Str} (h : blank l = true) : '\n' ∈ l := by
  unfold blank at h
  have := of_decide_eq_true h
  have hm : '\n' ∈ stripSp l := by rw [this]; simp
  unfold stripSp at hm
  have h1 := List.mem_reverse.1 ((List.dropWhile_sublist _).subset (List.mem_reverse.1 hm))
  exact (List.dropWhile_sublist _).subset h1

/-- the bins of a tally whose text was cut are refused -/
theorem boundaries_cut {num : ParseNum} {b : Bounds} {bins : List Str} (h : ShowsBounds num b bins) (ht : b.tbin = noTime) {gap : Str} (hg : IsBlank gap)
    {u v : List Str} {l part : Str} (he : bins ++ [gap] = u ++ l :: v) (hp : part <+: l) (hn : ∀ c ∈ part, c ≠ '\n') :
    ∃ e, boundaries num (u ++ leftOver part) = .error e := by
  cases hb : boundaries num (u ++ leftOver part) with
  | error e => exact ⟨e, rfl⟩
  | ok x =>
    exfalso
    have hs := boundaries_needs hb
    obtain ⟨pl, l1, l2, l3, ex, lab1, lab2, lab3, rfl, hpl, h1, h2, h3, hex, ho⟩ := h
    have hlen := has_lt hs
    have hlo := leftOver_length part
    have hle := congrArg List.length he
    simp only [List.length_append, List.length_cons, List.length_nil] at hlen hle
    have hor := place_lines hpl ho (l2 :: l3 :: ex ++ [gap])
    have hnu := extra_lines hex ht
    cases u with
    | nil => simp only [List.length_nil] at hlen; omega
    | cons a u =>
      have horig : originAt (a :: u ++ leftOver part) = pl.length := by
        rw [hor]
        unfold originAt
        have e2 : pl ++ l1 :: (l2 :: l3 :: ex ++ [gap]) = a :: u ++ l :: v := by rw [← he]; simp
        rw [e2]
        rfl
      rw [horig] at hs hlen
      have hlt : pl.length + 3 < (a :: u).length := by simp only [List.length_cons] at hlen ⊢; omega
      have hget : (a :: u ++ leftOver part).getD (pl.length + 3) [] = ex.headD [] := by
        have e1 : (a :: u ++ leftOver part).getD (pl.length + 3) [] = (a :: u ++ l :: v).getD (pl.length + 3) [] := by
          rw [List.getD_append _ _ _ _ hlt, List.getD_append _ _ _ _ hlt]
        rw [e1, ← he]
        have : pl ++ l1 :: l2 :: l3 :: ex ++ [gap] = (pl ++ [l1, l2, l3]) ++ (ex ++ [gap]) := by simp
        rw [this, List.getD_append_right _ _ _ _ (by simp)]
        cases ex with
        | nil => simp at hnu
        | cons y ys => simp
      have hnumb : pl.length + 3 + numberAt (a :: u ++ leftOver part) (pl.length + 3) + 1 = pl.length + 3 + ex.length := by
        unfold numberAt
        rw [hget, hnu]
        omega
      rw [hnumb] at hs hlen
      have hul : (a :: u).length = pl.length + 3 + ex.length := by
        simp only [List.length_cons] at hlen hle ⊢
        omega
      obtain ⟨g, hg1, hg2⟩ := hs
      rw [← hul, List.getElem?_append_right (Nat.le_refl _), Nat.sub_self] at hg1
      have hgp : g = part := by
        unfold leftOver at hg1
        split_ifs at hg1
        · simp at hg1
        · simpa using hg1.symm
      have hl : l = gap := by
        have h5 : (a :: u ++ l :: v)[(a :: u).length]? = some l := by
          rw [List.getElem?_append_right (Nat.le_refl _), Nat.sub_self]
          rfl
        rw [← he, hul] at h5
        rw [List.getElem?_append_right (by simp; omega)] at h5
        have : pl.length + 3 + ex.length - (pl ++ l1 :: l2 :: l3 :: ex).length = 0 := by simp; omega
        rw [this] at h5
        simpa using h5.symm
      rw [hgp] at hg2
      rcases hg2 with hg2 | hg2
      · exact hn _ (blank_newline hg2) rfl
      · have := hp.subset hg2
        rw [hl] at this
        obtain ⟨k, rfl⟩ := hg
        rcases List.mem_append.1 this with hm | hm
        · exact absurd (List.eq_of_mem_replicate hm) (by decide)
        · exact absurd (List.mem_singleton.1 hm) (by decide)

/-! ### a tally -/

/-- the title of the bins is not among these lines -/
theorem cuvHead_none {xs : List Str} (hx : ∀ l ∈ xs, ¬ binsTitle <+: l) (b : Option (List Str)) : (cuvHead b xs).2 = [] := by
  induction xs generalizing b with
  | nil => rfl
  | cons l xs ih =>
    rw [cuvHead, if_neg (fun hc => hx l (by simp) (title_cond.1 hc))]
    exact ih (fun l hl => hx l (List.mem_cons_of_mem _ hl)) _

theorem boundaries_nil (num : ParseNum) : ∃ e, boundaries num [] = .error e := by
  cases hb : boundaries num [] with
  | error e => exact ⟨e, rfl⟩
  | ok x => exact absurd (has_lt (boundaries_needs hb)) (by simp)

theorem cuvSkip_nil (num : ParseNum) {n : Nat} (h : 0 < n) : ∃ e, cuvSkip num n [] = .error e := by
  cases n with
  | zero => omega
  | succ n => exact ⟨_, rfl⟩

theorem voxel_length {num : ParseNum} {volume : ℚ} {cells : List VCell} {head : Str} {ls : List Str}
    (h : IsVoxelText num volume cells (head :: ls)) : ls.length = 3 * cells.length := by
  obtain ⟨⟨head', hs, rs, he, h4, h5, f1, _, f2⟩, _⟩ := h
  have e1 := f1.length_eq
  have e2 := f2.length_eq
  rw [(List.cons.inj he).2, List.length_append, List.length_flatMap]
  have : (rs.map (fun p => [p.1, p.2].length)).sum = 2 * rs.length := by
    clear f2 e2 he
    induction rs with
    | nil => rfl
    | cons r rs ih => rw [List.map_cons, List.sum_cons, ih, List.length_cons]; simp; omega
  rw [this]; omega

/-- passing over a voxel that was cut leads to the end of the file -/
theorem cuvSkip_part {num : ParseNum} {volume : ℚ} {cells : List VCell} {ls u v : List Str} {l part : Str} (h : IsVoxelText num volume cells ls)
    (he : ls = u ++ l :: v) (n : Nat) {rest : List Str} (hs : cuvSkip num (n + 1) (u ++ leftOver part) = .ok rest) : cuvSkip num n [] = .ok rest := by
  rw [cuvSkip] at hs
  cases u with
  | nil =>
    rw [List.nil_append, leftOver_tail] at hs
    cases ht : tokens ((leftOver part).headD []) with
    | nil => rw [ht] at hs; cases hs
    | cons w ws =>
      rw [ht] at hs
      simp only at hs
      cases h1 : toNum num w with
      | error e => rw [h1] at hs; cases hs
      | ok q =>
        rw [h1] at hs
        simp only at hs
        cases h2 : toNum num ((w :: ws).getLastD []) with
        | error e => rw [h2] at hs; cases hs
        | ok k =>
          rw [h2] at hs
          simpa using hs
  | cons a u =>
    subst he
    have hl := voxel_length (show IsVoxelText num volume cells (a :: (u ++ l :: v)) from h)
    obtain ⟨⟨head', hh, rs, he, h4, h5, f1, _, f2⟩, h6, q, h0⟩ := h
    rw [List.cons_append, List.headD_cons] at h6 h0
    rw [← (List.cons.inj ((List.cons_append ..).symm.trans he)).1] at h5
    obtain ⟨w0, e0, v0⟩ := h0
    obtain ⟨w5, e5, v5⟩ := h5
    simp only [List.cons_append, List.headD_cons, List.tail_cons] at hs
    rcases ht : tokens a with _ | ⟨a0, ws⟩
    · rw [ht] at h6; simp at h6
    · rw [ht] at e0 e5 h6
      simp only [List.getElem?_cons_zero, Option.some.injEq] at e0
      subst e0
      have hlast : (a0 :: ws).getLastD [] = w5 := by
        rw [List.getLastD_eq_getLast?, List.getLast?_eq_getElem?, h6, e5]
        rfl
      rw [ht] at hs
      simp only at hs
      unfold toNum at hs
      rw [v0] at hs
      simp only at hs
      rw [hlast, v5] at hs
      simp only at hs
      rw [trunc_nat] at hs
      have hd : (u ++ leftOver part).drop (3 * cells.length) = [] := by
        rw [List.drop_eq_nil_iff]
        have := leftOver_length part
        simp only [List.length_append, List.length_cons] at hl ⊢
        omega
      rw [hd] at hs
      exact hs

/-- voxels that were cut are passed over only when the cut is in the last one -/
theorem cuvSkip_cut {num : ParseNum} {n : Nat} {volume : Nat → ℚ} {cells : Nat → List VCell} {ls w v : List Str} {l part : Str}
    (h : Pieces n (fun p => IsVoxelText num (volume p) (cells p)) ls) (he : ls = w ++ l :: v) {rest : List Str}
    (hs : cuvSkip num n (w ++ leftOver part) = .ok rest) :
    rest = [] ∧ ∃ m a u, n = m + 1 ∧ w = a ++ u ∧ Pieces m (fun p => IsVoxelText num (volume p) (cells p)) a ∧
      IsVoxelText num (volume m) (cells m) (u ++ l :: v) := by
  induction n generalizing ls w volume cells with
  | zero =>
    rw [pieces_zero h] at he
    simp at he
  | succ n ih =>
    obtain ⟨a, b, rfl, ha, hb⟩ := pieces_succ h
    have hcase : (∃ c, w = a ++ c ∧ b = c ++ l :: v) ∨ (∃ c, a = w ++ l :: c ∧ v = c ++ b) := by
      rcases List.append_eq_append_iff.1 he with ⟨c, g1, g2⟩ | ⟨_ | ⟨m, c⟩, g1, g2⟩
      · exact Or.inl ⟨c, g1, g2⟩
      · exact Or.inl ⟨[], by rw [g1]; simp, by simpa using g2.symm⟩
      · have := List.cons.inj (g2.trans (List.cons_append ..))
        exact Or.inr ⟨c, by rw [g1, this.1], this.2⟩
    rcases hcase with ⟨c, rfl, rfl⟩ | ⟨c, rfl, rfl⟩
    · rw [List.append_assoc, cuvSkip_voxel ha] at hs
      obtain ⟨h1, m, a', u, rfl, rfl, h3, h4⟩ := ih (volume := fun p => volume (p + 1)) (cells := fun p => cells (p + 1)) hb rfl hs
      refine ⟨h1, m + 1, a ++ a', u, rfl, by simp, ?_, h4⟩
      obtain ⟨parts, p1, p2, p3⟩ := h3
      refine ⟨a :: parts, by simp [p1], by simp [p2], ?_⟩
      intro i hi
      cases i with
      | zero => exact ha
      | succ i => exact p3 i (by omega)
    · have h1 := cuvSkip_part ha rfl n hs
      cases n with
      | zero =>
        rw [pieces_zero hb, List.append_nil]
        simp only [cuvSkip, Except.ok.injEq] at h1
        exact ⟨h1.symm, 0, [], w, rfl, rfl, ⟨[], rfl, rfl, fun i hi => by omega⟩, ha⟩
      | succ n => cases h1

theorem cuv_split {α : Type} {A B u v : List α} {l : α} (h : A ++ B = u ++ l :: v) :
    (∃ c, u = A ++ c ∧ B = c ++ l :: v) ∨ (∃ c, A = u ++ l :: c ∧ v = c ++ B) := by
  rcases List.append_eq_append_iff.1 h with ⟨c, g1, g2⟩ | ⟨_ | ⟨m, c⟩, g1, g2⟩
  · exact Or.inl ⟨c, g1, g2⟩
  · exact Or.inl ⟨[], by rw [g1]; simp, by simpa using g2.symm⟩
  · have := List.cons.inj (g2.trans (List.cons_append ..))
    exact Or.inr ⟨c, by rw [g1, this.1], this.2⟩

/-- a tally with other data (proof) -/
def TallyText.withData (t : TallyText) (d : List Str) : TallyText := { t with data := d }

theorem IsTally.withData {n : Nat} {t : TallyText} (h : IsTally n t) {d : List Str} (hd : ∀ l ∈ d, ¬ marker <+: l) : IsTally n (t.withData d) :=
  ⟨h.first, h.comment, h.kind, h.more, h.gap, h.title, h.bins, h.gap2, hd⟩

theorem IsCuvTally.withData {num : ParseNum} {n : Nat} {b : Bounds} {volume : Nat → ℚ} {cells : Nat → List VCell} {t : TallyText}
    (h : IsCuvTally num n b volume cells t) {d : List Str} (hd : ∀ l ∈ d, ¬ marker <+: l)
    (hs : ∃ title ls after, d = title :: (ls ++ after) ∧ Pieces (b.n1 * b.n2 * b.n3) (fun p => IsVoxelText num (volume p) (cells p)) ls) :
    IsCuvTally num n b volume cells (t.withData d) :=
  ⟨h.tally.withData hd, h.title, h.before, h.bins, h.noTimes, h.usable, hs⟩

theorem mem_leftOver {part l : Str} (h : l ∈ leftOver part) : l = part := by
  unfold leftOver at h
  split_ifs at h
  · simp at h
  · exact List.mem_singleton.1 h

theorem block_bins_error {num : ParseNum} {ls : List Str} {e : PyErr} (h : boundaries num (cuvHead none ls).2 = .error e) : cuvBlock num ls = .error e := by
  unfold cuvBlock
  simp only [bind, Except.bind]
  rw [h]

/-- data that end in the last voxel (proof) -/
def EndsInLast (num : ParseNum) (b : Bounds) (volume : Nat → ℚ) (cells : Nat → List VCell) (part : Str) (d : List Str) : Prop :=
  ∃ title a w l v m, d = title :: (a ++ (w ++ leftOver part)) ∧ b.n1 * b.n2 * b.n3 = m + 1 ∧
    Pieces m (fun p => IsVoxelText num (volume p) (cells p)) a ∧ IsVoxelText num (volume m) (cells m) (w ++ l :: v)

theorem cuvBlock_cut {num : ParseNum} {n : Nat} {b : Bounds} {volume : Nat → ℚ} {cells : Nat → List VCell} {t : TallyText}
    (h : IsCuvTally num n b volume cells t) (h0 : 0 < b.n1 * b.n2 * b.n3) {u v : List Str} {l part : Str} (he : t.lines.tail = u ++ l :: v)
    (hp : part <+: l) (hn : ∀ c ∈ part, c ≠ '\n') {bnd dat rest : List Str} (hb : cuvBlock num (u ++ leftOver part) = .ok (bnd, dat, rest)) :
    t.first :: (u ++ leftOver part) = (t.withData dat).lines ∧ bnd = (t.withData dat).title :: (t.withData dat).fromBins ∧
      (∀ l ∈ dat, ¬ marker <+: l) ∧ (∀ l ∈ rest, l ∈ dat) ∧ rest.length ≤ dat.length ∧
      (IsCuvTally num n b volume cells (t.withData dat) ∨ EndsInLast num b volume cells part dat) := by
  have e : t.lines.tail = (t.comment ++ t.kind :: (t.more ++ [t.gap])) ++ t.title :: (t.bins ++ [t.gap2] ++ t.data) := by
    simp [TallyText.lines, TallyText.fromBins]
  rw [e] at he
  have hbefore : ∀ l ∈ t.comment ++ t.kind :: (t.more ++ [t.gap]), ¬ binsTitle <+: l := by
    intro l hl
    rcases List.mem_append.1 hl with hl | hl
    · exact h.before l (Or.inl hl)
    · rcases List.mem_cons.1 hl with rfl | hl
      · exact h.before _ (Or.inr (Or.inl rfl))
      · rcases List.mem_append.1 hl with hl | hl
        · exact h.before l (Or.inr (Or.inr hl))
        · rw [List.mem_singleton.1 hl]; exact blank_not_title h.tally.gap
  have hHne : t.comment ++ t.kind :: (t.more ++ [t.gap]) ≠ [] := by simp
  rcases cuv_split he with ⟨c, rfl, h2⟩ | ⟨c, h1, _⟩
  swap
  · exfalso
    obtain ⟨er, hr⟩ := boundaries_nil num
    have := cuvHead_none (xs := u ++ leftOver part) (by
      intro x hx
      rcases List.mem_append.1 hx with hx | hx
      · exact hbefore x (by rw [h1]; exact List.mem_append_left _ hx)
      · rw [mem_leftOver hx]
        exact fun hc => hbefore l (by rw [h1]; simp) (hc.trans hp)) none
    rw [block_bins_error (by rw [this]; exact hr)] at hb
    cases hb
  cases c with
  | nil =>
    exfalso
    obtain ⟨er, hr⟩ := boundaries_nil num
    have h2' := List.cons.inj h2
    rw [List.append_nil] at hb
    have : (cuvHead none (t.comment ++ t.kind :: (t.more ++ [t.gap]) ++ leftOver part)).2 = [] := by
      by_cases hc : binsTitle <+: part
      · have hne : part ≠ [] := by
          rintro rfl
          exact absurd (List.prefix_nil.1 hc) (by decide)
        rw [leftOver, if_neg hne, cuvHead_skip hbefore hc _ _ hHne]
      · apply cuvHead_none
        intro x hx
        rcases List.mem_append.1 hx with hx | hx
        · exact hbefore x hx
        · rw [mem_leftOver hx]; exact hc
    rw [block_bins_error (by rw [this]; exact hr)] at hb
    cases hb
  | cons ti c =>
    have h2' := List.cons.inj (h2.trans (List.cons_append ..))
    obtain rfl := h2'.1
    have h3 := h2'.2
    have ehd : cuvHead none (t.comment ++ t.kind :: (t.more ++ [t.gap]) ++ t.title :: c ++ leftOver part) =
        (some (t.title :: (c ++ leftOver part)), c ++ leftOver part) := by
      rw [List.append_assoc, List.cons_append]
      exact cuvHead_skip hbefore h.title _ _ hHne
    rcases cuv_split h3 with ⟨c', rfl, h4⟩ | ⟨c', h4, _⟩
    swap
    · exfalso
      obtain ⟨er, hr⟩ := boundaries_cut h.bins h.noTimes h.tally.gap2 h4 hp hn
      rw [block_bins_error (by rw [ehd]; exact hr)] at hb
      cases hb
    obtain ⟨r, hr, hr'⟩ := boundaries_of h.bins h.tally.gap2 (c' ++ leftOver part)
    rw [hr'.1 h.noTimes] at hr
    have e2 : t.bins ++ [t.gap2] ++ c' ++ leftOver part = t.bins ++ t.gap2 :: (c' ++ leftOver part) := by simp
    unfold cuvBlock at hb
    rw [ehd, e2] at hb
    simp only [bind, Except.bind, pure, Except.pure] at hb
    rw [hr] at hb
    simp only at hb
    rw [count_prod b h.usable] at hb
    cases hs : cuvSkip num (b.n1 * b.n2 * b.n3) (c' ++ leftOver part).tail with
    | error e => rw [hs] at hb; cases hb
    | ok rest' =>
      rw [hs] at hb
      simp only [Except.ok.injEq, Prod.mk.injEq] at hb
      obtain ⟨rfl, rfl, rfl⟩ := hb
      have hdm : ∀ x ∈ c' ++ leftOver part, ¬ marker <+: x := by
        intro x hx
        rcases List.mem_append.1 hx with hx | hx
        · exact h.tally.data x (by rw [h4]; exact List.mem_append_left _ hx)
        · rw [mem_leftOver hx]
          exact fun hc => h.tally.data l (by rw [h4]; simp) (hc.trans hp)
      refine ⟨by simp [TallyText.withData, TallyText.lines, TallyText.fromBins], by simp [TallyText.withData, TallyText.fromBins], hdm, ?_⟩
      obtain ⟨title, ls, after, hdata, hpc⟩ := h.data
      cases c' with
      | nil =>
        rw [List.nil_append, leftOver_tail] at hs
        obtain ⟨er, hr⟩ := cuvSkip_nil num h0
        rw [hs] at hr
        cases hr
      | cons t0 w =>
        have h5 := List.cons.inj (hdata.symm.trans (h4.trans (List.cons_append ..)))
        rw [List.cons_append, List.tail_cons] at hs
        rcases cuv_split h5.2 with ⟨c3, rfl, h6⟩ | ⟨c3, h6, _⟩
        · rw [List.append_assoc, cuvSkip_voxels hpc] at hs
          rw [← Except.ok.inj hs]
          refine ⟨by intro x hx; simp at hx ⊢; tauto, by simp; omega, Or.inl (h.withData hdm ?_)⟩
          exact ⟨t0, ls, c3 ++ leftOver part, by simp, hpc⟩
        · obtain ⟨rfl, m, a, uu, g1, rfl, g3, g4⟩ := cuvSkip_cut hpc h6 hs
          refine ⟨by simp, by simp, Or.inr ?_⟩
          exact ⟨t0, a, uu, l, c3, m, by simp, g1, g3, g4⟩

/-! ### the file -/

/-- the dictionary of the tallies found before other lines (proof) -/
def catalogR (rest : List Str) : List (Nat × TallyText) → Dict Str Places → Dict Str Places
  | [], d => d
  | x :: ts, d => catalogR rest ts (Dict.set d (natStr x.1) (placesOf x.2 (allLines ts ++ rest)))

theorem catalogR_keys (rest : List Str) (ts : List (Nat × TallyText)) (d : Dict Str Places) (k : Str) :
    k ∈ Dict.keys (catalogR rest ts d) ↔ k ∈ Dict.keys d ∨ ∃ x ∈ ts, k = natStr x.1 := by
  induction ts generalizing d with
  | nil => simp [catalogR]
  | cons x ts ih =>
    simp only [catalogR]
    rw [ih, Dict.mem_keys_set]
    simp only [List.mem_cons, exists_eq_or_imp]
    tauto

theorem catalogR_get_other (rest : List Str) (ts : List (Nat × TallyText)) (d : Dict Str Places) (n : Nat) (h : ∀ x ∈ ts, x.1 ≠ n) :
    Dict.get? (catalogR rest ts d) (natStr n) = Dict.get? d (natStr n) := by
  induction ts generalizing d with
  | nil => rfl
  | cons x ts ih =>
    simp only [catalogR]
    rw [ih _ (fun y hy => h y (List.mem_cons_of_mem _ hy)), Dict.get?_set_ne]
    intro he
    exact h x (by simp) (natStr_inj he)

theorem catalogR_get {rest : List Str} {as bs : List (Nat × TallyText)} {n : Nat} {t : TallyText} (d : Dict Str Places) (h : ∀ x ∈ bs, x.1 ≠ n) :
    Dict.get? (catalogR rest (as ++ (n, t) :: bs) d) (natStr n) = some (placesOf t (allLines bs ++ rest)) := by
  induction as generalizing d with
  | nil =>
    simp only [List.nil_append, catalogR]
    rw [catalogR_get_other _ _ _ _ h, Dict.get?_set_self]
  | cons x as ih => exact ih _

theorem catalogR_append (rest : List Str) (as bs : List (Nat × TallyText)) (d : Dict Str Places) :
    catalogR rest (as ++ bs) d = catalogR rest bs (catalogR (allLines bs ++ rest) as d) := by
  induction as generalizing d with
  | nil => rfl
  | cons x as ih =>
    simp only [List.cons_append, catalogR]
    rw [ih]
    have : allLines (as ++ bs) ++ rest = allLines as ++ (allLines bs ++ rest) := by simp [allLines]
    rw [this]

theorem scanCuv_append {num : ParseNum} {ts : List (Nat × TallyText)}
    (h : ∀ x ∈ ts, ∃ b volume cells, IsCuvTally num x.1 b volume cells x.2) (rest : List Str) (k : Nat) (hk : (allLines ts ++ rest).length ≤ k)
    (d : Dict Str Places) : ∃ k', rest.length ≤ k' ∧ scanCuv num k (allLines ts ++ rest) d = scanCuv num k' rest (catalogR rest ts d) := by
  induction ts generalizing k d with
  | nil => exact ⟨k, hk, rfl⟩
  | cons x ts ih =>
    obtain ⟨b, volume, cells, hx⟩ := h x (by simp)
    have e : allLines (x :: ts) ++ rest = x.2.first :: (x.2.lines.tail ++ (allLines ts ++ rest)) := by simp [allLines, TallyText.lines]
    have ef : x.2.first :: (x.2.lines.tail ++ (allLines ts ++ rest)) = x.2.lines ++ (allLines ts ++ rest) := by simp [TallyText.lines]
    rw [e] at hk ⊢
    obtain ⟨after, ha, ha2, ha3⟩ := cuvBlock_of hx (allLines ts ++ rest)
    have hd := data_length_le x.2
    rw [List.length_cons, List.length_append] at hk
    obtain ⟨k', rfl⟩ : ∃ k', k = (after.length + k') + 1 := ⟨k - 1 - after.length, by omega⟩
    rw [scanCuv.eq_def]
    simp only
    rw [tallyNumber_some hx.tally.first]
    simp only
    rw [ha]
    simp only
    rw [scanCuv_skip ha2]
    obtain ⟨k2, h1, h2⟩ := ih (fun y hy => h y (List.mem_cons_of_mem _ hy)) k' (by omega) (Dict.set d (natStr x.1) (placesOf x.2 (allLines ts ++ rest)))
    refine ⟨k2, h1, ?_⟩
    simp only [catalogR]
    rw [← h2, ef]
    rfl

theorem scanCuv_none {num : ParseNum} {xs : List Str} (h : ∀ l ∈ xs, ¬ marker <+: l) (k : Nat) (hk : xs.length ≤ k) (d : Dict Str Places) :
    scanCuv num k xs d = .ok d := by
  obtain ⟨k', rfl⟩ : ∃ k', k = xs.length + k' := ⟨k - xs.length, by omega⟩
  have := scanCuv_skip (num := num) h k' [] d
  rw [List.append_nil] at this
  rw [this]
  cases k' <;> rfl

theorem cuv_cut_place {ts : List (Nat × TallyText)} {c ls2 : List Str} {l : Str} (h : allLines ts = c ++ l :: ls2) :
    ∃ ts1 n t ts2 u v, ts = ts1 ++ (n, t) :: ts2 ∧ c = allLines ts1 ++ u ∧ t.lines = u ++ l :: v := by
  induction ts generalizing c with
  | nil => simp [allLines] at h
  | cons x ts ih =>
    have e : ∀ ts, allLines (x :: ts) = x.2.lines ++ allLines ts := fun ts => by simp [allLines]
    rw [e] at h
    rcases cuv_split h with ⟨a, rfl, h2⟩ | ⟨a, h1, _⟩
    · obtain ⟨ts1, n, t, ts2, u, v, q1, rfl, q3⟩ := ih h2
      exact ⟨x :: ts1, n, t, ts2, u, v, by rw [q1]; rfl, by rw [e, List.append_assoc], q3⟩
    · exact ⟨[], x.1, x.2, ts, c, a, rfl, by simp [allLines], h1⟩

/-- what a cut file is to the search for tallies -/
theorem cut_cuv_found {num : ParseNum} {ts : List (Nat × TallyText)} {file : List Str} (h : IsFile ts file) (hl : ∀ l ∈ file, IsLine l)
    {b : Nat → Bounds} {volume : Nat → Nat → ℚ} {cells : Nat → Nat → List VCell}
    (hv : ∀ x ∈ ts, IsCuvTally num x.1 (b x.1) (volume x.1) (cells x.1) x.2) (h0 : ∀ x ∈ ts, 0 < (b x.1).n1 * (b x.1).n2 * (b x.1).n3)
    {cut : Str} (hc : cut <+: file.flatten) {k : Nat} (hk : (fileLines cut).length ≤ k) {D : Dict Str Places}
    (hs : scanCuv num k (fileLines cut) [] = .ok D) :
    (∃ ts1 ts2 rest, ts = ts1 ++ ts2 ∧ D = catalogR rest ts1 []) ∨
    (∃ ts1 n t ts2 dat, ts = ts1 ++ (n, t) :: ts2 ∧ D = catalogR [] (ts1 ++ [(n, t.withData dat)]) [] ∧ (∀ l ∈ dat, ¬ marker <+: l) ∧
      (IsCuvTally num n (b n) (volume n) (cells n) (t.withData dat) ∨ ∃ part, EndsInLast num (b n) (volume n) (cells n) part dat)) := by
  have hv' : ∀ {ts1 : List (Nat × TallyText)}, (∀ x ∈ ts1, x ∈ ts) → ∀ x ∈ ts1, ∃ b volume cells, IsCuvTally num x.1 b volume cells x.2 :=
    fun hh x hx => ⟨_, _, _, hv x (hh x hx)⟩
  obtain ⟨_, pre, rfl, hpre⟩ := h
  rcases cut_lines _ hl hc with rfl | ⟨ls1, l, ls2, part, he, hp, hnl, rfl⟩
  · have e := fileLines_flatten _ hl []
    rw [List.append_nil, show fileLines ([] : Str) = [] from rfl, List.append_nil] at e
    rw [e] at hs hk
    rw [List.length_append] at hk
    obtain ⟨k', rfl⟩ : ∃ k', k = pre.length + k' := ⟨k - pre.length, by omega⟩
    rw [scanCuv_skip hpre] at hs
    obtain ⟨k2, h1, h2⟩ := scanCuv_append (hv' (fun x hx => hx)) [] k' (by rw [List.append_nil]; omega) []
    rw [List.append_nil, hs] at h2
    refine Or.inl ⟨ts, [], [], by simp, ?_⟩
    cases k2 <;> exact Except.ok.inj h2
  have hl1 : ∀ l ∈ ls1, IsLine l := fun l hm => hl l (by rw [he]; exact List.mem_append_left _ hm)
  rw [fileLines_flatten _ hl1, fileLines_noNl hnl, show (if part = [] then [] else [part]) = leftOver part from rfl] at hs hk
  rcases cuv_split he with ⟨c, rfl, h2⟩ | ⟨c, h1, _⟩
  swap
  · rw [scanCuv_none (by
      intro x hx
      rcases List.mem_append.1 hx with hx | hx
      · exact hpre x (by rw [h1]; exact List.mem_append_left _ hx)
      · rw [mem_leftOver hx]
        exact fun hc => hpre l (by rw [h1]; simp) (hc.trans hp)) k hk] at hs
    exact Or.inl ⟨[], ts, [], rfl, (Except.ok.inj hs).symm⟩
  obtain ⟨ts1, n, t, ts2, u, v, rfl, rfl, q3⟩ := cuv_cut_place h2
  have ht := hv (n, t) (by simp)
  rw [List.append_assoc, List.length_append] at hk
  obtain ⟨k', rfl⟩ : ∃ k', k = pre.length + k' := ⟨k - pre.length, by omega⟩
  rw [List.append_assoc, scanCuv_skip hpre, List.append_assoc] at hs
  obtain ⟨k2, h1, h3⟩ := scanCuv_append (hv' (fun x hx => List.mem_append_left _ hx)) (u ++ leftOver part) k' (by
    rw [List.append_assoc] at hk; omega) []
  rw [h3] at hs
  cases u with
  | nil =>
    rw [List.nil_append] at hs h1
    left
    refine ⟨ts1, (n, t) :: ts2, leftOver part, rfl, ?_⟩
    unfold leftOver at hs h1
    split_ifs at hs h1 with hpe
    · rw [scanCuv_none (by simp) k2 h1] at hs
      rw [← Except.ok.inj hs, leftOver, if_pos hpe]
    · cases k2 with
      | zero => simp at h1
      | succ k2 =>
        rw [scanCuv.eq_def] at hs
        simp only at hs
        cases htn : tallyNumber part with
        | none =>
          rw [htn] at hs
          simp only at hs
          rw [scanCuv_none (by simp) k2 (by simp)] at hs
          rw [← Except.ok.inj hs, leftOver, if_neg hpe]
        | some w =>
          rw [htn] at hs
          simp only at hs
          obtain ⟨er, hr⟩ := boundaries_nil num
          rw [block_bins_error (ls := []) (e := er) hr] at hs
          cases hs
  | cons f u =>
    right
    have ef : t.lines = t.first :: t.lines.tail := by simp [TallyText.lines]
    have hfu := List.cons.inj (ef.symm.trans (q3.trans (List.cons_append ..)))
    obtain rfl := hfu.1
    cases k2 with
    | zero => simp at h1
    | succ k2 =>
      rw [List.cons_append, scanCuv.eq_def] at hs
      simp only at hs
      rw [tallyNumber_some ht.tally.first] at hs
      simp only at hs
      cases hb : cuvBlock num (u ++ leftOver part) with
      | error e => rw [hb] at hs; cases hs
      | ok x =>
        obtain ⟨bnd, dat, rest⟩ := x
        rw [hb] at hs
        simp only at hs
        obtain ⟨g1, g2, g3, g4, g5, g6⟩ := cuvBlock_cut ht (h0 (n, t) (by simp)) hfu.2 hp hnl hb
        have hlen : rest.length ≤ k2 := by
          have h5 := congrArg List.length g1
          have h6 := data_length_le (t.withData dat)
          have h7 := lines_length (t.withData dat)
          simp only [List.length_cons, List.cons_append] at h5 h1
          have h8 : (t.withData dat).data = dat := rfl
          rw [h8] at h6
          omega
        rw [scanCuv_none (fun l hl => g3 l (g4 l hl)) k2 hlen] at hs
        refine ⟨ts1, n, t, ts2, dat, rfl, ?_, g3, g6.imp id (fun h => ⟨part, h⟩)⟩
        rw [← Except.ok.inj hs, catalogR_append]
        simp only [catalogR, placesOf, allLines, List.map_nil, List.flatten_nil, List.append_nil, List.map_cons, List.flatten_cons]
        rw [← g1, ← g2]
        rfl

/-! ### the tallies found -/

/-- a cell-under-voxel tally read: bins, place, particle and comments; every voxel with the value of its own record, in the normalisation asked for, zero
where none of the cells asked for is; and, in the voxels where they are sure, with the error of its record (specification) -/
def CuvReadAs (cs sn : ℚ → ℚ) (norm : Norm) (filter : Option (List ℤ)) (b : Bounds) (volume : Nat → ℚ) (cells : Nat → List VCell) (sure : Nat → Prop)
    (t : TallyText) (r : Tally) : Prop :=
  ∃ m, mkFmesh cs sn (b.mesh m) (b.place.map (·.trsf)) none = .ok r.fm ∧ r.place = b.place ∧ r.particle = some (particleOf t.kind) ∧
    r.comments = (if t.comment = [] then none else some t.comment.flatten) ∧
    ∀ e k3 k2 k1, e < b.ne → k3 < b.n3 → k2 < b.n2 → k1 < b.n1 →
      let p := (k1 * b.n2 + k2) * b.n3 + k3
      ((∃ f, filter = some f ∧ weighted (selected filter (cells p)) (fun _ => 1) = 0) →
        (m [0, e, k3, k2, k1]).1 = 0 ∧ (sure p → (m [0, e, k3, k2, k1]).2 = 0)) ∧
      (¬(∃ f, filter = some f ∧ weighted (selected filter (cells p)) (fun _ => 1) = 0) →
        (m [0, e, k3, k2, k1]).1 = voxelValue norm filter (volume p) (cells p) e ∧
        (sure p → weighted (selected filter (cells p)) (fun c => c.vals.getD e 0) ≠ 0 → (m [0, e, k3, k2, k1]).2 = voxelError filter (cells p) e))

/-- the rest of `getCuv` once the data are there -/
theorem getCuv_of (cs sn : ℚ → ℚ) {num : ParseNum} (junk : Data) (norm : Norm) (filter : Option (List ℤ)) {n : Nat} {t : TallyText} {b : Bounds}
    (hb : ShowsBounds num b t.bins) (ht : IsTally n t) (hu : Usable b) (hno : b.tbin = noTime) (rest : List Str) {D : Dict Str Places}
    (hD : Dict.get? D (natStr n) = some (placesOf t rest)) :
    (∀ e, readCuv num junk norm filter b.ne b.n3 b.n2 b.n1 (t.data ++ rest) = .error e → getCuv cs sn num junk norm filter D (natStr n) = .error e) ∧
    (∀ m, readCuv num junk norm filter b.ne b.n3 b.n2 b.n1 (t.data ++ rest) = .ok m →
      ∃ r, getCuv cs sn num junk norm filter D (natStr n) = .ok r ∧ mkFmesh cs sn (b.mesh m) (b.place.map (·.trsf)) none = .ok r.fm ∧ r.place = b.place ∧
        r.particle = some (particleOf t.kind) ∧ r.comments = (if t.comment = [] then none else some t.comment.flatten)) := by
  obtain ⟨r0, hr, _⟩ := boundaries_of hb ht.gap2 (t.data ++ rest)
  have e : t.fromBins ++ rest = t.bins ++ t.gap2 :: (t.data ++ rest) := by simp [TallyText.fromBins]
  have hnt : b.nt = 1 := by unfold Bounds.nt; rw [hno]; decide
  have key : getCuv cs sn num junk norm filter D (natStr n) =
      match readCuv num junk norm filter b.ne b.n3 b.n2 b.n1 (t.data ++ rest) with
      | .error e => .error e
      | .ok v => finish cs sn b v (t.lines ++ rest) := by
    unfold getCuv
    rw [hD]
    simp only [placesOf, List.tail_cons]
    rw [e, hr]
    simp only
    rw [if_neg (by rw [hu.nonempty]; simp), if_neg (by rw [hnt]; simp)]
    cases readCuv num junk norm filter b.ne b.n3 b.n2 b.n1 (t.data ++ rest) <;> rfl
  refine ⟨fun e he => by rw [key, he], fun m hm => ?_⟩
  obtain ⟨f, hf⟩ := hu.mkFmesh cs sn m (b.place.map (·.trsf))
  refine ⟨{ fm := f, place := b.place, particle := some (particleOf t.kind), comments := if t.comment = [] then none else some t.comment.flatten },
    ?_, hf, rfl, rfl, rfl⟩
  rw [key, hm]
  simp only [finish]
  rw [hf]
  simp only
  rw [header_of ht]
  simp only [Except.ok.injEq, Tally.mk.injEq, true_and, and_true]
  by_cases hcm : t.comment = []
  · rw [if_pos hcm, if_pos ((flatten_nil_iff ht).2 hcm)]
  · rw [if_neg hcm, if_neg (fun hx => hcm ((flatten_nil_iff ht).1 hx))]

theorem whole_cuv (cs sn : ℚ → ℚ) {num : ParseNum} (junk : Data) (norm : Norm) (hn : norm ≠ .other) (filter : Option (List ℤ)) {n : Nat} {t : TallyText}
    {b : Bounds} {volume : Nat → ℚ} {cells : Nat → List VCell} (ht : IsCuvTally num n b volume cells t)
    (hv : ∀ p, p < b.n1 * b.n2 * b.n3 → VoxelOk b.ne (cells p)) (rest : List Str) {D : Dict Str Places}
    (hD : Dict.get? D (natStr n) = some (placesOf t rest)) :
    ∃ r, getCuv cs sn num junk norm filter D (natStr n) = .ok r ∧ CuvReadAs cs sn norm filter b volume cells (fun _ => True) t r := by
  obtain ⟨title, ls, after, hdata, hpc⟩ := ht.data
  have hpc' : Pieces (b.n1 * b.n2 * b.n3) (fun p => IsCuvVoxel num (volume p) (cells p)) ls := by
    obtain ⟨parts, p1, p2, p3⟩ := hpc
    exact ⟨parts, p1, p2, fun i hi => (p3 i hi).1⟩
  obtain ⟨m, hm, hmv⟩ := cuv_exact junk norm hn filter (title := title) (rest := after ++ rest) hpc' hv
  have e2 : t.data ++ rest = title :: (ls ++ (after ++ rest)) := by rw [hdata]; simp
  obtain ⟨r, hr, h1, h2, h3, h4⟩ := (getCuv_of cs sn junk norm filter ht.bins ht.tally ht.usable ht.noTimes rest hD).2 m (by rw [e2]; exact hm)
  refine ⟨r, hr, m, h1, h2, h3, h4, ?_⟩
  intro e k3 k2 k1 he hk3 hk2 hk1
  obtain ⟨q1, q2⟩ := hmv e k3 k2 k1 he hk3 hk2 hk1
  exact ⟨fun h => ⟨by rw [q1 h], fun _ => by rw [q1 h]⟩, fun h => ⟨(q2 h).1, fun _ => (q2 h).2⟩⟩

/-- the loop over voxels of which the last was cut -/
theorem cuvLoop_last {num : ParseNum} {norm : Norm} (hn : norm ≠ .other) {filter : Option (List ℤ)} {ne n : Nat}
    {volume : Nat → ℚ} {cells : Nat → List VCell} {a rest : List Str}
    (h : Pieces n (fun p => IsCuvVoxel num (volume p) (cells p)) a) (hv : ∀ p, p < n → VoxelOk ne (cells p)) {vs : List (List (ℚ × ℚ))}
    (hs : cuvLoop num norm filter ne (n + 1) (a ++ rest) = .ok vs) :
    (∀ p, p < n → ∃ v, cuvVoxel norm filter (volume p) (cells p) = .ok v ∧ vs.getD p [] = List.zip v.1 v.2) ∧
    ∃ v r row, cuvElement num norm filter rest = .ok (v, r) ∧ fit ne v = .ok row ∧ vs.getD n [] = row := by
  induction n generalizing volume cells a vs with
  | zero =>
    rw [pieces_zero h, List.nil_append] at hs
    refine ⟨fun p hp => by omega, ?_⟩
    simp only [cuvLoop] at hs
    cases he : cuvElement num norm filter rest with
    | error e => rw [he] at hs; cases hs
    | ok x =>
      obtain ⟨v, r⟩ := x
      rw [he] at hs
      simp only at hs
      cases hf : fit ne v with
      | error e => rw [hf] at hs; cases hs
      | ok row =>
        rw [hf] at hs
        refine ⟨v, r, row, rfl, hf, ?_⟩
        rw [← Except.ok.inj hs]
        rfl
  | succ n ih =>
    obtain ⟨a1, b1, rfl, ha, hb⟩ := pieces_succ h
    obtain ⟨v, h1, h2, _⟩ := cuvVoxel_value (hv 0 (by omega)) norm hn filter (volume 0)
    rw [cuvLoop, List.append_assoc, cuvElement_ok norm filter ha, h1] at hs
    simp only at hs
    rw [fit_ok h2.1 h2.2] at hs
    simp only at hs
    cases hl : cuvLoop num norm filter ne (n + 1) (b1 ++ rest) with
    | error e => rw [hl] at hs; cases hs
    | ok vs' =>
      rw [hl] at hs
      obtain ⟨i1, i2⟩ := ih (volume := fun p => volume (p + 1)) (cells := fun p => cells (p + 1)) hb (fun p hp => hv (p + 1) (by omega)) hl
      rw [← Except.ok.inj hs]
      refine ⟨?_, ?_⟩
      · intro p hp
        cases p with
        | zero => exact ⟨v, h1, by simp⟩
        | succ p =>
          obtain ⟨w, j1, j2⟩ := i1 p (by omega)
          exact ⟨w, j1, by simpa using j2⟩
      · obtain ⟨v', r, row, j1, j2, j3⟩ := i2
        exact ⟨v', r, row, j1, j2, by simpa using j3⟩

theorem last_cuv (cs sn : ℚ → ℚ) {num : ParseNum} (junk : Data) (norm : Norm) (hn : norm ≠ .other) (filter : Option (List ℤ)) {n : Nat} {t : TallyText}
    {b : Bounds} {volume : Nat → ℚ} {cells : Nat → List VCell} (ht : IsCuvTally num n b volume cells t) (h0 : 0 < b.ne)
    (hv : ∀ p, p < b.n1 * b.n2 * b.n3 → VoxelOk b.ne (cells p)) {dat : List Str} (hd : ∀ l ∈ dat, ¬ marker <+: l) {part : Str}
    (he : EndsInLast num b volume cells part dat) {D : Dict Str Places} (hD : Dict.get? D (natStr n) = some (placesOf (t.withData dat) [])) {r : Tally}
    (hr : getCuv cs sn num junk norm filter D (natStr n) = .ok r) :
    CuvReadAs cs sn norm filter b volume cells (fun p => p + 1 < b.n1 * b.n2 * b.n3) t r := by
  obtain ⟨g1, g2⟩ := getCuv_of cs sn junk norm filter (t := t.withData dat) ht.bins (ht.tally.withData hd) ht.usable ht.noTimes [] hD
  have hdat : (t.withData dat).data ++ [] = dat := by simp [TallyText.withData]
  rw [hdat] at g1 g2
  cases hm : readCuv num junk norm filter b.ne b.n3 b.n2 b.n1 dat with
  | error e => rw [g1 e hm] at hr; cases hr
  | ok m =>
    obtain ⟨r', hr', h1, h2, h3, h4⟩ := g2 m hm
    rw [hr] at hr'
    obtain rfl := Except.ok.inj hr'
    refine ⟨m, h1, h2, h3, h4, ?_⟩
    obtain ⟨title, a, w, l, v, N, rfl, hN, hp, hl⟩ := he
    have hp' : Pieces N (fun p => IsCuvVoxel num (volume p) (cells p)) a := by
      obtain ⟨parts, p1, p2, p3⟩ := hp
      exact ⟨parts, p1, p2, fun i hi => (p3 i hi).1⟩
    unfold readCuv at hm
    rw [hN, List.tail_cons] at hm
    cases hs : cuvLoop num norm filter b.ne (N + 1) (a ++ (w ++ leftOver part)) with
    | error e => rw [hs] at hm; cases hm
    | ok vs =>
      rw [hs] at hm
      obtain ⟨k1, v', rest, row, k2, k3, k4⟩ := cuvLoop_last hn hp' (fun p hp => hv p (by omega)) hs
      obtain ⟨q, j1, j2, j3⟩ := element_cut h0 hl.1 (hv N (by omega)) hn rfl k2 k3
      have hmd : ∀ e c b' a', m [0, e, c, b', a'] = (vs.getD ((a' * b.n2 + b') * b.n3 + c) []).getD e (0, 0) := by
        intro e c b' a'
        rw [← Except.ok.inj hm]
        rfl
      intro e k3' k2' k1' he hk3 hk2 hk1
      have hp : (k1' * b.n2 + k2') * b.n3 + k3' < b.n1 * b.n2 * b.n3 := by
        have e1 : k1' * b.n2 + k2' < b.n1 * b.n2 := by
          have := Nat.mul_le_mul_right b.n2 (show k1' + 1 ≤ b.n1 by omega)
          rw [Nat.add_mul] at this; omega
        have := Nat.mul_le_mul_right b.n3 (show k1' * b.n2 + k2' + 1 ≤ b.n1 * b.n2 by omega)
        rw [Nat.add_mul] at this
        omega
      simp only
      rw [hmd]
      generalize (k1' * b.n2 + k2') * b.n3 + k3' = p at hp
      obtain ⟨z, z1, z2, z3⟩ := cuvVoxel_value (hv p hp) norm hn filter (volume p)
      obtain ⟨y1, y2⟩ := z3 e he
      have hval : ((vs.getD p []).getD e (0, 0)).1 = z.1.getD e 0 := by
        by_cases hpN : p < N
        · obtain ⟨z', x1, x2⟩ := k1 p hpN
          rw [z1] at x1
          obtain rfl := Except.ok.inj x1
          rw [x2, zip_getD _ _ _ _ (by omega) (by omega)]
        · obtain rfl : p = N := by omega
          rw [k4, j3 e he]
          rw [z1] at j1
          rw [Except.ok.inj j1]
      have herr : p + 1 < b.n1 * b.n2 * b.n3 → ((vs.getD p []).getD e (0, 0)).2 = z.2.getD e 0 := by
        intro hlt
        obtain ⟨z', x1, x2⟩ := k1 p (by omega)
        rw [z1] at x1
        obtain rfl := Except.ok.inj x1
        rw [x2, zip_getD _ _ _ _ (by omega) (by omega)]
      refine ⟨fun h => ⟨by rw [hval, (y1 h).1], fun hlt => by rw [herr hlt, (y1 h).2]⟩, fun h => ⟨by rw [hval, (y2 h).1], fun hlt hw => ?_⟩⟩
      rw [herr hlt, (y2 h).2 hw]

/-- **C211.** A cell-under-voxel file that ends after any number of characters is not opened, or the tallies found are the first ones of the whole file. Every
tally found is read with exactly what the whole file shows; only the last one, when the file ends within it, may be refused, and if it is not, all its values are
right and all its errors except perhaps those of the very last voxel. Partial: false for these errors (`cut_cuv_error`), and the tallies behind the end are
missing without a complaint (`cut_cuv_lost`). -/
theorem cut_cuv_partial (cs sn : ℚ → ℚ) {num : ParseNum} (junk : Data) (norm : Norm) (hn : norm ≠ .other) (filter : Option (List ℤ))
    {ts : List (Nat × TallyText)} {file : List Str} (h : IsFile ts file) (hl : ∀ l ∈ file, IsLine l) (hd : (ts.map Prod.fst).Nodup)
    {b : Nat → Bounds} {volume : Nat → Nat → ℚ} {cells : Nat → Nat → List VCell}
    (hc : ∀ x ∈ ts, IsCuvTally num x.1 (b x.1) (volume x.1) (cells x.1) x.2)
    (h0 : ∀ x ∈ ts, 0 < (b x.1).n1 * (b x.1).n2 * (b x.1).n3 ∧ 0 < (b x.1).ne)
    (hv : ∀ x ∈ ts, ∀ p, p < (b x.1).n1 * (b x.1).n2 * (b x.1).n3 → VoxelOk (b x.1).ne (cells x.1 p))
    {cut : Str} (hcut : cut <+: file.flatten) {k : Nat} (hk : (fileLines cut).length ≤ k) {D : Dict Str Places}
    (hs : scanCuv num k (fileLines cut) [] = .ok D) :
    ∃ ts1 ts2, ts = ts1 ++ ts2 ∧ (∀ w, w ∈ meshList D ↔ ∃ x ∈ ts1, w = natStr x.1) ∧
      ∀ x ∈ ts1,
        (∃ r, getCuv cs sn num junk norm filter D (natStr x.1) = .ok r ∧
          CuvReadAs cs sn norm filter (b x.1) (volume x.1) (cells x.1) (fun _ => True) x.2 r) ∨
        (ts1.getLast? = some x ∧ ∀ r, getCuv cs sn num junk norm filter D (natStr x.1) = .ok r →
          CuvReadAs cs sn norm filter (b x.1) (volume x.1) (cells x.1) (fun p => p + 1 < (b x.1).n1 * (b x.1).n2 * (b x.1).n3) x.2 r) := by
  have hdup : ∀ {as bs cs' : List (Nat × TallyText)} {x : Nat × TallyText}, ts = as ++ x :: bs ++ cs' → ∀ y ∈ bs, y.1 ≠ x.1 := by
    intro as bs cs' x he y hy hyx
    rw [he] at hd
    simp only [List.map_append, List.map_cons, List.append_assoc, List.cons_append] at hd
    apply (List.nodup_cons.1 (List.nodup_append.1 hd).2.1).1
    rw [← hyx]
    exact List.mem_append_left _ (List.mem_map_of_mem hy)
  rcases cut_cuv_found h hl hc (fun x hx => (h0 x hx).1) hcut hk hs with ⟨ts1, ts2, rest, rfl, rfl⟩ | ⟨ts1, n, t, ts2, dat, rfl, rfl, hdm, hlast⟩
  · refine ⟨ts1, ts2, rfl, ?_, ?_⟩
    · intro w
      rw [(meshList_perm _).mem_iff, catalogR_keys]
      simp [Dict.keys]
    · intro x hx
      left
      obtain ⟨as, bs, rfl⟩ := List.append_of_mem hx
      have hx' : x ∈ as ++ x :: bs ++ ts2 := List.mem_append_left _ hx
      exact whole_cuv cs sn junk norm hn filter (hc x hx') (hv x hx') _ (catalogR_get [] (hdup rfl))
  · refine ⟨ts1 ++ [(n, t)], ts2, by simp, ?_, ?_⟩
    · intro w
      rw [(meshList_perm _).mem_iff, catalogR_keys]
      simp [Dict.keys]
    · intro x hx
      rcases List.mem_append.1 hx with hx1 | hx1
      · left
        obtain ⟨as, bs, rfl⟩ := List.append_of_mem hx1
        have hx' : x ∈ (as ++ x :: bs) ++ (n, t) :: ts2 := List.mem_append_left _ hx1
        refine whole_cuv cs sn junk norm hn filter (hc x hx') (hv x hx') (allLines (bs ++ [(n, t.withData dat)]) ++ []) ?_
        · rw [List.append_assoc, List.cons_append]
          refine catalogR_get [] ?_
          intro y hy hyx
          rcases List.mem_append.1 hy with hy | hy
          · exact hdup (as := as) (bs := bs) (cs' := (n, t) :: ts2) (x := x) rfl y hy hyx
          · refine hdup (as := as) (bs := bs ++ [(n, t)]) (cs' := ts2) (x := x) (by simp) (n, t) (by simp) ?_
            rw [← hyx, List.mem_singleton.1 hy]
      · rw [List.mem_singleton.1 hx1]
        have hx' : (n, t) ∈ ts1 ++ (n, t) :: ts2 := by simp
        have hget : Dict.get? (catalogR [] (ts1 ++ [(n, t.withData dat)]) []) (natStr n) = some (placesOf (t.withData dat) []) := by
          have := catalogR_get (rest := []) (as := ts1) (bs := []) (n := n) (t := t.withData dat) [] (by simp)
          simpa [allLines] using this
        rcases hlast with hw | ⟨part, hw⟩
        · left
          obtain ⟨r, h1, h2⟩ := whole_cuv cs sn junk norm hn filter hw (hv (n, t) hx') [] hget
          exact ⟨r, h1, h2⟩
        · right
          exact ⟨by simp, fun r hr => last_cuv cs sn junk norm hn filter (hc (n, t) hx') (h0 (n, t) hx').2 (hv (n, t) hx') hdm hw hget hr⟩

/-- **C211 fails.** The tallies behind a cut between two tallies are missing without a complaint. -/
theorem cut_cuv_lost {num : ParseNum} {pre : List Str} {ts1 ts2 : List (Nat × TallyText)} (hp : ∀ l ∈ pre, ¬ marker <+: l)
    (hl : ∀ l ∈ pre ++ allLines (ts1 ++ ts2), IsLine l) (hc : ∀ x ∈ ts1 ++ ts2, ∃ b volume cells, IsCuvTally num x.1 b volume cells x.2) {k : Nat}
    (hk : (pre ++ allLines ts1).length ≤ k) :
    (pre ++ allLines ts1).flatten <+: (pre ++ allLines (ts1 ++ ts2)).flatten ∧
    ∃ D, scanCuv num k (fileLines (pre ++ allLines ts1).flatten) [] = .ok D ∧ ∀ w, w ∈ meshList D ↔ ∃ x ∈ ts1, w = natStr x.1 := by
  have e : allLines (ts1 ++ ts2) = allLines ts1 ++ allLines ts2 := by simp [allLines]
  refine ⟨⟨(allLines ts2).flatten, by rw [e]; simp⟩, ?_⟩
  have ef := fileLines_flatten (pre ++ allLines ts1) (fun l hm => hl l (by rw [e, ← List.append_assoc]; exact List.mem_append_left _ hm)) []
  rw [List.append_nil, show fileLines ([] : Str) = [] from rfl, List.append_nil] at ef
  rw [ef]
  rw [List.length_append] at hk
  obtain ⟨k', rfl⟩ : ∃ k', k = pre.length + k' := ⟨k - pre.length, by omega⟩
  rw [scanCuv_skip hp]
  obtain ⟨k2, h1, h2⟩ := scanCuv_append (fun x hx => hc x (List.mem_append_left _ hx)) [] k' (by rw [List.append_nil]; omega) []
  rw [List.append_nil] at h2
  rw [h2]
  refine ⟨catalogR [] ts1 [], by cases k2 <;> rfl, ?_⟩
  intro w
  rw [(meshList_perm _).mem_iff, catalogR_keys]
  simp [Dict.keys]

/-- the loop over voxels and one more -/
theorem cuvLoop_snoc {num : ParseNum} {norm : Norm} (hn : norm ≠ .other) {filter : Option (List ℤ)} {ne n : Nat}
    {volume : Nat → ℚ} {cells : Nat → List VCell} {a rest r : List Str}
    (h : Pieces n (fun p => IsCuvVoxel num (volume p) (cells p)) a) (hv : ∀ p, p < n → VoxelOk ne (cells p)) {v : List ℚ × List ℚ} {row : List (ℚ × ℚ)}
    (he : cuvElement num norm filter rest = .ok (v, r)) (hf : fit ne v = .ok row) :
    ∃ vs, cuvLoop num norm filter ne (n + 1) (a ++ rest) = .ok vs ∧ vs.getD n [] = row := by
  induction n generalizing volume cells a with
  | zero =>
    rw [pieces_zero h, List.nil_append, cuvLoop, he]
    simp only
    rw [hf]
    exact ⟨_, rfl, rfl⟩
  | succ n ih =>
    obtain ⟨a1, b1, rfl, ha, hb⟩ := pieces_succ h
    obtain ⟨w, h1, h2, _⟩ := cuvVoxel_value (hv 0 (by omega)) norm hn filter (volume 0)
    rw [cuvLoop, List.append_assoc, cuvElement_ok norm filter ha, h1]
    simp only
    rw [fit_ok h2.1 h2.2]
    simp only
    obtain ⟨vs, i1, i2⟩ := ih (volume := fun p => volume (p + 1)) (cells := fun p => cells (p + 1)) hb (fun p hp => hv (p + 1) (by omega))
    rw [i1]
    exact ⟨_, rfl, by simpa using i2⟩

/-- **C211 fails.** When the file ends within the errors of the last voxel, a voxel of one cell, so that a single error is left, the tally is read, and every
energy of the last voxel gets that error. -/
theorem cut_cuv_error (cs sn : ℚ → ℚ) {num : ParseNum} (junk : Data) (norm : Norm) (hn : norm ≠ .other) {pre : List Str} {ts1 ts2 : List (Nat × TallyText)}
    {n : Nat} {t : TallyText} (hp : ∀ l ∈ pre, ¬ marker <+: l) (hl : ∀ l ∈ pre ++ allLines (ts1 ++ (n, t) :: ts2), IsLine l)
    (hc : ∀ x ∈ ts1, ∃ b volume cells, IsCuvTally num x.1 b volume cells x.2) {b : Bounds} {volume : Nat → ℚ} {cells : Nat → List VCell}
    (ht : IsCuvTally num n b volume cells t) (hv : ∀ p, p < b.n1 * b.n2 * b.n3 → VoxelOk b.ne (cells p)) {m : Nat}
    (hm : b.n1 * b.n2 * b.n3 = m + 1) {c : VCell} (h1 : cells m = [c]) {title head line vals errs part w : Str} {a after : List Str} {q : ℚ}
    (hd : t.data = title :: (a ++ head :: line :: vals :: errs :: after)) (ha : Pieces m (fun p => IsVoxelText num (volume p) (cells p)) a)
    (hx : IsVoxelText num (volume m) [c] [head, line, vals, errs]) (hpart : part <+: errs) (hnl : ∀ c ∈ part, c ≠ '\n') (hw : tokens part = [w])
    (hq : num w = some q) {k : Nat} (hk : (pre ++ allLines (ts1 ++ (n, t) :: ts2)).length ≤ k) :
    let cut := (pre ++ allLines ts1 ++ (t.withData (title :: (a ++ [head, line, vals, part]))).lines).flatten
    cut <+: (pre ++ allLines (ts1 ++ (n, t) :: ts2)).flatten ∧
    ∃ D r d, scanCuv num k (fileLines cut) [] = .ok D ∧ getCuv cs sn num junk norm none D (natStr n) = .ok r ∧
      mkFmesh cs sn (b.mesh d) (b.place.map (·.trsf)) none = .ok r.fm ∧
      ∀ e, e < b.ne → (d [0, e, b.n3 - 1, b.n2 - 1, b.n1 - 1]).2 = q := by
  intro cut
  have hpne : part ≠ [] := by
    rintro rfl
    rw [tokens_nil] at hw
    cases hw
  obtain ⟨z, hz⟩ := hpart
  have emain : pre ++ allLines (ts1 ++ (n, t) :: ts2) =
      pre ++ allLines ts1 ++ (t.withData (title :: (a ++ [head, line, vals]))).lines ++ (errs :: (after ++ allLines ts2)) := by
    simp [allLines, TallyText.lines, TallyText.fromBins, TallyText.withData, hd]
  have ecut : pre ++ allLines ts1 ++ (t.withData (title :: (a ++ [head, line, vals, part]))).lines =
      pre ++ allLines ts1 ++ (t.withData (title :: (a ++ [head, line, vals]))).lines ++ [part] := by
    simp [TallyText.lines, TallyText.fromBins, TallyText.withData]
  refine ⟨?_, ?_⟩
  · change (pre ++ allLines ts1 ++ (t.withData (title :: (a ++ [head, line, vals, part]))).lines).flatten <+: _
    rw [emain, ecut, ← hz]
    exact ⟨z ++ (after ++ allLines ts2).flatten, by simp⟩
  have hfl : fileLines cut = pre ++ allLines ts1 ++ (t.withData (title :: (a ++ [head, line, vals, part]))).lines := by
    change fileLines (pre ++ allLines ts1 ++ (t.withData (title :: (a ++ [head, line, vals, part]))).lines).flatten = _
    rw [ecut, List.flatten_append, fileLines_flatten _ (fun l hm => hl l (by rw [emain]; exact List.mem_append_left _ hm))]
    rw [show ([part] : List Str).flatten = part by simp, fileLines_noNl hnl, if_neg hpne]
  rw [hfl]
  -- the cut tally is a tally whose last voxel has one error
  obtain ⟨cells', hcells'⟩ : ∃ cells' : Nat → List VCell, cells' = fun p => if p = m then [⟨c.id, c.frac, c.vals, [q]⟩] else cells p := ⟨_, rfl⟩
  have hlast : IsVoxelText num (volume m) [⟨c.id, c.frac, c.vals, [q]⟩] [head, line, vals, part] := by
    obtain ⟨⟨head', hs, rs, he, w4, w5, f1, ft, f2⟩, h6, h7⟩ := hx
    refine ⟨⟨head', hs, [(vals, part)], ?_, w4, w5, ?_, ft, ?_⟩, h6, h7⟩
    · have e1 := f1.length_eq
      match hs, rs, he, e1, f2 with
      | [x], [y], he, _, _ =>
        simp only [List.flatMap_cons, List.flatMap_nil, List.cons_append, List.nil_append, List.cons.injEq] at he ⊢
        exact ⟨he.1, he.2.1, trivial⟩
    · match hs, f1 with
      | [x], .cons hh .nil => exact .cons hh .nil
    · match rs, f2, he with
      | [y], .cons hh .nil, he =>
        have e1 := f1.length_eq
        match hs, e1, he with
        | [x], _, he =>
          simp only [List.flatMap_cons, List.flatMap_nil, List.cons_append, List.nil_append, List.cons.injEq] at he
          refine .cons ⟨?_, ?_⟩ .nil
          · rw [he.2.2.1]; exact hh.1
          · unfold Line; rw [hw]; simp [hq]
  have hpieces : Pieces (m + 1) (fun p => IsVoxelText num (volume p) (cells' p)) (a ++ [head, line, vals, part]) := by
    obtain ⟨parts, p1, p2, p3⟩ := ha
    refine ⟨parts ++ [[head, line, vals, part]], by simp [p1], by simp [p2], ?_⟩
    intro i hi
    by_cases hi' : i < m
    · rw [List.getD_append _ _ _ _ (by omega), hcells']
      simp only
      rw [if_neg (by omega)]
      exact p3 i hi'
    · obtain rfl : i = m := by omega
      rw [List.getD_append_right _ _ _ _ (by omega), p1, Nat.sub_self, hcells']
      simpa using hlast
  have hmark : ∀ l ∈ title :: (a ++ [head, line, vals, part]), ¬ marker <+: l := by
    intro l hl'
    have hcase : l ∈ t.data ∨ l = part := by
      rw [hd]
      simp only [List.mem_cons, List.mem_append, List.not_mem_nil, or_false] at hl' ⊢
      tauto
    rcases hcase with hl' | rfl
    · exact ht.tally.data l hl'
    · exact fun hcc => ht.tally.data errs (by rw [hd]; simp) (hcc.trans ⟨z, hz⟩)
  have ht' : IsCuvTally num n b volume cells' (t.withData (title :: (a ++ [head, line, vals, part]))) := by
    refine ⟨ht.tally.withData hmark, ht.title, ht.before, ht.bins, ht.noTimes, ht.usable, title, a ++ [head, line, vals, part], [], ?_, ?_⟩
    · simp [TallyText.withData]
    · rw [hm]; exact hpieces
  have hscan : scanCuv num k (pre ++ allLines ts1 ++ (t.withData (title :: (a ++ [head, line, vals, part]))).lines) [] =
      .ok (catalogR [] (ts1 ++ [(n, t.withData (title :: (a ++ [head, line, vals, part])))]) []) := by
    have ek : (pre ++ (allLines (ts1 ++ [(n, t.withData (title :: (a ++ [head, line, vals, part])))]) ++ [])).length ≤ k := by
      have e2 : pre ++ (allLines (ts1 ++ [(n, t.withData (title :: (a ++ [head, line, vals, part])))]) ++ []) =
          pre ++ allLines ts1 ++ (t.withData (title :: (a ++ [head, line, vals, part]))).lines := by simp [allLines]
      rw [e2, ecut]
      rw [emain] at hk
      simp only [List.length_append, List.length_cons, List.length_nil] at hk ⊢
      omega
    have e3 : pre ++ allLines ts1 ++ (t.withData (title :: (a ++ [head, line, vals, part]))).lines =
        pre ++ (allLines (ts1 ++ [(n, t.withData (title :: (a ++ [head, line, vals, part])))]) ++ []) := by simp [allLines]
    rw [e3]
    rw [List.length_append] at ek
    obtain ⟨k', rfl⟩ : ∃ k', k = pre.length + k' := ⟨k - pre.length, by omega⟩
    rw [scanCuv_skip hp]
    obtain ⟨k2, _, g2⟩ := scanCuv_append (num := num) (ts := ts1 ++ [(n, t.withData (title :: (a ++ [head, line, vals, part])))]) (by
      intro x hx
      rcases List.mem_append.1 hx with hx | hx
      · exact hc x hx
      · rw [List.mem_singleton.1 hx]; exact ⟨_, _, _, ht'⟩) [] k' (by omega) []
    rw [g2]
    cases k2 <;> rfl
  have hget : Dict.get? (catalogR [] (ts1 ++ [(n, t.withData (title :: (a ++ [head, line, vals, part])))]) []) (natStr n) =
      some (placesOf (t.withData (title :: (a ++ [head, line, vals, part]))) []) := by
    have := catalogR_get (rest := []) (as := ts1) (bs := []) (n := n) (t := t.withData (title :: (a ++ [head, line, vals, part]))) [] (by simp)
    simpa [allLines] using this
  have ha' : Pieces m (fun p => IsCuvVoxel num (volume p) (cells p)) a := by
    obtain ⟨parts, p1, p2, p3⟩ := ha
    exact ⟨parts, p1, p2, fun i hi => (p3 i hi).1⟩
  have hrow : ∃ v, cuvVoxel norm none (volume m) [⟨c.id, c.frac, c.vals, [q]⟩] = .ok (v, [q]) ∧ v.length = b.ne := by
    have hlen := ((hv m (by omega)).rows c (by rw [h1]; simp)).1
    cases norm with
    | ctot => exact ⟨_, rfl, by simpa using hlen⟩
    | celf => exact ⟨_, rfl, by simpa using hlen⟩
    | other => exact absurd rfl hn
  obtain ⟨v, hv1, hv2⟩ := hrow
  have hel : cuvElement num norm none ([head, line, vals, part] ++ []) = .ok ((v, [q]), []) := by
    rw [cuvElement_ok norm none hlast.1, hv1]
  have hfit : ∃ row, fit b.ne (v, [q]) = .ok row ∧ ∀ e, e < b.ne → (row.getD e (0, 0)).2 = q := by
    refine ⟨List.zip v (List.replicate b.ne q), ?_, ?_⟩
    · unfold fit
      simp only
      have g1 : fitRow b.ne v = .ok v := by unfold fitRow; rw [if_pos hv2]
      have g2 : fitRow b.ne [q] = .ok (List.replicate b.ne q) := by
        unfold fitRow
        split_ifs with h h'
        · rw [← h]; rfl
        · rfl
        · exact absurd rfl h'
      rw [g1]
      simp only
      rw [g2]
    · intro e he
      rw [zip_getD _ _ _ _ (by omega) (by simpa using he)]
      simp [List.getD_eq_getElem?_getD, he]
  obtain ⟨row, hf1, hf2⟩ := hfit
  obtain ⟨vs, hvs, hvs2⟩ := cuvLoop_snoc hn ha' (fun p hp => hv p (by omega)) hel hf1
  have hread : readCuv num junk norm none b.ne b.n3 b.n2 b.n1 ((t.withData (title :: (a ++ [head, line, vals, part]))).data ++ []) =
      .ok (voxelData b.n3 b.n2 vs junk) := by
    unfold readCuv
    rw [hm]
    rw [List.append_nil] at hvs
    simp only [TallyText.withData, List.append_nil, List.tail_cons]
    rw [hvs]
  obtain ⟨r, hr, k1, _⟩ := (getCuv_of cs sn junk norm none ht'.bins ht'.tally ht'.usable ht'.noTimes [] hget).2 _ hread
  refine ⟨_, r, _, hscan, hr, k1, ?_⟩
  intro e he
  have hidx : ((b.n1 - 1) * b.n2 + (b.n2 - 1)) * b.n3 + (b.n3 - 1) = m := by
    have p1 : 0 < b.n1 := by
      rcases Nat.eq_zero_or_pos b.n1 with h | h
      · rw [h] at hm; simp at hm
      · exact h
    have p2 : 0 < b.n2 := by
      rcases Nat.eq_zero_or_pos b.n2 with h | h
      · rw [h] at hm; simp at hm
      · exact h
    have p3 : 0 < b.n3 := by
      rcases Nat.eq_zero_or_pos b.n3 with h | h
      · rw [h] at hm; simp at hm
      · exact h
    obtain ⟨x1, hx1⟩ : ∃ x, b.n1 = x + 1 := ⟨b.n1 - 1, by omega⟩
    obtain ⟨x2, hx2⟩ : ∃ x, b.n2 = x + 1 := ⟨b.n2 - 1, by omega⟩
    obtain ⟨x3, hx3⟩ : ∃ x, b.n3 = x + 1 := ⟨b.n3 - 1, by omega⟩
    rw [hx1, hx2, hx3] at hm ⊢
    simp only [Nat.add_sub_cancel]
    have : (x1 + 1) * (x2 + 1) * (x3 + 1) = (x1 * (x2 + 1) + x2) * (x3 + 1) + x3 + 1 := by ring
    omega
  simp only [voxelData]
  rw [hidx, hvs2]
  exact hf2 e he

/-! ### examples -/

/-- all the hypotheses of `cut_cuv_partial` are met by a file of one tally with two voxels, wherever it is cut -/
example (cs sn : ℚ → ℚ) (junk : Data) {cut : Str} (hcut : cut <+: (fileOf ["d1sune", ""] ++ allLines [(44, cuvTally)]).flatten) {D : Dict Str Places}
    (hs : scanCuv digit (fileLines cut).length (fileLines cut) [] = .ok D) (hw : natStr 44 ∈ meshList D) {r : Tally}
    (hr : getCuv cs sn digit junk .celf none D (natStr 44) = .ok r) :
    ∃ m, mkFmesh cs sn (theBounds.mesh m) none none = .ok r.fm ∧ (m [0, 0, 0, 0, 0]) = (4, 2) ∧ (m [0, 0, 0, 0, 1]).1 = 6 := by
  have hlines : ∀ l ∈ fileOf ["d1sune", ""] ++ allLines [(44, cuvTally)], IsLine l := by
    have : ∀ l ∈ fileOf ["d1sune", ""] ++ allLines [(44, cuvTally)], l.getLast? = some '\n' ∧ ∀ c ∈ l.dropLast, c ≠ '\n' := by decide +kernel
    intro l hl
    obtain ⟨h1, h2⟩ := this l hl
    refine ⟨l.dropLast, ?_, h2⟩
    have h0 : l ≠ [] := by rintro rfl; simp at h1
    rw [List.getLast?_eq_some_getLast h0, Option.some.injEq] at h1
    rw [← h1, List.dropLast_append_getLast]
  obtain ⟨ts1, ts2, he, hm, hx⟩ := cut_cuv_partial cs sn (num := digit) junk .celf (by decide) none (ts := [(44, cuvTally)])
    (file := fileOf ["d1sune", ""] ++ allLines [(44, cuvTally)]) (b := fun _ => theBounds) (volume := fun _ _ => 5) (cells := fun _ p => [voxelCell p])
    ⟨by
      intro x hx
      rw [List.mem_singleton.1 hx]
      exact isCuvTally.tally, fileOf ["d1sune", ""], rfl, by decide +kernel⟩ hlines (by decide)
    (by intro x hx; rw [List.mem_singleton.1 hx]; exact isCuvTally)
    (by intro x hx; exact ⟨by decide, by decide⟩)
    (by
      intro x hx p hp
      refine ⟨by simp, ?_, ?_⟩
      · intro c hc
        rw [List.mem_singleton.1 hc]
        unfold voxelCell
        split_ifs <;> exact ⟨by decide, by decide⟩
      · intro _ c hc
        rw [List.mem_singleton.1 hc]
        unfold voxelCell
        split_ifs <;> rfl) hcut (Nat.le_refl _) hs
  obtain ⟨x, hx1, hx2⟩ := (hm _).1 hw
  have hx44 : x = (44, cuvTally) := by
    have : x ∈ [(44, cuvTally)] := by rw [he]; exact List.mem_append_left _ hx1
    exact List.mem_singleton.1 this
  subst hx44
  have hsel : ¬ ∃ f, (none : Option (List ℤ)) = some f ∧ weighted (selected none [voxelCell 0]) (fun _ => 1) = 0 := by rintro ⟨f, hf, _⟩; cases hf
  have key : CuvReadAs cs sn .celf none theBounds (fun _ => 5) (fun p => [voxelCell p]) (fun p => p + 1 < theBounds.n1 * theBounds.n2 * theBounds.n3) cuvTally r := by
    rcases hx _ hx1 with ⟨r', g1, m, g2, g3, g4, g5, g6⟩ | ⟨_, g⟩
    · rw [hr] at g1
      obtain rfl := Except.ok.inj g1
      refine ⟨m, g2, g3, g4, g5, ?_⟩
      intro e k3 k2 k1 a1 a2 a3 a4
      obtain ⟨q1, q2⟩ := g6 e k3 k2 k1 a1 a2 a3 a4
      exact ⟨fun h => ⟨(q1 h).1, fun _ => (q1 h).2 trivial⟩, fun h => ⟨(q2 h).1, fun _ => (q2 h).2 trivial⟩⟩
    · exact g r hr
  obtain ⟨m, g2, _, _, _, g6⟩ := key
  refine ⟨m, g2, ?_, ?_⟩
  · obtain ⟨_, q2⟩ := g6 0 0 0 0 (by decide) (by decide) (by decide) (by decide)
    obtain ⟨a1, a2⟩ := q2 (by rintro ⟨f, hf, _⟩; cases hf)
    have a3 := a2 (by decide) (by decide +kernel)
    have e1 : voxelValue .celf none ((fun _ => 5) ((0 * theBounds.n2 + 0) * theBounds.n3 + 0)) [voxelCell ((0 * theBounds.n2 + 0) * theBounds.n3 + 0)] 0 = 4 := by
      decide +kernel
    have e2 : voxelError none [voxelCell ((0 * theBounds.n2 + 0) * theBounds.n3 + 0)] 0 = 2 := by decide +kernel
    exact Prod.ext (a1.trans e1) (a3.trans e2)
  · obtain ⟨_, q2⟩ := g6 0 0 0 1 (by decide) (by decide) (by decide) (by decide)
    obtain ⟨a1, _⟩ := q2 (by rintro ⟨f, hf, _⟩; cases hf)
    have e1 : voxelValue .celf none ((fun _ => 5) ((1 * theBounds.n2 + 0) * theBounds.n3 + 0)) [voxelCell ((1 * theBounds.n2 + 0) * theBounds.n3 + 0)] 0 = 6 := by
      decide +kernel
    exact a1.trans e1

/-- `cut_cuv_error`: a voxel with three energies whose file ends behind the first error -/
example : ((cuvElement digit .celf none (fileOf [" 2 1 2 1 5 1", "  8 1", " 6 1 7"] ++ [" 3".toList])).toOption.bind (fun x => (fit 3 x.1).toOption)) =
    some [(6, 3), (1, 3), (7, 3)] ∧
  ((cuvElement digit .celf none (fileOf [" 2 1 2 1 5 1", "  8 1", " 6 1 7", " 3 1 2"])).toOption.bind (fun x => (fit 3 x.1).toOption)) =
    some [(6, 3), (1, 1), (7, 2)] := by decide +kernel

/-- two energies and the total (example) -/
def threeBounds : Bounds := { theBounds with ebin := { data := [0, 5, 9], tag := .erg } }

/-- a tally of two voxels with three energies each (example) -/
def threeTally : TallyText where
  first := ln " Mesh Tally Number        44"
  comment := []
  kind := ln " This is a neutron cell-under-voxel mesh tally."
  more := []
  gap := ln ""
  title := ln " Tally bin boundaries:"
  bins := fileOf ["    X direction:   0  1  2", "    Y direction:   0  5", "    Z direction:   0  3", "    Energy bin number:  1", "    Energy bin boundaries:  0 5 9"]
  gap2 := ln ""
  data := fileOf ["  INDEX X Y Z Volume ncel", " 1 0 2 1 5 1", "  7 1", " 4 2 6", " 2 1 1", " 2 1 2 1 5 1", "  8 1", " 6 1 7", " 3 1 2"]

/-- its cells (example) -/
def threeCell (p : Nat) : VCell := if p = 0 then ⟨7, 1, [4, 2, 6], [2, 1, 1]⟩ else ⟨8, 1, [6, 1, 7], [3, 1, 2]⟩

theorem three_first : IsVoxelText digit 5 [threeCell 0] (fileOf [" 1 0 2 1 5 1", "  7 1", " 4 2 6", " 2 1 1"]) := by
  refine ⟨⟨ln " 1 0 2 1 5 1", [ln "  7 1"], [(ln " 4 2 6", ln " 2 1 1")], rfl, ⟨"5".toList, by decide, by decide +kernel⟩,
    ⟨"1".toList, by decide, by decide +kernel⟩, ?_, ?_⟩, by decide, 1, "1".toList, by decide, by decide +kernel⟩
  · exact .cons ⟨⟨"7".toList, by decide, by decide +kernel⟩, ⟨"1".toList, by decide, by decide +kernel⟩⟩ .nil
  · exact ⟨Or.inl (by decide +kernel), .cons ⟨by unfold Line; decide +kernel, by unfold Line; decide +kernel⟩ .nil⟩

theorem three_last : IsVoxelText digit 5 [threeCell 1] (fileOf [" 2 1 2 1 5 1", "  8 1", " 6 1 7", " 3 1 2"]) := by
  refine ⟨⟨ln " 2 1 2 1 5 1", [ln "  8 1"], [(ln " 6 1 7", ln " 3 1 2")], rfl, ⟨"5".toList, by decide, by decide +kernel⟩,
    ⟨"1".toList, by decide, by decide +kernel⟩, ?_, ?_⟩, by decide, 2, "2".toList, by decide, by decide +kernel⟩
  · exact .cons ⟨⟨"8".toList, by decide, by decide +kernel⟩, ⟨"1".toList, by decide, by decide +kernel⟩⟩ .nil
  · exact ⟨Or.inl (by decide +kernel), .cons ⟨by unfold Line; decide +kernel, by unfold Line; decide +kernel⟩ .nil⟩

theorem three_is : IsCuvTally digit 44 threeBounds (fun _ => 5) (fun p => [threeCell p]) threeTally where
  tally :=
    { first := ⟨8, by decide, by decide⟩
      comment := by decide +kernel
      kind := by decide +kernel
      more := by decide +kernel
      gap := ⟨0, by decide⟩
      title := by decide +kernel
      bins := by decide +kernel
      gap2 := ⟨0, by decide⟩
      data := by decide +kernel }
  title := by decide +kernel
  before := by
    intro l hl
    rcases hl with hl | rfl | hl
    · simp [threeTally] at hl
    · decide +kernel
    · simp [threeTally] at hl
  bins := ⟨[], ln "    X direction:   0  1  2", ln "    Y direction:   0  5", ln "    Z direction:   0  3",
    [ln "    Energy bin number:  1", ln "    Energy bin boundaries:  0 5 9"],
    "    X direction".toList, "    Y direction".toList, "    Z direction".toList, rfl, .flat,
    ⟨by decide, ln "   0  1  2", by decide, by decide +kernel⟩, ⟨by decide, ln "   0  5", by decide, by decide +kernel⟩,
    ⟨by decide, ln "   0  3", by decide, by decide +kernel⟩,
    .counted (by decide +kernel) (Or.inl ⟨_, rfl, ⟨rfl, "    Energy bin boundaries".toList, (by decide +kernel : "Energy".toList <:+: "    Energy bin boundaries".toList), by decide,
      ln "  0 5 9", by decide, by decide +kernel⟩, rfl⟩), fun _ => by decide +kernel⟩
  noTimes := rfl
  usable := ⟨by decide, by decide, by decide, by decide⟩
  data := by
    refine ⟨ln "  INDEX X Y Z Volume ncel", fileOf [" 1 0 2 1 5 1", "  7 1", " 4 2 6", " 2 1 1", " 2 1 2 1 5 1", "  8 1", " 6 1 7", " 3 1 2"], [], by decide, ?_⟩
    refine ⟨[fileOf [" 1 0 2 1 5 1", "  7 1", " 4 2 6", " 2 1 1"], fileOf [" 2 1 2 1 5 1", "  8 1", " 6 1 7", " 3 1 2"]], by decide, by decide, ?_⟩
    intro i hi
    have : i < 2 := hi
    rcases (show i = 0 ∨ i = 1 by omega) with rfl | rfl
    · exact three_first
    · exact three_last

/-- all the hypotheses of `cut_cuv_error` are met: the errors 3, 1, 2 of the last voxel become 3, 3, 3 -/
example (cs sn : ℚ → ℚ) (junk : Data) : ∃ (cut : Str) (D : Dict Str Places) (r : Tally) (d : Data), cut <+: (fileOf ["d1sune", ""] ++ allLines [(44, threeTally)]).flatten ∧
    scanCuv digit 99 (fileLines cut) [] = .ok D ∧ getCuv cs sn digit junk .celf none D (natStr 44) = .ok r ∧
    mkFmesh cs sn (threeBounds.mesh d) none none = .ok r.fm ∧ (d [0, 1, 0, 0, 1]).2 = 3 := by
  obtain ⟨h1, D, r, d, h2, h3, h4, h5⟩ := cut_cuv_error cs sn (num := digit) junk .celf (by decide) (pre := fileOf ["d1sune", ""]) (ts1 := []) (ts2 := [])
    (n := 44) (t := threeTally) (by decide +kernel) (by
      have : ∀ l ∈ fileOf ["d1sune", ""] ++ allLines ([] ++ (44, threeTally) :: []), l.getLast? = some '\n' ∧ ∀ c ∈ l.dropLast, c ≠ '\n' := by decide +kernel
      intro l hl
      obtain ⟨h1, h2⟩ := this l hl
      refine ⟨l.dropLast, ?_, h2⟩
      have h0 : l ≠ [] := by rintro rfl; simp at h1
      rw [List.getLast?_eq_some_getLast h0, Option.some.injEq] at h1
      rw [← h1, List.dropLast_append_getLast]) (by simp) three_is
    (by
      intro p hp
      refine ⟨by simp, ?_, ?_⟩
      · intro c hc
        rw [List.mem_singleton.1 hc]
        unfold threeCell
        split_ifs <;> exact ⟨by decide, by decide⟩
      · intro _ c hc
        rw [List.mem_singleton.1 hc]
        unfold threeCell
        split_ifs <;> rfl)
    (m := 1) (by decide) (c := threeCell 1) rfl (title := ln "  INDEX X Y Z Volume ncel") (head := ln " 2 1 2 1 5 1") (line := ln "  8 1") (vals := ln " 6 1 7")
    (errs := ln " 3 1 2") (part := " 3".toList) (w := "3".toList) (a := fileOf [" 1 0 2 1 5 1", "  7 1", " 4 2 6", " 2 1 1"]) (after := []) (q := 3)
    (by decide) ⟨[fileOf [" 1 0 2 1 5 1", "  7 1", " 4 2 6", " 2 1 1"]], rfl, by decide, fun i hi => by
      obtain rfl : i = 0 := by omega
      exact three_first⟩
    three_last (by decide) (by decide) (by decide) (by decide +kernel) (k := 99) (by decide +kernel)
  exact ⟨_, D, r, d, h1, h2, h3, h4, h5 1 (by decide)⟩

end F4Enix.MeshFile
