import Verif.Out.OutpCut
import Verif.Out.OutpTableMore
/-!
# Printed tables of stopped runs (MCNPoutput.py:521-616)

What `get_table` gives for an output that ends anywhere, compared with the whole file.
-/
namespace F4Enix.Outp
open F4Enix F4Enix.Find

/-- a file that was cut off was cut off in its first part, or has it and was cut off in the rest -/
theorem cutOf_append {ls' a b : List Str} (h : CutOf ls' (a ++ b)) : CutOf ls' a ∨ ∃ b', ls' = a ++ b' ∧ CutOf b' b := by
  rcases h with rfl | ⟨pre, l, post, part, e, h1, h2, rfl⟩
  · exact .inr ⟨b, rfl, .inl rfl⟩
  · rcases List.append_eq_append_iff.1 e with ⟨a', rfl, e2⟩ | ⟨c', rfl, e2⟩
    · refine .inr ⟨a' ++ (if part = [] then [] else [part]), by simp, .inr ⟨a', l, post, part, e2, h1, h2, rfl⟩⟩
    · cases c' with
      | nil =>
        simp only [List.nil_append] at e2
        refine .inr ⟨if part = [] then [] else [part], by simp, .inr ⟨[], l, post, part, by simp [e2], h1, h2, by simp⟩⟩
      | cons c cs =>
        rw [List.cons_append, List.cons.injEq] at e2
        obtain ⟨rfl, rfl⟩ := e2
        exact .inl (.inr ⟨pre, l, cs, part, rfl, h1, h2, rfl⟩)

theorem infix_of_part {m part l : Str} (h : part <+: l) (hm : m <:+: part) : m <:+: l := hm.trans h.isInfix

theorem cutOf_mem {ls' ls : List Str} (h : CutOf ls' ls) : ∀ x ∈ ls', ∃ y ∈ ls, x <+: y := by
  rcases h with rfl | ⟨pre, l, post, part, rfl, h1, _, rfl⟩
  · exact fun x hx => ⟨x, hx, List.prefix_refl x⟩
  · intro x hx
    rcases List.mem_append.1 hx with hx | hx
    · exact ⟨x, by simp [hx], List.prefix_refl x⟩
    · by_cases hp : part = []
      · simp [hp] at hx
      · simp only [hp, if_false, List.mem_singleton] at hx
        exact ⟨l, by simp, hx ▸ h1⟩

/-- lines without a finished table have none when they are cut off -/
theorem open_cut {n : ℕ} {ls' ls : List Str} (h : CutOf ls' ls) (ho : Open n ls) : Open n ls' := by
  rcases h with rfl | ⟨pre, l, post, part, rfl, h1, _, rfl⟩
  · exact ho
  · intro p t r e ht x hx hx2
    by_cases hp : part = []
    · simp only [hp, if_true, List.append_nil] at e
      exact ho p t (r ++ l :: post) (by rw [e]; simp) ht x (by simp [hx]) hx2
    · simp only [hp, if_false] at e
      rcases List.append_eq_append_iff.1 e with ⟨a', rfl, e2⟩ | ⟨c', rfl, e2⟩
      · cases a' with
        | nil =>
          simp only [List.nil_append, List.cons.injEq] at e2
          obtain ⟨rfl, rfl⟩ := e2
          simp at hx
        | cons c cs =>
          rw [List.cons_append, List.cons.injEq] at e2
          have := e2.2
          simp at this
      · cases c' with
        | nil =>
          simp only [List.nil_append, List.cons.injEq] at e2
          obtain ⟨rfl, rfl⟩ := e2
          simp at hx
        | cons c cs =>
          rw [List.cons_append, List.cons.injEq] at e2
          obtain ⟨rfl, rfl⟩ := e2
          rcases List.mem_append.1 hx with hx | hx
          · exact ho p t (cs ++ l :: post) (by simp) ht x (by simp [hx]) hx2
          · simp only [List.mem_singleton] at hx
            subst hx
            exact ho p t (cs ++ l :: post) (by simp) ht l (by simp) (infix_of_part h1 hx2)

/-- lines before a title, and rows: no table is finished -/
theorem open_started {n : ℕ} {s : Seg} (h : s.Ok n) {b' : List Str} (hb : ∀ l ∈ b', ¬ "total".toList <:+: l ∧ ¬ mark n <:+: l) :
    Open n (s.before ++ s.title :: (s.rows ++ b')) := by
  obtain ⟨h1, h2, h3, h4, h5⟩ := h
  intro p t r e ht x hx hx2
  have key : ∀ y ∈ s.rows ++ b', ¬ "total".toList <:+: y ∧ ¬ mark n <:+: y := by
    intro y hy
    rcases List.mem_append.1 hy with hy | hy
    · exact ⟨(h3 y hy).2, (h3 y hy).1⟩
    · exact hb y hy
  rcases List.append_eq_append_iff.1 e with ⟨a', rfl, e2⟩ | ⟨c', hc, e2⟩
  · cases a' with
    | nil =>
      simp only [List.nil_append, List.cons.injEq] at e2
      obtain ⟨rfl, rfl⟩ := e2
      exact (key x hx).1 hx2
    | cons c cs =>
      rw [List.cons_append, List.cons.injEq] at e2
      have ht' : t ∈ s.rows ++ b' := by rw [e2.2]; simp
      exact (key t ht').2 ht
  · cases c' with
    | nil =>
      simp only [List.nil_append, List.cons.injEq] at e2
      obtain ⟨rfl, rfl⟩ := e2
      exact (key x hx).1 hx2
    | cons c cs =>
      rw [List.cons_append, List.cons.injEq] at e2
      obtain ⟨rfl, -⟩ := e2
      exact absurd ht (h1 t (by rw [hc]; simp))

/-- the printings of a cut off output: the first ones of the whole file, row by row, and lines without a finished one -/
theorem cut_segs {n : ℕ} {segs : List Seg} {tail ls' : List Str} (h : ∀ s ∈ segs, s.Ok n) (ht : Open n tail)
    (hc : CutOf ls' (fileOf segs tail)) :
    ∃ (segs' : List Seg) (tail' : List Str), ls' = fileOf segs' tail' ∧ Open n tail' ∧ segs'.length ≤ segs.length ∧
      (∀ s ∈ segs', s.Ok n) ∧ (∀ k < segs'.length, (segs'[k]?).map Seg.rows = (segs[k]?).map Seg.rows) ∧
      (∀ k ≤ segs.length, fileOf (segs.take k) [] <+: ls' → k ≤ segs'.length) := by
  induction segs generalizing ls' with
  | nil =>
    refine ⟨[], ls', rfl, open_cut hc ?_, Nat.le_refl _, by simp, by simp, by simp⟩
    simpa [fileOf] using ht
  | cons s ss ih =>
    have e : fileOf (s :: ss) tail = s.lines ++ fileOf ss tail := by simp [fileOf]
    rw [e] at hc
    have hs := h s (by simp)
    have htake : ∀ k, fileOf ((s :: ss).take (k + 1)) [] = s.lines ++ fileOf (ss.take k) [] := by simp [fileOf]
    rcases cutOf_append hc with hc | ⟨b', rfl, hc2⟩
    · have e2 : s.lines = (s.before ++ s.title :: s.rows) ++ [s.total] := by simp [Seg.lines]
      have hlen : ls'.length ≤ s.lines.length := by
        rcases hc with rfl | ⟨pre, l, post, part, e1, -, -, rfl⟩
        · exact Nat.le_refl _
        · rw [e1]
          by_cases hp : part = [] <;> simp [hp]
      rw [e2] at hc
      have hopen : ∀ b', (∀ l ∈ b', ¬ "total".toList <:+: l ∧ ¬ mark n <:+: l) → ls' = (s.before ++ s.title :: s.rows) ++ b' → Open n ls' := by
        rintro b' hb rfl
        simpa using open_started hs hb
      have hone : ∀ k ≤ (s :: ss).length, fileOf ((s :: ss).take k) [] <+: ls' → k ≤ 1 := by
        intro k hk hp
        by_contra hk2
        obtain ⟨j, rfl⟩ : ∃ j, k = j + 1 + 1 := ⟨k - 2, by omega⟩
        cases ss with
        | nil => simp at hk
        | cons t ss =>
          have := hp.length_le
          rw [htake] at this
          have e3 : fileOf ((t :: ss).take (j + 1)) [] = t.lines ++ fileOf (ss.take j) [] := by simp [fileOf]
          rw [e3] at this
          have e4 : 0 < t.lines.length := by simp [Seg.lines]
          simp only [List.length_append] at this
          omega
      have hnone : Open n ls' → ls' ≠ s.lines → ∃ (segs' : List Seg) (tail' : List Str), ls' = fileOf segs' tail' ∧ Open n tail' ∧
          segs'.length ≤ (s :: ss).length ∧ (∀ s ∈ segs', s.Ok n) ∧
          (∀ k < segs'.length, (segs'[k]?).map Seg.rows = ((s :: ss)[k]?).map Seg.rows) ∧
          (∀ k ≤ (s :: ss).length, fileOf ((s :: ss).take k) [] <+: ls' → k ≤ segs'.length) := by
        intro ho hne
        refine ⟨[], ls', rfl, ho, Nat.zero_le _, by simp, by simp, ?_⟩
        intro k hk hp
        cases k with
        | zero => exact Nat.zero_le _
        | succ k =>
          have h1 := hp
          rw [htake] at h1
          have h2 : s.lines <+: ls' := (List.prefix_append _ _).trans h1
          exact absurd (h2.eq_of_length (by have := h2.length_le; omega)).symm hne
      have hcut : ∀ x, mark n <:+: x → x <+: s.total → False := fun x h1 h2 => hs.2.2.2.2 (infix_of_part h2 h1)
      rcases cutOf_append hc with hc | ⟨b', rfl, hc2⟩
      · refine hnone (open_cut hc ?_) ?_
        · have := open_started hs (b' := []) (by simp)
          simpa using this
        · rintro rfl
          have h6 : s.lines.length ≤ (s.before ++ s.title :: s.rows).length := by
            rcases hc with e5 | ⟨pre, l, post, part, e1, -, -, e5⟩
            · rw [e5]
            · rw [e1]
              conv_lhs => rw [e5]
              by_cases hp : part = [] <;> simp [hp]
          rw [e2] at h6
          simp at h6
      · by_cases hb : ∃ x ∈ b', "total".toList <:+: x
        · obtain ⟨x, hx, hx2⟩ := hb
          obtain ⟨y, hy, hxy⟩ := cutOf_mem hc2 x hx
          simp only [List.mem_singleton] at hy
          subst hy
          have hb1 : b' = [x] := by
            rcases hc2 with rfl | ⟨pre, l, post, part, e1, -, -, rfl⟩
            · simp only [List.mem_singleton] at hx; rw [hx]
            · cases pre with
              | nil =>
                by_cases hp : part = []
                · simp [hp] at hx
                · simp only [hp, if_false, List.nil_append, List.mem_singleton] at hx ⊢
                  rw [hx]
              | cons p pre =>
                have := congrArg List.length e1
                simp at this
          subst hb1
          refine ⟨[{ s with total := x }], [], by simp [fileOf, Seg.lines], ?_, by simp, ?_, ?_, hone⟩
          · intro p t r e5
            simp at e5
          · intro s' hs'
            simp only [List.mem_singleton] at hs'
            subst hs'
            exact ⟨hs.1, hs.2.1, hs.2.2.1, hx2, fun h1 => hcut x h1 hxy⟩
          · intro k hk
            have : k = 0 := by simpa using hk
            subst this
            simp
        · have hq : ∀ l ∈ b', ¬ "total".toList <:+: l ∧ ¬ mark n <:+: l := by
            intro l hl
            refine ⟨fun h1 => hb ⟨l, hl, h1⟩, fun h1 => ?_⟩
            obtain ⟨y, hy, hxy⟩ := cutOf_mem hc2 l hl
            simp only [List.mem_singleton] at hy
            exact hcut l h1 (hy ▸ hxy)
          refine hnone (hopen b' hq rfl) ?_
          intro e5
          rw [e2] at e5
          have := List.append_cancel_left e5
          exact hb ⟨s.total, by rw [this]; simp, hs.2.2.2.1⟩
    · obtain ⟨segs', tail', rfl, i1, i2, i3, i4, i5⟩ := ih (fun x hx => h x (by simp [hx])) hc2
      refine ⟨s :: segs', tail', by simp [fileOf], i1, by simpa using i2, ?_, ?_, ?_⟩
      · intro x hx
        rcases List.mem_cons.1 hx with rfl | hx
        · exact hs
        · exact i3 x hx
      · intro k hk
        cases k with
        | zero => simp
        | succ k =>
          simp only [List.getElem?_cons_succ]
          exact i4 k (by simpa using hk)
      · intro k hk hp
        cases k with
        | zero => exact Nat.zero_le _
        | succ k =>
          rw [htake] at hp
          have := i5 k (by simpa using hk) ((List.prefix_append_right_inj _).1 hp)
          simpa using this

/-- **Printed tables of a stopped run.** When all printings of a table have the same widths, the finished ones of a
cut off output are read as in the whole file (all whose line with the total is there, and no others), the next one is
refused, and the last one is the last finished one. -/
theorem cut_tables {ahead n : ℕ} {segs : List Seg} {tail ls' : List Str} {W : List ℕ} (h : ∀ s ∈ segs, s.Ok n)
    (ht : ∀ l ∈ tail, ¬ mark n <:+: l) (hw : ∀ s ∈ segs, ∃ rs r b, s.rows = rs ++ [r, b] ∧ fwfWidths r = W)
    (hl : ∀ s ∈ segs, ∃ H D, Layout W s.rows H D ∧ ahead ≤ H.length + D.length) (ha : 1 ≤ ahead) (hc : CutOf ls' (fileOf segs tail)) :
    ∃ m ≤ segs.length,
      (∀ k < m, ∃ f, getTable ahead n (k : ℤ) ls' = .ok f ∧ getTable ahead n (k : ℤ) (fileOf segs tail) = .ok f) ∧
      (∀ k : ℕ, m ≤ k → ∃ e, getTable ahead n (k : ℤ) ls' = .error e) ∧
      (0 < m → getTable ahead n (-1) ls' = getTable ahead n ((m - 1 : ℕ) : ℤ) (fileOf segs tail)) ∧
      (∀ k ≤ segs.length, fileOf (segs.take k) [] <+: ls' → k ≤ m) := by
  have read : ∀ (sg : List Seg) (tl : List Str), (∀ s ∈ sg, s.Ok n) → Open n tl →
      (∀ s ∈ sg, ∃ s0 ∈ segs, s.rows = s0.rows) → ∀ (k : ℕ) (t : Seg) (idx : ℤ), sg[k]? = some t → Asks sg.length idx k →
      ∀ H D, Layout W t.rows H D → ahead ≤ H.length + D.length →
      getTable ahead n idx (fileOf sg tl) = .ok (dropEmpty ⟨titlesOf W H, D.map (fields W)⟩) := by
    intro sg tl h1 h2 h3 k t idx hk hidx H D hL hA
    have hne : sg ≠ [] := by rintro rfl; simp at hk
    obtain ⟨sg0, s, rfl⟩ : ∃ sg0 s, sg = sg0 ++ [s] := ⟨sg.dropLast, sg.getLast hne, (List.dropLast_append_getLast hne).symm⟩
    obtain ⟨s0, hs0, e0⟩ := h3 s (by simp)
    obtain ⟨rs, r, b, e1, e2⟩ := hw s0 hs0
    have := table_exact_open (ahead := ahead) (idx := idx) (k := k) (t := t) (H := H) (D := D) h1 h2 (e0.trans e1) (by simpa using hidx) hk
      (by rw [e2]; exact hL) ha hA
    rw [e2] at this
    exact this
  obtain ⟨segs', tail', rfl, i1, i2, i3, i4, i5⟩ := cut_segs h (open_quiet ht) hc
  have hmem : ∀ s ∈ segs', ∃ s0 ∈ segs, s.rows = s0.rows := by
    intro s hs
    obtain ⟨k, hk, rfl⟩ := List.getElem_of_mem hs
    have h4 := i4 k hk
    rw [List.getElem?_eq_getElem hk, List.getElem?_eq_getElem (Nat.lt_of_lt_of_le hk i2)] at h4
    exact ⟨segs[k], List.getElem_mem _, by simpa using h4⟩
  have both : ∀ k < segs'.length, ∀ idx, Asks segs'.length idx k → ∃ f, getTable ahead n idx (fileOf segs' tail') = .ok f ∧
      getTable ahead n (k : ℤ) (fileOf segs tail) = .ok f := by
    intro k hk idx hidx
    have hk2 : k < segs.length := Nat.lt_of_lt_of_le hk i2
    have h4 := i4 k hk
    rw [List.getElem?_eq_getElem hk, List.getElem?_eq_getElem hk2] at h4
    have h5 : segs'[k].rows = segs[k].rows := by simpa using h4
    obtain ⟨H, D, hL, hA⟩ := hl segs[k] (List.getElem_mem _)
    refine ⟨_, read segs' tail' i3 i1 hmem k segs'[k] idx (List.getElem?_eq_getElem hk) hidx H D (by rw [h5]; exact hL) hA,
      read segs tail h (open_quiet ht) (fun s hs => ⟨s, hs, rfl⟩) k segs[k] k (List.getElem?_eq_getElem hk2) ⟨hk2, .inl rfl⟩ H D hL hA⟩
  refine ⟨segs'.length, i2, fun k hk => both k hk k ⟨hk, .inl rfl⟩, ?_, ?_, i5⟩
  · intro k hk
    by_cases hne : segs' = []
    · refine ⟨.valueError, ?_⟩
      subst hne
      unfold getTable
      rw [show fileOf [] tail' = tail' by simp [fileOf], loopW_open _ _ _ _ _ _ i1]
    · obtain ⟨sg0, s, rfl⟩ : ∃ sg0 s, segs' = sg0 ++ [s] := ⟨segs'.dropLast, segs'.getLast hne, (List.dropLast_append_getLast hne).symm⟩
      obtain ⟨s0, hs0, e0⟩ := hmem s (by simp)
      obtain ⟨rs, r, b, e1, e2⟩ := hw s0 hs0
      refine ⟨.indexError, ?_⟩
      unfold getTable
      rw [loopW_file_open i3 i1 (e0.trans e1)]
      have hlen : (instsAt 0 (sg0 ++ [s])).length = (sg0 ++ [s]).length := instsAt_length _ _
      cases hi : instsAt 0 (sg0 ++ [s]) with
      | nil => rw [hi] at hlen; simp at hlen
      | cons i0 is =>
        simp only
        rw [← hi, if_pos (by omega), List.getElem?_eq_none]
        rw [hlen]
        omega
  · intro hm
    obtain ⟨f, h1, h2⟩ := both (segs'.length - 1) (by omega) (-1) ⟨by omega, .inr (by omega)⟩
    rw [h1, h2]

/-- the same with the text of the file -/
theorem cut_tables_text {ahead n : ℕ} {segs : List Seg} {tail : List Str} {W : List ℕ} {text cut : Str} (hf : fileLines text = fileOf segs tail)
    (h : ∀ s ∈ segs, s.Ok n) (ht : ∀ l ∈ tail, ¬ mark n <:+: l) (hw : ∀ s ∈ segs, ∃ rs r b, s.rows = rs ++ [r, b] ∧ fwfWidths r = W)
    (hl : ∀ s ∈ segs, ∃ H D, Layout W s.rows H D ∧ ahead ≤ H.length + D.length) (ha : 1 ≤ ahead) (hc : cut <+: text) {k : ℕ} {f : Frame}
    (hk : getTable ahead n (k : ℤ) (fileLines cut) = .ok f) : getTable ahead n (k : ℤ) (fileLines text) = .ok f := by
  have h1 := cutOf_text hc
  rw [hf] at h1 ⊢
  obtain ⟨m, -, h2, h3, -⟩ := cut_tables h ht hw hl ha h1
  by_cases hm : k < m
  · obtain ⟨g, e1, e2⟩ := h2 k hm
    rw [e2, ← e1, hk]
  · obtain ⟨e, he⟩ := h3 k (by omega)
    rw [he] at hk
    cases hk

/-- **When the widths differ, a cut off output tells something else than the whole one**: the first printing is cut at
its own widths only as long as the second one is not finished. -/
theorem table_widths_cut : ∃ (segs : List Seg) (ls' : List Str), (∀ s ∈ segs, s.Ok 60) ∧ CutOf ls' (fileOf segs []) ∧
    (getTable 2 60 0 ls').map Frame.rows = .ok [[some "1".toList, some "5".toList, some "7".toList], [some "2".toList, some "6".toList, some "8".toList]] ∧
    (getTable 2 60 0 (fileOf segs [])).map Frame.rows = .ok [[some "1".toList, some "5   7".toList], [some "2".toList, some "6   8".toList]] := by
  refine ⟨[exNarrow, exWide], fileOf [exNarrow] [], ?_, ?_, by decide +kernel, by decide +kernel⟩
  · intro s hs
    simp only [List.mem_cons, List.not_mem_nil, or_false] at hs
    rcases hs with rfl | rfl
    · simp only [Seg.Ok, mark, ← contains_iff]; decide +kernel
    · simp only [Seg.Ok, mark, ← contains_iff]; decide +kernel
  · refine .inr ⟨fileOf [exNarrow] [], exWide.title, exWide.rows ++ [exWide.total], [], by simp [fileOf, Seg.lines, exWide], List.nil_prefix, by decide +kernel, by simp⟩

/-- two printings, cut off in the second one (example) -/
example : ∃ f, getTable 2 60 0 (fileOf [exNarrow] (exNarrow.lines.take 8)) = .ok f ∧ getTable 2 60 0 (fileOf [exNarrow, exNarrow] []) = .ok f := by
  have hW : fwfWidths " 2   6   8\n".toList = fwfWidths " 2   6   8\n".toList := rfl
  have hok : exNarrow.Ok 60 := by simp only [Seg.Ok, mark, ← contains_iff]; decide +kernel
  have hlay : Layout (fwfWidths " 2   6   8\n".toList) exNarrow.rows ["  cell mat\n".toList, "     n   m\n".toList] [" 1   5   7\n".toList, " 2   6   8\n".toList] := by
    refine ⟨"\n".toList, ["\n".toList], "\n".toList, rfl, by unfold BlankLine; decide +kernel, by unfold BlankLine; decide +kernel,
      by unfold BlankLine; decide +kernel, by decide, by decide, by decide, by decide, by decide +kernel, by decide +kernel⟩
  obtain ⟨m, -, h2, -, -, h5⟩ := cut_tables (ahead := 2) (n := 60) (segs := [exNarrow, exNarrow]) (tail := []) (ls' := fileOf [exNarrow] (exNarrow.lines.take 8))
    (W := fwfWidths " 2   6   8\n".toList) (by simpa using hok) (by simp)
    (by
      intro s hs
      have : s = exNarrow := by simpa using hs
      subst this
      exact ⟨["\n".toList, "  cell mat\n".toList, "     n   m\n".toList, "\n".toList, " 1   5   7\n".toList], " 2   6   8\n".toList, "\n".toList, rfl, rfl⟩)
    (by
      intro s hs
      have : s = exNarrow := by simpa using hs
      subst this
      exact ⟨_, _, hlay, by decide⟩) (by decide)
    (.inr ⟨fileOf [exNarrow] (exNarrow.lines.take 8), exNarrow.lines.getD 8 [], [exNarrow.total], [], rfl, List.nil_prefix, by decide +kernel, by simp⟩)
  exact h2 0 (h5 1 (by decide) (by simp [fileOf]))

end F4Enix.Outp
