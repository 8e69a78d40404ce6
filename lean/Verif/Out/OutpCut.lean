import Verif.Out.OutpTables
import Verif.Base.Cut
import Verif.Base.Decimal
import Mathlib.Tactic.Positivity
/-!
# MCNP outputs of runs that were stopped (MCNPoutput.py)

The output of a run that was killed, or of a full disk, ends anywhere. What each reading gives for such a file,
compared with the whole file.
-/
namespace F4Enix.Outp
open F4Enix F4Enix.Find

/-- the lines `ls'` of a file that was cut off, the lines of the whole file being `ls`: everything, or the lines
before some line and the part of that line that is left (no line at all if nothing is left of it) (specification) -/
def CutOf (ls' ls : List Str) : Prop :=
  ls' = ls ∨ ∃ (pre : List Str) (l : Str) (post : List Str) (part : Str), ls = pre ++ l :: post ∧ part <+: l ∧ part ≠ l ∧
    ls' = pre ++ (if part = [] then [] else [part])

/-- a text that was cut off anywhere has the lines of a file that was cut off -/
theorem cutOf_text {cut text : Str} (h : cut <+: text) : CutOf (fileLines cut) (fileLines text) := by
  induction text generalizing cut with
  | nil => rw [List.prefix_nil.mp h]; exact .inl rfl
  | cons c s ih =>
    cases cut with
    | nil =>
      refine .inr ⟨[], (fileLines (c :: s)).headD [], (fileLines (c :: s)).tail, [], ?_, List.nil_prefix, ?_, by simp [fileLines]⟩
      · have : fileLines (c :: s) ≠ [] := by
          rw [fileLines]; split_ifs
          · simp
          · cases fileLines s <;> simp
        cases hh : fileLines (c :: s) with
        | nil => exact absurd hh this
        | cons a b => rfl
      · rw [fileLines]; split_ifs
        · simp
        · cases fileLines s <;> simp
    | cons d cut =>
      obtain ⟨rfl, h'⟩ := List.cons_prefix_cons.1 h
      have hh := ih h'
      rw [fileLines, fileLines]
      by_cases hn : d = '\n'
      · rw [if_pos hn, if_pos hn]
        rcases hh with e | ⟨pre, l, post, part, e1, e2, e3, e4⟩
        · rw [e]; exact .inl rfl
        · exact .inr ⟨['\n'] :: pre, l, post, part, by rw [e1]; rfl, e2, e3, by rw [e4]; rfl⟩
      · rw [if_neg hn, if_neg hn]
        rcases hh with e | ⟨pre, l, post, part, e1, e2, e3, e4⟩
        · rw [e]; exact .inl rfl
        · rw [e1, e4]
          cases pre with
          | nil =>
            refine .inr ⟨[], d :: l, post, d :: part, rfl, ?_, by simpa using e3, ?_⟩
            · exact List.cons_prefix_cons.2 ⟨rfl, e2⟩
            · by_cases hp : part = []
              · simp [hp]
              · simp [hp]
          | cons p pre => exact .inr ⟨(d :: p) :: pre, l, post, part, rfl, e2, e3, rfl⟩

/-! ### warnings and fatal errors -/

/-- **Warnings of a stopped run.** They are the first warnings of the whole file, and at most one more: that of
the broken line. -/
theorem cut_warnings {ls' ls : List Str} (collapse : Bool) (h : CutOf ls' ls) :
    ∃ (ws extra : List Str), warningList collapse ls' = ws ++ extra ∧ ws <+: warningList collapse ls ∧ extra.length ≤ 1 := by
  rcases h with rfl | ⟨pre, l, post, part, rfl, _, _, rfl⟩
  · exact ⟨_, [], by simp, List.prefix_refl _, by simp⟩
  · refine ⟨warningList collapse pre, warningList collapse (if part = [] then [] else [part]), ?_, ?_, ?_⟩
    · simp [warningList]
    · simp [warningList]
    · by_cases hp : part = []
      · simp [hp, warningList]
      · simp only [hp, if_false, warningList, List.length_map]
        exact List.length_filter_le _ _

/-- no text is counted more often than in the whole file when the file ends after a whole line, and at most once
more otherwise -/
theorem cut_warning_counts {ls' ls : List Str} (collapse : Bool) (h : CutOf ls' ls) {t : Str} {k : Nat}
    (hk : (t, k) ∈ getWarnings collapse ls') : k ≤ (warningList collapse ls).count t + 1 ∧
      (ls' <+: ls → k ≤ (warningList collapse ls).count t) := by
  have e : k = (warningList collapse ls').count t := by
    simp only [getWarnings, groupSizes, List.mem_map, Prod.mk.injEq] at hk
    obtain ⟨a, _, rfl, rfl⟩ := hk
    rfl
  constructor
  · obtain ⟨ws, extra, h1, h2, h3⟩ := cut_warnings collapse h
    rw [e, h1, List.count_append]
    have := h2.sublist.count_le t
    have := List.count_le_length (a := t) (l := extra)
    omega
  · rintro ⟨r, rfl⟩
    rw [e]
    simp [warningList, List.count_append]

/-- the broken warning of a stopped run can be one that MCNP did not give -/
theorem warning_broken : ∃ (ls' ls : List Str) (t : Str), CutOf ls' ls ∧ (∃ k, (t, k) ∈ getWarnings false ls') ∧
    ∀ k, (t, k) ∉ getWarnings false ls := by
  refine ⟨["  warning.  cell 12".toList], ["  warning.  cell 120 has no volume.\n".toList], "cell 12".toList,
    .inr ⟨[], _, [], "  warning.  cell 12".toList, rfl, by decide +kernel, by decide +kernel, by decide +kernel⟩,
    ⟨1, by decide +kernel⟩, ?_⟩
  intro k hk
  have : ("cell 12".toList) ∈ (getWarnings false ["  warning.  cell 120 has no volume.\n".toList]).map Prod.fst :=
    List.mem_map.2 ⟨_, hk, rfl⟩
  revert this
  decide +kernel

/-- **Fatal errors of a stopped run**: the first ones of the whole file and at most one broken one -/
theorem cut_fatal {ls' ls : List Str} (h : CutOf ls' ls) :
    ∃ (ws extra : List Str), fatalErrors ls' = ws ++ extra ∧ ws <+: fatalErrors ls ∧ extra.length ≤ 1 := by
  rcases h with rfl | ⟨pre, l, post, part, rfl, _, _, rfl⟩
  · exact ⟨_, [], by simp, List.prefix_refl _, by simp⟩
  · refine ⟨fatalErrors pre, fatalErrors (if part = [] then [] else [part]), ?_, ?_, ?_⟩
    · simp [fatalErrors]
    · simp [fatalErrors]
    · by_cases hp : part = []
      · simp [hp, fatalErrors]
      · simp only [hp, if_false, fatalErrors, List.length_map]
        exact List.length_filter_le _ _

/-! ### lost particles -/

/-- the row without its direction (specification) -/
def LpRow.place (r : LpRow) : Str × Str × (ℚ × ℚ × ℚ) × Option (Option ℤ) := (r.surface, r.cell, r.point, r.univ)

theorem lineAt_ok {ls : List Str} {i : Nat} {l : Str} : lineAt ls i = .ok l ↔ ls[i]? = some l := by
  unfold lineAt
  cases ls[i]? <;> simp

/-- a row needs seven lines after that of the surface, of which the last one tells the direction only -/
theorem lpRow_long {num : Str → Option ℚ} {cosine : Bool} {cells : Option (Dict Str (Option ℤ))} {l : Str} {after : List Str}
    {r : LpRow} (h : lpRow num cosine cells l after = .ok r) : 7 ≤ after.length := by
  by_contra hs
  have hl : ∃ e, lpRow num cosine cells l after = .error e := by
    have h6 : lineAt after 6 = .error .indexError := by
      unfold lineAt; rw [List.getElem?_eq_none (by omega)]
    unfold lpRow
    simp only [bind, Except.bind, pure, Except.pure]
    cases digitsOf l with
    | error e => exact ⟨e, rfl⟩
    | ok s =>
      simp only
      cases lineAt after 0 with
      | error e => exact ⟨e, rfl⟩
      | ok l1 =>
        simp only
        cases digitsOf l1 with
        | error e => exact ⟨e, rfl⟩
        | ok c =>
          simp only [h6]
          cases lineAt after 5 with
          | error e =>
            cases cells with
            | none => exact ⟨e, rfl⟩
            | some d =>
              simp only
              cases Dict.get? d c with
              | none => exact ⟨_, rfl⟩
              | some u => exact ⟨e, rfl⟩
          | ok l6 =>
            cases cells with
            | none => exact ⟨_, rfl⟩
            | some d =>
              simp only
              cases Dict.get? d c with
              | none => exact ⟨_, rfl⟩
              | some u => exact ⟨_, rfl⟩
  obtain ⟨e, he⟩ := hl
  rw [he] at h; simp at h

theorem lpTable_short {num : Str → Option ℚ} {cosine : Bool} {cells : Option (Dict Str (Option ℤ))} {ls : List Str}
    (hs : ls.length ≤ 7) {rs : List LpRow} (h : lpTable num cosine cells ls = .ok rs) : rs = [] := by
  induction ls generalizing rs with
  | nil => simpa [lpTable] using h.symm
  | cons l ls ih =>
    rw [lpTable] at h
    simp only [List.length_cons] at hs
    split_ifs at h
    · cases hr : lpRow num cosine cells l ls with
      | error e => rw [hr] at h; simp at h
      | ok r =>
        have := lpRow_long hr
        omega
    · exact ih (by omega) h

/-- `lpRow` looks at seven lines -/
theorem lpRow_congr {num : Str → Option ℚ} {cosine : Bool} {cells : Option (Dict Str (Option ℤ))} {l : Str} {a b : List Str}
    (h0 : a[0]? = b[0]?) (h5 : a[5]? = b[5]?) (h6 : a[6]? = b[6]?) :
    lpRow num cosine cells l a = lpRow num cosine cells l b := by
  unfold lpRow lineAt
  rw [h0, h5, h6]

/-- the row but its direction is the same whatever is in the seventh line -/
theorem lpRow_place {num : Str → Option ℚ} {cosine : Bool} {cells : Option (Dict Str (Option ℤ))} {l : Str} {a b : List Str}
    (h0 : a[0]? = b[0]?) (h5 : a[5]? = b[5]?) {r s : LpRow} (hr : lpRow num cosine cells l a = .ok r)
    (hs : lpRow num cosine cells l b = .ok s) : r.place = s.place ∧ (cosine = false → r = s) := by
  unfold lpRow lineAt at hr hs
  rw [h0, h5] at hr
  simp only [bind, Except.bind, pure, Except.pure] at hr hs
  cases h1 : digitsOf l with
  | error e => rw [h1] at hr; simp at hr
  | ok sf =>
    rw [h1] at hr hs
    simp only at hr hs
    cases h2 : b[0]? with
    | none => rw [h2] at hr; simp at hr
    | some l1 =>
      rw [h2] at hr hs
      simp only at hr hs
      cases h3 : digitsOf l1 with
      | error e => rw [h3] at hr; simp at hr
      | ok c =>
        rw [h3] at hr hs
        simp only at hr hs
        cases h6 : b[5]? with
        | none =>
          rw [h6] at hr
          cases cells with
          | none => simp at hr
          | some d => cases hg : Dict.get? d c <;> simp [hg] at hr
        | some l6 =>
          rw [h6] at hr hs
          cases h7 : a[6]? with
          | none =>
            rw [h7] at hr
            cases cells with
            | none => simp at hr
            | some d => cases hg : Dict.get? d c <;> simp [hg] at hr
          | some l7 =>
            rw [h7] at hr
            cases h8 : b[6]? with
            | none =>
              rw [h8] at hs
              cases cells with
              | none => simp at hs
              | some d => cases hg : Dict.get? d c <;> simp [hg] at hs
            | some l8 =>
              rw [h8] at hs
              simp only at hr hs
              cases hp : three num (findAll sciHere 0 l6) with
              | error e =>
                rw [hp] at hr
                cases cells with
                | none => simp at hr
                | some d => cases hg : Dict.get? d c <;> simp [hg] at hr
              | ok p =>
                rw [hp] at hr hs
                cases cells with
                | none =>
                  simp only at hr hs
                  cases cosine with
                  | false =>
                    simp only [Bool.false_eq_true, if_false, Except.ok.injEq] at hr hs
                    subst hr hs
                    exact ⟨rfl, fun _ => rfl⟩
                  | true =>
                    simp only [if_true] at hr hs
                    cases hx : (three num (findAll sciHere 0 l7)).map some with
                    | error e => rw [hx] at hr; simp at hr
                    | ok x =>
                      rw [hx] at hr
                      cases hy : (three num (findAll sciHere 0 l8)).map some with
                      | error e => rw [hy] at hs; simp at hs
                      | ok y =>
                        rw [hy] at hs
                        simp only [Except.ok.injEq] at hr hs
                        subst hr hs
                        exact ⟨rfl, by simp⟩
                | some d =>
                  simp only at hr hs
                  cases hg : Dict.get? d c with
                  | none => simp [hg] at hr
                  | some u =>
                    rw [hg] at hr hs
                    simp only at hr hs
                    cases cosine with
                    | false =>
                      simp only [Bool.false_eq_true, if_false, Except.ok.injEq] at hr hs
                      subst hr hs
                      exact ⟨rfl, fun _ => rfl⟩
                    | true =>
                      simp only [if_true] at hr hs
                      cases hx : (three num (findAll sciHere 0 l7)).map some with
                      | error e => rw [hx] at hr; simp at hr
                      | ok x =>
                        rw [hx] at hr
                        cases hy : (three num (findAll sciHere 0 l8)).map some with
                        | error e => rw [hy] at hs; simp at hs
                        | ok y =>
                          rw [hy] at hs
                          simp only [Except.ok.injEq] at hr hs
                          subst hr hs
                          exact ⟨rfl, by simp⟩

/-- **Lost particles of a stopped run.** If the table can be made of the cut file and of the whole file, all its
rows but the last are the first rows of the whole table, and so are surface, cell, universe and point of the
last one; without directions the last one is exact too. -/
theorem cut_lost {num : Str → Option ℚ} {cosine : Bool} {cells : Option (Dict Str (Option ℤ))} {ls' ls : List Str}
    (h : CutOf ls' ls) {rs rs' : List LpRow} (h1 : lpTable num cosine cells ls' = .ok rs)
    (h2 : lpTable num cosine cells ls = .ok rs') :
    rs.dropLast <+: rs' ∧ rs.map LpRow.place <+: rs'.map LpRow.place ∧ (cosine = false → rs <+: rs') := by
  rcases h with rfl | ⟨pre, l, post, part, rfl, _, _, rfl⟩
  · rw [h1] at h2
    simp only [Except.ok.injEq] at h2
    subst h2
    exact ⟨List.dropLast_prefix _, List.prefix_refl _, fun _ => List.prefix_refl _⟩
  have hlen : (if part = [] then [] else [part] : List Str).length ≤ 1 := by split_ifs <;> simp
  generalize (if part = [] then [] else [part] : List Str) = tl at h1 hlen
  induction pre generalizing rs rs' with
  | nil =>
    have : rs = [] := lpTable_short (by simpa using le_trans hlen (by omega)) h1
    subst this
    exact ⟨List.nil_prefix, List.nil_prefix, fun _ => List.nil_prefix⟩
  | cons x pre ih =>
    rw [List.cons_append, lpTable] at h1 h2
    by_cases hc : contains surfaceId x = true
    · rw [if_pos hc] at h1 h2
      cases hr : lpRow num cosine cells x (pre ++ tl) with
      | error e => rw [hr] at h1; simp at h1
      | ok r =>
        rw [hr] at h1
        simp only at h1
        cases hs : lpRow num cosine cells x (pre ++ l :: post) with
        | error e => rw [hs] at h2; simp at h2
        | ok s =>
          rw [hs] at h2
          simp only at h2
          cases ht : lpTable num cosine cells (pre ++ tl) with
          | error e => rw [ht] at h1; simp at h1
          | ok qs =>
            rw [ht] at h1
            simp only [Except.ok.injEq] at h1
            cases hu : lpTable num cosine cells (pre ++ l :: post) with
            | error e => rw [hu] at h2; simp at h2
            | ok qs' =>
              rw [hu] at h2
              simp only [Except.ok.injEq] at h2
              subst h1 h2
              have long := lpRow_long hr
              rw [List.length_append] at long
              have g : ∀ i, i < pre.length → (pre ++ tl)[i]? = (pre ++ l :: post)[i]? := by
                intro i hi
                rw [List.getElem?_append_left hi, List.getElem?_append_left hi]
              by_cases h7 : 7 ≤ pre.length
              · rw [lpRow_congr (g 0 (by omega)) (g 5 (by omega)) (g 6 (by omega)), hs] at hr
                simp only [Except.ok.injEq] at hr
                subst hr
                obtain ⟨i1, i2, i3⟩ := ih hu ht
                refine ⟨?_, by simpa using i2, fun q => by simpa using i3 q⟩
                cases qs with
                | nil => exact List.nil_prefix
                | cons q qs =>
                  rw [List.dropLast_cons_of_ne_nil (by simp)]
                  exact List.cons_prefix_cons.2 ⟨rfl, i1⟩
              · have : qs = [] := lpTable_short (by rw [List.length_append]; omega) ht
                subst this
                obtain ⟨j1, j2⟩ := lpRow_place (g 0 (by omega)) (g 5 (by omega)) hr hs
                refine ⟨List.nil_prefix, ?_, ?_⟩
                · simp only [List.map_cons, List.map_nil]
                  exact List.cons_prefix_cons.2 ⟨j1, List.nil_prefix⟩
                · intro q
                  rw [j2 q]
                  exact List.cons_prefix_cons.2 ⟨rfl, List.nil_prefix⟩
    · rw [if_neg hc] at h1 h2
      exact ih h2 h1

/-- the direction of the last particle can be wrong: the file ends within the last number -/
theorem direction_broken : ∃ (num : Str → Option ℚ) (ls' ls : List Str) (r r' : LpRow), CutOf ls' ls ∧
    lpTable num true none ls' = .ok [r] ∧ lpTable num true none ls = .ok [r'] ∧ r.cosines ≠ r'.cosines := by
  refine ⟨fun w => some (w.length : ℚ),
    [" currently being tracked has reached surface 5\n".toList, " 7\n".toList, [], [], [], [],
      " 1.0E+00 2.0E+00 3.0E+00\n".toList, " 1.0E+00 2.0E+00 3.0E-1".toList],
    [" currently being tracked has reached surface 5\n".toList, " 7\n".toList, [], [], [], [],
      " 1.0E+00 2.0E+00 3.0E+00\n".toList, " 1.0E+00 2.0E+00 3.0E-11\n".toList],
    ⟨"5".toList, "7".toList, (7, 7, 7), some (7, 7, 6), none⟩, ⟨"5".toList, "7".toList, (7, 7, 7), some (7, 7, 7), none⟩,
    .inr ⟨[" currently being tracked has reached surface 5\n".toList, " 7\n".toList, [], [], [], [],
      " 1.0E+00 2.0E+00 3.0E+00\n".toList], _, [], " 1.0E+00 2.0E+00 3.0E-1".toList, rfl, by decide +kernel, by decide +kernel,
      by decide +kernel⟩, by decide +kernel, by decide +kernel, by decide +kernel⟩

/-! ### number of histories and of lost particles -/

theorem digitsVal_le {a b : Str} (h : a <+: b) : digitsVal a ≤ digitsVal b := by
  obtain ⟨c, rfl⟩ := h
  rw [digitsVal_append]
  exact le_trans (Nat.le_mul_of_pos_right _ (Nat.pos_of_ne_zero (by positivity))) (Nat.le_add_right _ _)

theorem takeWhile_prefix {p : Char → Bool} {a b : Str} (h : a <+: b) : a.takeWhile p <+: b.takeWhile p := by
  induction b generalizing a with
  | nil => rw [List.prefix_nil.mp h]
  | cons c b ih =>
    cases a with
    | nil => simp
    | cons d a =>
      obtain ⟨rfl, h'⟩ := List.cons_prefix_cons.1 h
      rw [List.takeWhile_cons, List.takeWhile_cons]
      cases p d with
      | false => simp
      | true => simp only [if_true]; exact List.cons_prefix_cons.2 ⟨rfl, ih h'⟩

theorem dropWhile_prefix {p : Char → Bool} {a b : Str} (h : a <+: b) : a.dropWhile p <+: b.dropWhile p := by
  induction b generalizing a with
  | nil => rw [List.prefix_nil.mp h]
  | cons c b ih =>
    cases a with
    | nil => simp
    | cons d a =>
      obtain ⟨rfl, h'⟩ := List.cons_prefix_cons.1 h
      rw [List.dropWhile_cons, List.dropWhile_cons]
      cases p d with
      | false => simpa using h
      | true => simp only [if_true]; exact ih h'

theorem searchDigits_prefix {a b w : Str} (h : a <+: b) (hw : searchDigits a = some w) :
    ∃ v, searchDigits b = some v ∧ w <+: v := by
  unfold searchDigits at hw ⊢
  have hp := takeWhile_prefix (p := isDigit) (dropWhile_prefix (p := fun c => !isDigit c) h)
  cases ha : List.takeWhile isDigit (a.dropWhile (fun c => !isDigit c)) with
  | nil => rw [ha] at hw; simp at hw
  | cons c r =>
    rw [ha] at hw hp
    simp only [Option.some.injEq] at hw
    subst hw
    cases hb : List.takeWhile isDigit (b.dropWhile (fun c => !isDigit c)) with
    | nil => rw [hb] at hp; simp at hp
    | cons c' r' => rw [hb] at hp; exact ⟨_, rfl, hp⟩

/-- **Number of histories of a stopped run.** If one is found, the whole file has one, which is not smaller; they
are the same unless the file ends in the line of the number. -/
theorem cut_nps {particle : Str} {ls' ls : List Str} (h : CutOf ls' ls) {n : Nat} (hn : getNps particle ls' = .ok n) :
    ∃ n', getNps particle ls = .ok n' ∧ n ≤ n' ∧ (ls' <+: ls → n = n') := by
  rcases h with rfl | ⟨pre, l, post, part, rfl, hp, _, rfl⟩
  · exact ⟨n, hn, le_refl _, fun _ => rfl⟩
  by_cases h0 : part = []
  · -- the file ends after a whole line
    rw [if_pos h0, List.append_nil] at hn
    have key : getNps particle (pre ++ l :: post) = .ok n := by
      induction pre with
      | nil => simp [getNps] at hn
      | cons x pre ih =>
        rw [List.cons_append, getNps]
        rw [getNps] at hn
        by_cases hc : contains (particle ++ " creation".toList) x = true
        · rw [if_pos hc] at hn ⊢
          cases hl : lineAt pre 2 with
          | error e => rw [hl] at hn; simp at hn
          | ok l3 =>
            rw [hl] at hn
            have := lineAt_ok.1 hl
            have h2 : lineAt (pre ++ l :: post) 2 = .ok l3 := by
              rw [lineAt_ok, List.getElem?_append_left (List.getElem?_eq_some_iff.1 this).1]
              exact this
            rw [h2]
            exact hn
        · rw [if_neg hc] at hn ⊢
          exact ih hn
    exact ⟨n, key, le_refl _, fun _ => rfl⟩
  · rw [if_neg h0] at hn ⊢
    induction pre with
    | nil =>
      rw [List.nil_append, getNps] at hn
      split_ifs at hn <;> simp [lineAt, getNps] at hn
    | cons x pre ih =>
      rw [List.cons_append, getNps] at hn
      simp only [List.cons_append]
      rw [getNps]
      by_cases hc : contains (particle ++ " creation".toList) x = true
      · rw [if_pos hc] at hn ⊢
        cases hl : lineAt (pre ++ [part]) 2 with
        | error e => rw [hl] at hn; simp at hn
        | ok l3 =>
          rw [hl] at hn
          simp only at hn
          have g := lineAt_ok.1 hl
          cases hd : digitsOf l3 with
          | error e => rw [hd] at hn; simp at hn
          | ok w =>
            rw [hd] at hn
            simp only [Except.ok.injEq] at hn
            have hw : searchDigits l3 = some w := by
              unfold digitsOf at hd
              cases hs : searchDigits l3 with
              | none => rw [hs] at hd; simp at hd
              | some w' => rw [hs] at hd; simpa using hd
            by_cases h2 : 2 < pre.length
            · rw [List.getElem?_append_left h2] at g
              have : lineAt (pre ++ l :: post) 2 = .ok l3 := by
                rw [lineAt_ok, List.getElem?_append_left h2]; exact g
              rw [this]
              simp only [hd]
              exact ⟨_, rfl, by omega, fun _ => hn.symm⟩
            · have lp : pre.length = 2 := by
                have := (List.getElem?_eq_some_iff.1 g).1
                simp only [List.length_append, List.length_singleton] at this
                omega
              rw [List.getElem?_append_right (by omega), lp] at g
              simp only [Nat.sub_self, List.getElem?_cons_zero, Option.some.injEq] at g
              subst g
              have : lineAt (pre ++ l :: post) 2 = .ok l := by
                rw [lineAt_ok, List.getElem?_append_right (by omega), lp]; rfl
              rw [this]
              obtain ⟨v, hv, hwv⟩ := searchDigits_prefix hp hw
              simp only [digitsOf, hv]
              refine ⟨_, rfl, by rw [← hn]; exact digitsVal_le hwv, ?_⟩
              intro hpre
              have hpl : part = l := by
                obtain ⟨t, ht⟩ := hpre
                rw [List.cons_append, List.append_assoc] at ht
                simp only [List.cons.injEq, true_and, List.append_cancel_left_eq, List.singleton_append] at ht
                exact ht.1
              subst hpl
              rw [hw] at hv
              simp only [Option.some.injEq] at hv
              rw [← hn, hv]
      · rw [if_neg hc] at hn ⊢
        obtain ⟨n', h1, h2, h3⟩ := ih hn
        refine ⟨n', h1, h2, ?_⟩
        rintro ⟨t, ht⟩
        simp only [List.cons_append, List.cons.injEq, true_and] at ht
        exact h3 ⟨t, ht⟩

/-- fewer histories than the run had -/
theorem nps_broken : ∃ (ls' ls : List Str), CutOf ls' ls ∧ getNps "neutron".toList ls' = .ok 12 ∧
    getNps "neutron".toList ls = .ok 1200 :=
  ⟨["1neutron creation     tracks\n".toList, "\n".toList, "\n".toList, "    source     12".toList],
    ["1neutron creation     tracks\n".toList, "\n".toList, "\n".toList, "    source     1200   1.0\n".toList],
    .inr ⟨["1neutron creation     tracks\n".toList, "\n".toList, "\n".toList], _, [], "    source     12".toList, rfl,
      by decide +kernel, by decide +kernel, by decide +kernel⟩, by decide +kernel, by decide +kernel⟩

/-- **Total of lost particles of a stopped run**: no more than some line of the whole file with these words says -/
theorem cut_tot_lp {ls' ls : List Str} (h : CutOf ls' ls) {n : Nat} (hn : getTotLp ls' = some n) :
    ∃ l ∈ ls, totalLP <:+: l ∧ ∃ w, searchDigits l = some w ∧ n ≤ digitsVal w ∧ (ls' <+: ls → n = digitsVal w) := by
  have mem : ∃ l ∈ ls', totalLP <:+: l ∧ ∃ w, searchDigits l = some w ∧ n = digitsVal w := by
    unfold getTotLp at hn
    have hr : ∀ l, l ∈ ls'.reverse → l ∈ ls' := fun l hl => List.mem_reverse.1 hl
    generalize ls'.reverse = rv at hn hr
    induction rv with
    | nil => simp [totLpLoop] at hn
    | cons x rv ih =>
      rw [totLpLoop] at hn
      split_ifs at hn with hc
      · cases hs : searchDigits x with
        | none => rw [hs] at hn; simp at hn
        | some w =>
          rw [hs] at hn
          simp only [Option.map_some, Option.some.injEq] at hn
          exact ⟨x, hr x (by simp), (contains_iff _ _).1 hc, w, hs, hn.symm⟩
      · exact ih hn (fun l hl => hr l (by simp [hl]))
  obtain ⟨l, hl, hc, w, hw, e⟩ := mem
  rcases h with rfl | ⟨pre, l0, post, part, rfl, hp, _, rfl⟩
  · exact ⟨l, hl, hc, w, hw, by omega, fun _ => e⟩
  · by_cases hpre : l ∈ pre
    · exact ⟨l, by simp [hpre], hc, w, hw, by omega, fun _ => e⟩
    · have : l = part := by
        rw [List.mem_append] at hl
        rcases hl with hl | hl
        · exact absurd hl hpre
        · split_ifs at hl with h0
          · simp at hl
          · simpa using hl
      subst this
      have hne : l ≠ [] := by
        rintro rfl
        rw [List.infix_nil] at hc
        revert hc; decide +kernel
      obtain ⟨v, hv, hwv⟩ := searchDigits_prefix hp hw
      refine ⟨l0, by simp, hc.trans hp.isInfix, v, hv, by rw [e]; exact digitsVal_le hwv, ?_⟩
      intro hpr
      rw [if_neg hne] at hpr
      obtain ⟨t, ht⟩ := hpr
      rw [List.append_assoc, List.append_cancel_left_eq] at ht
      simp only [List.singleton_append, List.cons.injEq] at ht
      rw [← ht.1, hw] at hv
      simp only [Option.some.injEq] at hv
      rw [e, hv]

/-- without its last lines the file tells no total: the rate of lost particles is refused -/
theorem lpr_refused {ls : List Str} (h : ∀ l ∈ ls, ¬ totalLP <:+: l) : ∃ e, getLpr ls = .error e := by
  have : getTotLp ls = none := by
    unfold getTotLp
    have hr : ∀ l ∈ ls.reverse, ¬ totalLP <:+: l := fun l hl => h l (List.mem_reverse.1 hl)
    generalize ls.reverse = rv at hr
    induction rv with
    | nil => rfl
    | cons x rv ih =>
      rw [totLpLoop, if_neg (by rw [contains_iff]; exact hr x (by simp))]
      exact ih (fun l hl => hr l (by simp [hl]))
  unfold getLpr
  cases getNps "neutron".toList ls with
  | error e => exact ⟨e, rfl⟩
  | ok n => rw [this]; exact ⟨_, rfl⟩

/-! ### statistical checks -/

/-- what follows the first title -/
theorem afterTitle_split {tally : Nat} {ls after : List Str} (h : afterTitle tally ls = some after) :
    ∃ pre title, ls = pre ++ title :: after ∧ isTitle tally title = true ∧ ∀ l ∈ pre, isTitle tally l = false := by
  induction ls with
  | nil => simp [afterTitle] at h
  | cons x ls ih =>
    rw [afterTitle] at h
    split_ifs at h with hc
    · simp only [Option.some.injEq] at h
      subst h
      exact ⟨[], x, rfl, hc, by simp⟩
    · obtain ⟨pre, title, h1, h2, h3⟩ := ih h
      refine ⟨x :: pre, title, by rw [h1]; rfl, h2, ?_⟩
      intro l hl
      rcases List.mem_cons.1 hl with rfl | hl
      · simpa using hc
      · exact h3 l hl

theorem afterTitle_at {tally : Nat} {pre after : List Str} {title : Str} (h1 : isTitle tally title = true)
    (h2 : ∀ l ∈ pre, isTitle tally l = false) : afterTitle tally (pre ++ title :: after) = some after := by
  induction pre with
  | nil => rw [List.nil_append, afterTitle, if_pos h1]
  | cons x pre ih =>
    rw [List.cons_append, afterTitle, if_neg (by rw [h2 x (by simp)]; simp)]
    exact ih (fun l hl => h2 l (by simp [hl]))

/-- **Checks of a tally in a stopped run.** If they can be read they are those of the whole file, or the file ends
within the third line of them, the answers. -/
theorem cut_checks {ls' ls : List Str} (h : CutOf ls' ls) {tally : Nat} {t : List CheckRow} (ht : tallyChecks ls' tally = .ok t) :
    tallyChecks ls tally = .ok t ∨ ∃ pre title six answers part post, six.length = 6 ∧ part <+: answers ∧ part ≠ answers ∧
      isTitle tally title = true ∧ ls = pre ++ title :: (six ++ answers :: post) ∧ ls' = pre ++ title :: (six ++ [part]) := by
  rcases h with rfl | ⟨pre, l, post, part, rfl, hp, hpl, rfl⟩
  · exact .inl ht
  unfold tallyChecks at ht
  cases ha : afterTitle tally (pre ++ if part = [] then [] else [part]) with
  | none => rw [ha] at ht; simp at ht
  | some after =>
    rw [ha] at ht
    simp only at ht
    have n6 : 6 < after.length := by
      by_contra hs
      have : lineAt after 6 = .error .indexError := by
        unfold lineAt; rw [List.getElem?_eq_none (by omega)]
      rw [this] at ht
      cases h4 : lineAt after 4 <;> cases h5 : lineAt after 5 <;> simp [h4, h5] at ht
    obtain ⟨p0, title, e1, e2, e3⟩ := afterTitle_split ha
    have tl : (if part = [] then [] else [part] : List Str).length ≤ 1 := by split_ifs <;> simp
    -- the title is before the end
    have hlen := congrArg List.length e1
    simp only [List.length_append, List.length_cons] at hlen
    have hp0 : p0.length < pre.length := by omega
    obtain ⟨mid, hmid⟩ : ∃ mid, pre = p0 ++ title :: mid := by
      have h1 : (p0 ++ [title]) <+: pre ++ (if part = [] then [] else [part]) := ⟨after, by rw [e1]; simp⟩
      have h2 : (p0 ++ [title]) <+: pre :=
        List.prefix_of_prefix_length_le h1 (List.prefix_append _ _) (by simp; omega)
      obtain ⟨mid, hm⟩ := h2
      exact ⟨mid, by rw [← hm]; simp⟩
    subst hmid
    have hafter : after = mid ++ (if part = [] then [] else [part]) := by
      rw [List.append_assoc, List.append_cancel_left_eq, List.cons_append, List.cons.injEq] at e1
      exact e1.2.symm
    have hwhole : afterTitle tally (p0 ++ title :: mid ++ l :: post) = some (mid ++ l :: post) := by
      rw [List.append_assoc, List.cons_append]
      exact afterTitle_at e2 e3
    by_cases h7 : 7 ≤ mid.length
    · refine .inl ?_
      unfold tallyChecks
      rw [hwhole]
      simp only
      have g : ∀ i, i < 7 → lineAt (mid ++ l :: post) i = lineAt after i := by
        intro i hi
        unfold lineAt
        rw [hafter, List.getElem?_append_left (by omega), List.getElem?_append_left (by omega)]
      rw [g 4 (by omega), g 5 (by omega), g 6 (by omega)]
      exact ht
    · refine .inr ⟨p0, title, mid, l, part, post, ?_, hp, hpl, e2, by simp, ?_⟩
      · rw [hafter, List.length_append] at n6; omega
      · have : part ≠ [] := by
          rintro rfl
          rw [hafter] at n6
          simp at n6; omega
        rw [if_neg this]; simp

/-- the title of the sample (example) -/
def stoppedTitle : Str := "           results of 10 statistical checks for tally 14\n".toList
/-- the six lines after it (example) -/
def stoppedSix : List Str := [[], [], [], [],
  " desired random <0.10 yes 1/sqrt(nps) <0.10 yes 1/nps constant random >3.00\n".toList,
  " observed decrease 0.30 no no 0.40 no no increase increase 0.00\n".toList]
/-- the answers (example) -/
def stoppedAnswers : Str := " passed? no no no no no no no no no no\n".toList

/-- a file that ends within the answers says that checks were passed that were not -/
theorem checks_broken : ∃ (ls' ls : List Str), CutOf ls' ls ∧
    passedOf ls' 14 = .ok [some "no".toList, none, none, none, none, none, none, some "yes".toList, some "yes".toList, none] ∧
    passedOf ls 14 = .ok (List.replicate 10 (some "no".toList)) :=
  ⟨stoppedTitle :: (stoppedSix ++ [" passed? no".toList]), stoppedTitle :: (stoppedSix ++ [stoppedAnswers]),
    .inr ⟨stoppedTitle :: stoppedSix, stoppedAnswers, [], " passed? no".toList, rfl, by decide +kernel, by decide +kernel, by decide +kernel⟩,
    by decide +kernel, by decide +kernel⟩

theorem set_keys_prefix {β : Type} (d : Dict Nat β) (n : Nat) (r : β) : d.map Prod.fst <+: (Dict.set d n r).map Prod.fst := by
  induction d with
  | nil => exact List.nil_prefix
  | cons x d ih =>
    obtain ⟨k, v⟩ := x
    rw [Dict.set]
    split_ifs with h
    · rw [List.map_cons, List.map_cons, h]
    · simpa using ih

/-- what a line does: nothing to the tallies, the end, an error, or one tally stored -/
theorem tfc_step (l : Str) (flag : Bool) (res : Option Check) (d : Dict Nat Check) :
    (∃ flag' res', ∀ ls, tfcLoop (l :: ls) flag res d = tfcLoop ls flag' res' d) ∨
    (∀ ls, tfcLoop (l :: ls) flag res d = .ok d) ∨ (∃ e, ∀ ls, tfcLoop (l :: ls) flag res d = .error e) ∨
    ∃ n r flag' res', tallyNumber l = some n ∧ ∀ ls, tfcLoop (l :: ls) flag res d = tfcLoop ls flag' res' (Dict.set d n r) := by
  by_cases h1 : contains "result of statistical checks".toList l = true
  · exact .inl ⟨true, res, fun ls => by rw [tfcLoop, if_pos h1]⟩
  · by_cases h2 : flag = true
    · cases ht : tallyNumber l with
      | none =>
        by_cases h3 : contains "the 10 statistical checks are only".toList l = true
        · refine .inr (.inl fun ls => ?_)
          rw [tfcLoop, if_neg h1, if_pos h2, ht]
          simp only
          rw [if_pos h3]
        · refine .inl ⟨flag, res, fun ls => ?_⟩
          rw [tfcLoop, if_neg h1, if_pos h2, ht]
          simp only
          rw [if_neg h3]
      | some n =>
        cases ho : outcome l with
        | some r =>
          refine .inr (.inr (.inr ⟨n, r, flag, some r, rfl, fun ls => ?_⟩))
          rw [tfcLoop, if_neg h1, if_pos h2, ht, ho]
        | none =>
          cases res with
          | some r =>
            refine .inr (.inr (.inr ⟨n, r, flag, some r, rfl, fun ls => ?_⟩))
            rw [tfcLoop, if_neg h1, if_pos h2, ht, ho]
          | none =>
            refine .inr (.inr (.inl ⟨.unboundLocal, fun ls => ?_⟩))
            rw [tfcLoop, if_neg h1, if_pos h2, ht, ho]
    · exact .inl ⟨flag, res, fun ls => by rw [tfcLoop, if_neg h1, if_neg h2]⟩

theorem tfcLoop_grows {ls : List Str} {flag : Bool} {res : Option Check} {d d' : Dict Nat Check}
    (h : tfcLoop ls flag res d = .ok d') : d.map Prod.fst <+: d'.map Prod.fst ∧
      ∀ n, (∀ l ∈ ls, tallyNumber l ≠ some n) → Dict.get? d' n = Dict.get? d n := by
  induction ls generalizing flag res d with
  | nil =>
    rw [tfcLoop] at h
    simp only [Except.ok.injEq] at h
    subst h
    exact ⟨List.prefix_refl _, fun _ _ => rfl⟩
  | cons l ls ih =>
    rcases tfc_step l flag res d with ⟨f, r, q⟩ | q | ⟨e, q⟩ | ⟨n, r, f, r', ht, q⟩
    · rw [q] at h
      obtain ⟨h1, h2⟩ := ih h
      exact ⟨h1, fun n hn => h2 n (fun l' hl => hn l' (by simp [hl]))⟩
    · rw [q] at h
      simp only [Except.ok.injEq] at h
      subst h
      exact ⟨List.prefix_refl _, fun _ _ => rfl⟩
    · rw [q] at h; simp at h
    · rw [q] at h
      obtain ⟨h1, h2⟩ := ih h
      refine ⟨(set_keys_prefix d n r).trans h1, ?_⟩
      intro m hm
      rw [h2 m (fun l' hl => hm l' (by simp [hl]))]
      have hne : n ≠ m := by
        rintro rfl
        exact hm l (by simp) ht
      exact Dict.get?_set_ne d r hne

theorem tfcLoop_append (a b : List Str) {flag : Bool} {res : Option Check} {d d1 : Dict Nat Check}
    (h : tfcLoop a flag res d = .ok d1) : tfcLoop (a ++ b) flag res d = .ok d1 ∨
      ∃ flag' res', tfcLoop (a ++ b) flag res d = tfcLoop b flag' res' d1 := by
  induction a generalizing flag res d with
  | nil =>
    rw [tfcLoop] at h
    simp only [Except.ok.injEq] at h
    subst h
    exact .inr ⟨flag, res, rfl⟩
  | cons l a ih =>
    rw [List.cons_append]
    rcases tfc_step l flag res d with ⟨f, r, q⟩ | q | ⟨e, q⟩ | ⟨n, r, f, r', _, q⟩
    · rw [q] at h ⊢; exact ih h
    · rw [q] at h ⊢; exact .inl h
    · rw [q] at h; simp at h
    · rw [q] at h ⊢; exact ih h

theorem tfcLoop_error (a b : List Str) {flag : Bool} {res : Option Check} {d : Dict Nat Check} {e : PyErr}
    (h : tfcLoop a flag res d = .error e) : tfcLoop (a ++ b) flag res d = .error e := by
  induction a generalizing flag res d with
  | nil => rw [tfcLoop] at h; simp at h
  | cons l a ih =>
    rw [List.cons_append]
    rcases tfc_step l flag res d with ⟨f, r, q⟩ | q | ⟨e', q⟩ | ⟨n, r, f, r', _, q⟩
    · rw [q] at h ⊢; exact ih h
    · rw [q] at h; simp at h
    · rw [q] at h ⊢; exact h
    · rw [q] at h ⊢; exact ih h

/-- **Outcomes of all bins in a stopped run.** The tallies of the cut file are the first tallies of the whole one,
with their outcomes unless a later line has the number again, and then at most one more: the number at the
beginning of the broken line. -/
theorem cut_tfc {ls' ls : List Str} (h : CutOf ls' ls) {d d' : Dict Nat Check} (h1 : tfcBins ls' = .ok d) (h2 : tfcBins ls = .ok d') :
    ∃ d1 : Dict Nat Check, d1.map Prod.fst <+: d'.map Prod.fst ∧
      (d = d1 ∨ ∃ n r part, ls'.getLast? = some part ∧ tallyNumber part = some n ∧ d = Dict.set d1 n r) ∧
      (ls' <+: ls → d = d1) ∧
      ∃ pre post, ls = pre ++ post ∧ (pre = ls' ∨ ∃ part, ls' = pre ++ [part]) ∧
        ∀ n, (∀ l ∈ post, tallyNumber l ≠ some n) → Dict.get? d1 n = Dict.get? d' n := by
  have whole : ∀ pre post, ls = pre ++ post → ∀ d1, tfcBins pre = .ok d1 → d1.map Prod.fst <+: d'.map Prod.fst ∧
      ∀ n, (∀ l ∈ post, tallyNumber l ≠ some n) → Dict.get? d1 n = Dict.get? d' n := by
    intro pre post e d1 hd
    unfold tfcBins at hd h2
    rw [e] at h2
    rcases tfcLoop_append pre post hd with q | ⟨f, r, q⟩
    · rw [q] at h2
      simp only [Except.ok.injEq] at h2
      subst h2
      exact ⟨List.prefix_refl _, fun _ _ => rfl⟩
    · rw [q] at h2
      obtain ⟨g1, g2⟩ := tfcLoop_grows h2
      exact ⟨g1, fun n hn => (g2 n hn).symm⟩
  by_cases hpre : ls' <+: ls
  · obtain ⟨post, hp⟩ := hpre
    obtain ⟨w1, w2⟩ := whole ls' post hp.symm d h1
    exact ⟨d, w1, .inl rfl, fun _ => rfl, ls', post, hp.symm, .inl rfl, w2⟩
  rcases h with rfl | ⟨pre, l, post, part, rfl, hp, hpl, rfl⟩
  · exact absurd (List.prefix_refl _) hpre
  by_cases h0 : part = []
  · rw [if_pos h0, List.append_nil] at hpre
    exact absurd (List.prefix_append _ _) hpre
  rw [if_neg h0] at h1 hpre ⊢
  cases hd : tfcBins pre with
  | error e =>
    unfold tfcBins at hd h1
    rw [tfcLoop_error pre [part] hd] at h1
    simp at h1
  | ok d1 =>
    obtain ⟨w1, w2⟩ := whole pre (l :: post) rfl d1 hd
    refine ⟨d1, w1, ?_, fun q => absurd q hpre, pre, l :: post, rfl, .inr ⟨part, rfl⟩, w2⟩
    unfold tfcBins at hd h1
    rcases tfcLoop_append pre [part] hd with q | ⟨f, r, q⟩
    · rw [q] at h1
      simp only [Except.ok.injEq] at h1
      exact .inl h1.symm
    · rw [q] at h1
      rcases tfc_step part f r d1 with ⟨f', r', q'⟩ | q' | ⟨e, q'⟩ | ⟨n, c, f', r', ht, q'⟩
      · rw [q', tfcLoop] at h1
        simp only [Except.ok.injEq] at h1
        exact .inl h1.symm
      · rw [q'] at h1
        simp only [Except.ok.injEq] at h1
        exact .inl h1.symm
      · rw [q'] at h1; simp at h1
      · rw [q', tfcLoop] at h1
        simp only [Except.ok.injEq] at h1
        exact .inr ⟨n, c, part, by simp, ht, h1.symm⟩

/-- a tally that does not exist, with the outcome of the tally before it -/
theorem tfc_broken : ∃ (ls' ls : List Str), CutOf ls' ls ∧ tfcBins ls' = .ok [(4, .passed), (1, .passed)] ∧
    tfcBins ls = .ok [(4, .passed), (14, .missed)] :=
  ⟨["1result of statistical checks for the tfc bin\n".toList, "      4   passed the 10 checks\n".toList, "      1".toList],
    ["1result of statistical checks for the tfc bin\n".toList, "      4   passed the 10 checks\n".toList,
      "      14   missed 3 of 10\n".toList],
    .inr ⟨["1result of statistical checks for the tfc bin\n".toList, "      4   passed the 10 checks\n".toList], _, [],
      "      1".toList, rfl, by decide +kernel, by decide +kernel, by decide +kernel⟩, by decide +kernel, by decide +kernel⟩

end F4Enix.Outp
