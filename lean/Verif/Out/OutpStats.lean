import Verif.Out.OutpTables
/-!
# C84–C88: tables of statistical checks, descriptions, printed tables, code version
-/
namespace F4Enix.Outp
open F4Enix F4Enix.Find

/-! ## C84: the table of a tally -/

/-- `l` is the title of the table of tally `n`: the beginning, some text, a white space, the number, newline. (specification) -/
def TitleOf (n : Nat) (l : Str) : Prop :=
  ∃ mid w, l = titleStart ++ (mid ++ (w :: (natStr n ++ ['\n']))) ∧ mid ≠ [] ∧ isSpace w = true

theorem isTitle_iff (n : Nat) (l : Str) : isTitle n l = true ↔ TitleOf n l := by
  unfold isTitle TitleOf
  constructor
  · intro h
    simp only [Bool.and_eq_true] at h
    obtain ⟨h1, h2, h3⟩ := h
    obtain ⟨r, rfl⟩ := List.isPrefixOf_iff_prefix.mp h1
    rw [List.drop_left] at h2 h3
    obtain ⟨q, hq⟩ := List.isPrefixOf_iff_prefix.mp h2
    rw [← hq, List.drop_left] at h3
    cases q with
    | nil => simp at h3
    | cons w q =>
      cases q with
      | nil => simp at h3
      | cons m q =>
        simp only at h3
        refine ⟨(m :: q).reverse, w, ?_, by simp, h3⟩
        have := congrArg List.reverse hq
        rw [List.reverse_reverse] at this
        rw [← this]; simp
  · rintro ⟨mid, w, rfl, hm, hw⟩
    simp only [Bool.and_eq_true]
    refine ⟨List.isPrefixOf_iff_prefix.mpr (List.prefix_append _ _), ?_, ?_⟩
    · rw [List.drop_left, List.isPrefixOf_iff_prefix]
      exact ⟨w :: mid.reverse, by simp⟩
    · rw [List.drop_left]
      have e : (mid ++ (w :: (natStr n ++ ['\n']))).reverse = ('\n' :: (natStr n).reverse) ++ (w :: mid.reverse) := by simp
      rw [e, List.drop_left]
      cases hr : mid.reverse with
      | nil => simp at hr; exact absurd hr hm
      | cons m q => exact hw

theorem digits_suffix {a b s t : Str} {v w : Char} (ha : ∀ c ∈ a, isDigit c = true) (hb : ∀ c ∈ b, isDigit c = true)
    (hv : isDigit v = false) (hw : isDigit w = false) (h : s ++ (v :: a) = t ++ (w :: b)) : a = b := by
  have h' := congrArg List.reverse h
  simp only [List.reverse_append, List.reverse_cons, List.append_assoc] at h'
  have q1 := takeWhile_run (p := isDigit) (a := a.reverse) (s := [v] ++ s.reverse) (by intro c hc; exact ha c (by simpa using hc))
    (by intro c t hc; simp only [List.singleton_append, List.cons.injEq] at hc; rw [← hc.1]; exact hv)
  have q2 := takeWhile_run (p := isDigit) (a := b.reverse) (s := [w] ++ t.reverse) (by intro c hc; exact hb c (by simpa using hc))
    (by intro c t hc; simp only [List.singleton_append, List.cons.injEq] at hc; rw [← hc.1]; exact hw)
  rw [h'] at q1
  have := q1.1.symm.trans q2.1
  simpa using this

theorem space_not_digit {c : Char} (h : isSpace c = true) : isDigit c = false := by
  cases hd : isDigit c with
  | false => rfl
  | true => rw [isSpace_of_isDigit hd] at h; cases h

/-- C84: a title belongs to one tally only: the table of tally 4 is never taken from that of tally 14. -/
theorem title_unique {n m : Nat} {l : Str} (h : TitleOf n l) (h' : TitleOf m l) : n = m := by
  obtain ⟨a, v, rfl, -, hv⟩ := h
  obtain ⟨b, w, e, -, hw⟩ := h'
  have e1 := List.append_cancel_left e
  have e2 : (a ++ (v :: natStr n)) ++ ['\n'] = (b ++ (w :: natStr m)) ++ ['\n'] := by simpa using e1
  have e3 := List.append_cancel_right e2
  have := digits_suffix (natStr_all_digit n) (natStr_all_digit m) (space_not_digit hv) (space_not_digit hw) e3
  rw [← digitsVal_natStr n, this, digitsVal_natStr]

theorem afterTitle_skip (n : Nat) (pre rest : List Str) (h : ∀ l ∈ pre, ¬ TitleOf n l) :
    afterTitle n (pre ++ rest) = afterTitle n rest := by
  induction pre with
  | nil => rfl
  | cons l pre ih =>
    rw [List.cons_append, afterTitle, if_neg (by rw [isTitle_iff]; exact h l (by simp))]
    exact ih (fun x hx => h x (by simp [hx]))

theorem afterTitle_none (n : Nat) (ls : List Str) (h : ∀ l ∈ ls, ¬ TitleOf n l) : afterTitle n ls = none := by
  have := afterTitle_skip n ls [] h
  rw [List.append_nil] at this
  rw [this]; rfl

/-- `kDesired` (specification) -/
def kDesired : Str := "desired".toList
/-- `kObserved` (specification) -/
def kObserved : Str := "observed".toList
/-- `kPassed` (specification) -/
def kPassed : Str := "passed?".toList
/-- `kYes` (specification) -/
def kYes : Str := "yes".toList

theorem tallyChecks_at (n : Nat) (pre post : List Str) (t s1 s2 s3 s4 a b c : Str) (hpre : ∀ l ∈ pre, ¬ TitleOf n l) (ht : TitleOf n t) :
    tallyChecks (pre ++ t :: s1 :: s2 :: s3 :: s4 :: a :: b :: c :: post) n =
      match checkFrame [tokens a, tokens b, tokens c] with
      | .error e => .error e
      | .ok t =>
        match shiftLabel kObserved false t with
        | .error e => .error e
        | .ok t => shiftLabel kPassed true t := by
  unfold tallyChecks
  rw [afterTitle_skip n pre _ hpre, afterTitle, if_pos ((isTitle_iff n t).mpr ht)]
  have h4 : lineAt (s1 :: s2 :: s3 :: s4 :: a :: b :: c :: post) 4 = .ok a := rfl
  have h5 : lineAt (s1 :: s2 :: s3 :: s4 :: a :: b :: c :: post) 5 = .ok b := rfl
  have h6 : lineAt (s1 :: s2 :: s3 :: s4 :: a :: b :: c :: post) 6 = .ok c := rfl
  simp only
  rw [h4, h5, h6]
  rfl

theorem kp_ne_ko : kPassed ≠ kObserved := by decide
theorem kd_ne_ko : kDesired ≠ kObserved := by decide
theorem kd_ne_kp : kDesired ≠ kPassed := by decide

theorem checkFrame_three (x y z : Str) (xs ys zs : List Str) (h : max (max xs.length ys.length) zs.length = 10) :
    checkFrame [x :: xs, y :: ys, z :: zs] = .ok [(x, xs.map some ++ List.replicate (10 - xs.length) none),
      (y, ys.map some ++ List.replicate (10 - ys.length) none), (z, zs.map some ++ List.replicate (10 - zs.length) none)] := by
  unfold checkFrame
  simp only [List.map_cons, List.map_nil, List.length_cons, List.foldl_cons, List.foldl_nil]
  rw [if_pos (by omega)]
  simp

theorem shiftRow_full (passed : Bool) (cs : List Str) (h : cs.length = 10) : shiftRow passed (cs.map some) = cs.map some := by
  match cs, h with
  | [a, b, c, d, e, f, g, i, j, k], _ => rfl

/-- C84: when the three rows are complete the table is what is printed, row by row. -/
theorem checks_full (n : Nat) (pre post : List Str) (t s1 s2 s3 s4 a b c : Str) (xs ys zs : List Str)
    (hpre : ∀ l ∈ pre, ¬ TitleOf n l) (ht : TitleOf n t)
    (ha : tokens a = kDesired :: xs) (hb : tokens b = kObserved :: ys) (hc : tokens c = kPassed :: zs)
    (lx : xs.length = 10) (ly : ys.length = 10) (lz : zs.length = 10) :
    tallyChecks (pre ++ t :: s1 :: s2 :: s3 :: s4 :: a :: b :: c :: post) n =
      .ok [(kDesired, xs.map some), (kObserved, ys.map some), (kPassed, zs.map some)] := by
  rw [tallyChecks_at n pre post t s1 s2 s3 s4 a b c hpre ht, ha, hb, hc, checkFrame_three _ _ _ _ _ _ (by omega)]
  rw [lx, ly, lz]
  simp only [Nat.sub_self, List.replicate_zero, List.append_nil]
  have o1 : shiftLabel kObserved false [(kDesired, xs.map some), (kObserved, ys.map some), (kPassed, zs.map some)] =
      .ok [(kDesired, xs.map some), (kObserved, ys.map some), (kPassed, zs.map some)] := by
    unfold shiftLabel
    simp [kd_ne_ko, kp_ne_ko, shiftRow_full false ys ly]
  have o2 : shiftLabel kPassed true [(kDesired, xs.map some), (kObserved, ys.map some), (kPassed, zs.map some)] =
      .ok [(kDesired, xs.map some), (kObserved, ys.map some), (kPassed, zs.map some)] := by
    unfold shiftLabel
    simp [kd_ne_kp, kp_ne_ko.symm, shiftRow_full true zs lz]
  rw [o1]; simp only; rw [o2]

/-- C84: when MCNP leaves the two columns of the figure of merit blank (a single value) the slope is put in its own
column, the figure of merit counts as passed, and its observed values are empty. -/
theorem checks_blank_fom (n : Nat) (pre post : List Str) (t s1 s2 s3 s4 a b c : Str) (xs ys zs : List Str) (sl psl : Str)
    (hpre : ∀ l ∈ pre, ¬ TitleOf n l) (ht : TitleOf n t)
    (ha : tokens a = kDesired :: xs) (hb : tokens b = kObserved :: (ys ++ [sl])) (hc : tokens c = kPassed :: (zs ++ [psl]))
    (lx : xs.length = 10) (ly : ys.length = 7) (lz : zs.length = 7) :
    tallyChecks (pre ++ t :: s1 :: s2 :: s3 :: s4 :: a :: b :: c :: post) n =
      .ok [(kDesired, xs.map some), (kObserved, ys.map some ++ [none, none, some sl]),
        (kPassed, zs.map some ++ [some kYes, some kYes, some psl])] := by
  rw [tallyChecks_at n pre post t s1 s2 s3 s4 a b c hpre ht, ha, hb, hc,
    checkFrame_three _ _ _ _ _ _ (by simp only [List.length_append, List.length_singleton]; omega)]
  simp only [List.length_append, List.length_singleton, lx, ly, lz, Nat.sub_self, List.replicate_zero, List.append_nil]
  match ys, ly, zs, lz with
  | [y1, y2, y3, y4, y5, y6, y7], _, [z1, z2, z3, z4, z5, z6, z7], _ =>
    unfold shiftLabel
    simp [kd_ne_ko, kp_ne_ko, kd_ne_kp, kp_ne_ko.symm, shiftRow, kYes, List.replicate]

/-- C84: no title of that tally: `ValueError`. -/
theorem checks_absent (n : Nat) (lines : List Str) (h : ∀ l ∈ lines, ¬ TitleOf n l) : tallyChecks lines n = .error .valueError := by
  unfold tallyChecks; rw [afterTitle_none n lines h]

/-- a file that ends in the seven lines after the title: `IndexError` -/
theorem checks_short (n : Nat) (pre post : List Str) (t : Str) (hpre : ∀ l ∈ pre, ¬ TitleOf n l) (ht : TitleOf n t)
    (h : post.length < 7) : tallyChecks (pre ++ t :: post) n = .error .indexError := by
  unfold tallyChecks
  rw [afterTitle_skip n pre _ hpre, afterTitle, if_pos ((isTitle_iff n t).mpr ht)]
  have h6 : lineAt post 6 = .error .indexError := by
    unfold lineAt
    rw [List.getElem?_eq_none (by omega)]
  simp only [h6]
  cases lineAt post 4 with
  | error e => rfl
  | ok a =>
    cases lineAt post 5 with
    | error e => rfl
    | ok b => rfl

/-- `exTitle` (example) -/
def exTitle (n : Nat) : Str :=
  "           results of 10 statistical checks for the estimated answer for the tally fluctuation chart (tfc) bin of tally        ".toList ++ natStr n ++ ['\n']

/-- `exTable` (example) -/
def exTable (n : Nat) : List Str :=
  [exTitle n, "\n".toList, " tfc bin     --mean--\n".toList, " behavior    behavior      value\n".toList, "\n".toList,
   " desired      random       <0.10      yes      1/sqrt(nps)       <0.10      yes        1/nps           constant    random      >3.00\n".toList,
   " observed     random        0.01      yes          yes            0.01      yes         yes                                     5.57\n".toList,
   " passed?        yes          yes      yes          yes             yes      yes         yes                                      no\n".toList]

/-- the table of tally 4 in a file where that of tally 14 comes first -/
example : tallyChecks (exTable 14 ++ exTable 4) 4 =
    .ok [(kDesired, ["random", "<0.10", "yes", "1/sqrt(nps)", "<0.10", "yes", "1/nps", "constant", "random", ">3.00"].map (fun s => some s.toList)),
      (kObserved, [some "random".toList, some "0.01".toList, some "yes".toList, some "yes".toList, some "0.01".toList, some "yes".toList, some "yes".toList, none, none, some "5.57".toList]),
      (kPassed, ["yes", "yes", "yes", "yes", "yes", "yes", "yes", "yes", "yes", "no"].map (fun s => some s.toList))] := by
  decide +kernel

/-! ## C85: the summary of all tallies -/

theorem summaryRows_forall (lines : List Str) (xs : List (Nat × Check)) (rows : List SummaryRow) (h : summaryRows lines xs = .ok rows) :
    List.Forall₂ (fun x r => summaryRow lines x = .ok r) xs rows := by
  induction xs generalizing rows with
  | nil => simp only [summaryRows, Except.ok.injEq] at h; rw [← h]; exact .nil
  | cons x xs ih =>
    rw [summaryRows] at h
    cases h1 : summaryRow lines x with
    | error e => rw [h1] at h; simp at h
    | ok r =>
      rw [h1] at h
      simp only at h
      cases h2 : summaryRows lines xs with
      | error e => rw [h2] at h; simp at h
      | ok rs =>
        rw [h2] at h
        simp only [Except.ok.injEq] at h
        rw [← h]
        exact .cons h1 (ih rs h2)

theorem summaryRow_spec {lines : List Str} {x : Nat × Check} {r : SummaryRow} (h : summaryRow lines x = .ok r) :
    r.tally = x.1 ∧ r.other = x.2 ∧
      ((∃ t, tallyChecks lines x.1 = .ok t ∧ ∃ row ∈ t, row.1 = kPassed ∧ row.2 = r.checks) ∨
       (x.2 = .allZeros ∧ tallyChecks lines x.1 = .error .valueError ∧ r.checks = List.replicate 10 none)) := by
  unfold summaryRow passedOf at h
  cases ht : tallyChecks lines x.1 with
  | error e =>
    rw [ht] at h
    simp only at h
    cases e <;> simp only [reduceCtorEq] at h
    by_cases hz : x.2 = .allZeros
    · rw [if_pos hz] at h
      simp only [Except.ok.injEq] at h
      rw [← h]; exact ⟨rfl, rfl, Or.inr ⟨hz, rfl, rfl⟩⟩
    · rw [if_neg hz] at h; cases h
  | ok t =>
    rw [ht] at h
    simp only at h
    cases hp : passedRow t with
    | error e =>
      unfold passedRow at hp
      cases hf : t.find? (fun r => decide (r.1 = "passed?".toList)) with
      | none => rw [hf] at hp; simp only [Except.error.injEq] at hp; subst hp; rw [passedRow, hf] at h; cases h
      | some q => rw [hf] at hp; cases hp
    | ok cs =>
      rw [hp] at h
      simp only [Except.ok.injEq] at h
      unfold passedRow at hp
      cases hf : t.find? (fun r => decide (r.1 = "passed?".toList)) with
      | none => rw [hf] at hp; cases hp
      | some q =>
        rw [hf] at hp
        simp only [Except.ok.injEq] at hp
        rw [← h]
        refine ⟨rfl, rfl, Or.inl ⟨t, rfl, q, List.mem_of_find?_eq_some hf, ?_, hp⟩⟩
        have := List.find?_some hf
        simpa [kPassed] using this

theorem storeAll_wf (es : List (Nat × Check)) (d : Dict Nat Check) (h : Dict.WF d) : Dict.WF (storeAll d es) := by
  induction es generalizing d with
  | nil => exact h
  | cons e es ih => exact ih _ (Dict.WF_set h _ _)

theorem tfcLoop_wf (ls : List Str) (flag : Bool) (res : Option Check) (d d' : Dict Nat Check) (hd : Dict.WF d)
    (h : tfcLoop ls flag res d = .ok d') : Dict.WF d' := by
  induction ls generalizing flag res d with
  | nil => simp only [tfcLoop, Except.ok.injEq] at h; exact h ▸ hd
  | cons l ls ih =>
    rw [tfcLoop] at h
    split at h
    · exact ih _ _ _ hd h
    · split at h
      · split at h
        · rename_i n hn
          split at h
          · cases h
          · exact ih _ _ _ (Dict.WF_set hd _ _) h
        · split at h
          · simp only [Except.ok.injEq] at h; exact h ▸ hd
          · exact ih _ _ _ hd h
      · exact ih _ _ _ hd h

instance : IsTrans SummaryRow (fun a b => a.tally ≤ b.tally) := ⟨fun _ _ _ h1 h2 => Nat.le_trans h1 h2⟩
instance : Std.Total (fun (a b : SummaryRow) => a.tally ≤ b.tally) := ⟨fun a b => Nat.le_total a.tally b.tally⟩

/-- C85: the summary has exactly one row per tally of the brief section, in the order of the tally numbers; the last
column is that tally's outcome in brief; the other ten are the row `passed?` of that tally's own table, or empty if
the tally is all zeros and has no table. -/
theorem summary_exact (lines : List Str) (d : Dict Nat Check) (rows : List SummaryRow) (hd : tfcBins lines = .ok d)
    (h : statTable lines = .ok rows) :
    rows.Pairwise (fun a b => a.tally < b.tally) ∧ (rows.map (·.tally)).Perm (Dict.keys d) ∧
    ∀ r ∈ rows, Dict.get? d r.tally = some r.other ∧
      ((∃ t, tallyChecks lines r.tally = .ok t ∧ ∃ row ∈ t, row.1 = kPassed ∧ row.2 = r.checks) ∨
       (r.other = .allZeros ∧ tallyChecks lines r.tally = .error .valueError ∧ r.checks = List.replicate 10 none)) := by
  have hwf : Dict.WF d := tfcLoop_wf _ _ _ _ _ (by simp [Dict.WF, Dict.keys]) hd
  unfold statTable at h
  rw [hd] at h
  simp only at h
  cases hr : summaryRows lines d with
  | error e => rw [hr] at h; cases h
  | ok rs =>
    rw [hr] at h
    have hrows : rows = rs.insertionSort (fun a b => a.tally ≤ b.tally) := by
      cases rs with
      | nil => cases h
      | cons x xs => simp only [Except.ok.injEq] at h; exact h.symm
    have hf := summaryRows_forall lines d rs hr
    have hperm : rows.Perm rs := by rw [hrows]; exact List.perm_insertionSort _ _
    have htal : rs.map (·.tally) = Dict.keys d := by
      clear hr hperm hrows hwf hd h
      induction hf with
      | nil => rfl
      | cons h1 _ ih => simp only [List.map_cons, Dict.keys] at ih ⊢; rw [(summaryRow_spec h1).1, ih]
    have hp2 : (rows.map (·.tally)).Perm (Dict.keys d) := htal ▸ hperm.map _
    refine ⟨?_, hp2, ?_⟩
    · have hs : rows.Pairwise (fun a b => a.tally ≤ b.tally) := by rw [hrows]; exact List.pairwise_insertionSort _ _
      have hn : (rows.map (·.tally)).Nodup := hp2.nodup_iff.mpr hwf
      have hn2 : rows.Pairwise (fun a b => a.tally ≠ b.tally) := List.pairwise_map.mp hn
      exact (hs.and hn2).imp (fun h => Nat.lt_of_le_of_ne h.1 h.2)
    · intro r hrm
      have : ∃ x ∈ d, summaryRow lines x = .ok r := by
        have hm := hperm.mem_iff.mp hrm
        clear hr hperm hrows htal hp2 hwf hd h hrm
        induction hf with
        | nil => simp at hm
        | @cons x r' xs rs h1 _ ih =>
          rcases List.mem_cons.mp hm with rfl | hm
          · exact ⟨x, by simp, h1⟩
          · obtain ⟨y, hy, hy2⟩ := ih hm; exact ⟨y, by simp [hy], hy2⟩
      obtain ⟨x, hx, hx2⟩ := this
      obtain ⟨s1, s2, s3⟩ := summaryRow_spec hx2
      rw [s1, s2]
      exact ⟨Dict.get?_of_mem hwf hx, s3⟩

/-- C85: a file without tallies has no summary: `ValueError`. -/
theorem summary_empty (lines : List Str) (h : tfcBins lines = .ok []) : statTable lines = .error .valueError := by
  unfold statTable; rw [h]; rfl

example : statTable (exTable 14 ++ [exHeading, "  14  passed\n".toList, "   2  no nonzero\n".toList, exClosing]) =
    .ok [⟨2, List.replicate 10 none, .allZeros⟩,
      ⟨14, ["yes", "yes", "yes", "yes", "yes", "yes", "yes", "yes", "yes", "no"].map (fun s => some s.toList), .passed⟩] := by
  decide +kernel

/-! ## C86: descriptions of the tallies -/

/-- the name of a tally in the result (specification) -/
def nameOf (descr : Str) (n : Nat) : Str := descr ++ " [".toList ++ natStr n ++ "]".toList

theorem nameOf_num {a b : Str} {n m : Nat} (h : nameOf a n = nameOf b m) : n = m := by
  unfold nameOf at h
  have h1 := List.append_cancel_right h
  have e1 : (a ++ [' ']) ++ ('[' :: natStr n) = (b ++ [' ']) ++ ('[' :: natStr m) := by simpa using h1
  have := digits_suffix (natStr_all_digit n) (natStr_all_digit m) (by decide) (by decide) e1
  rw [← digitsVal_natStr n, this, digitsVal_natStr]

theorem describe_found (tallies : List TallyInfo) (n : Nat) (t : TallyInfo) (old : Option Str)
    (ht : t ∈ tallies) (hn : t.number = n) (hu : ∀ u ∈ tallies, u.number = n → u = t) : describe tallies n old = some (t.comment.headD []) := by
  unfold describe
  have aux : ∀ (ts : List TallyInfo) (o : Option Str), (∀ u ∈ ts, u.number = n → u = t) → (t ∈ ts ∨ o = some (t.comment.headD [])) →
      ts.foldl (fun cur t => if t.number = n then some (t.comment.headD []) else cur) o = some (t.comment.headD []) := by
    intro ts
    induction ts with
    | nil => intro o _ h; rcases h with h | h
             · simp at h
             · exact h
    | cons u ts ih =>
      intro o hu h
      rw [List.foldl_cons]
      apply ih _ (fun v hv => hu v (by simp [hv]))
      by_cases hun : u.number = n
      · right; rw [if_pos hun, hu u (by simp) hun]
      · rw [if_neg hun]
        rcases h with h | h
        · rcases List.mem_cons.mp h with h | h
          · subst h; exact absurd hn hun
          · exact Or.inl h
        · exact Or.inr h
  exact aux tallies old hu (Or.inl ht)

theorem assignLoop_other (tallies : List TallyInfo) (xs : List (Nat × Check)) (old : Option Str) (d d' : Dict Str Check)
    (h : assignLoop tallies xs old d = .ok d') (k : Str) (hk : ∀ descr n, n ∈ xs.map Prod.fst → k ≠ nameOf descr n) :
    Dict.get? d' k = Dict.get? d k := by
  induction xs generalizing old d with
  | nil => simp only [assignLoop, Except.ok.injEq] at h; rw [h]
  | cons x xs ih =>
    obtain ⟨n, r⟩ := x
    rw [assignLoop] at h
    cases hd : describe tallies n old with
    | none => rw [hd] at h; cases h
    | some t =>
      rw [hd] at h
      simp only at h
      rw [ih _ _ h (fun descr m hm => hk descr m (by simp only [List.map_cons, List.mem_cons]; exact Or.inr hm))]
      rw [Dict.get?_set_ne]
      exact (hk t n (by simp)).symm

/-- C86, what holds: if every tally of the results is in the list, once, then the result of tally `n` is found under
the first line of its comment (nothing if there is none) followed by its number in brackets. -/
theorem descriptions_exact_partial (checks : Dict Nat Check) (tallies : List TallyInfo) (hwf : Dict.WF checks)
    (hall : ∀ n r, (n, r) ∈ checks → ∃ t ∈ tallies, t.number = n ∧ ∀ u ∈ tallies, u.number = n → u = t) :
    ∃ d, assignDescriptions checks tallies = .ok d ∧
      ∀ n r, (n, r) ∈ checks → ∀ t ∈ tallies, t.number = n → Dict.get? d (nameOf (t.comment.headD []) n) = some r := by
  have aux : ∀ (xs : List (Nat × Check)) (old : Option Str) (d : Dict Str Check),
      (∀ n r, (n, r) ∈ xs → ∃ t ∈ tallies, t.number = n ∧ ∀ u ∈ tallies, u.number = n → u = t) → (xs.map Prod.fst).Nodup →
      ∃ d', assignLoop tallies xs old d = .ok d' ∧
        ∀ n r, (n, r) ∈ xs → ∀ t ∈ tallies, t.number = n → Dict.get? d' (nameOf (t.comment.headD []) n) = some r := by
    intro xs
    induction xs with
    | nil => intro old d _ _; exact ⟨d, rfl, by simp⟩
    | cons x xs ih =>
      intro old d hx hn
      obtain ⟨n, r⟩ := x
      rw [List.map_cons, List.nodup_cons] at hn
      obtain ⟨t, ht, htn, htu⟩ := hx n r (by simp)
      have hdsc := describe_found tallies n t old ht htn htu
      obtain ⟨d', h1, h2⟩ := ih (some (t.comment.headD [])) (Dict.set d (nameOf (t.comment.headD []) n) r)
        (fun m q hm => hx m q (by simp [hm])) hn.2
      have h1' : assignLoop tallies ((n, r) :: xs) old d = .ok d' := by
        rw [assignLoop, hdsc]; exact h1
      refine ⟨d', h1', ?_⟩
      intro m q hm u hu hun
      rcases List.mem_cons.mp hm with hm | hm
      · simp only [Prod.mk.injEq] at hm
        obtain ⟨rfl, rfl⟩ := hm
        rw [htu u hu hun]
        rw [assignLoop_other tallies xs _ _ d' h1 _ (by
          intro descr k hk he
          exact hn.1 (nameOf_num he ▸ hk))]
        exact Dict.get?_set_self _ _ _
      · exact h2 m q hm u hu hun
  exact aux checks none [] hall hwf

/-- C86 is false if a tally is not in the list: it gets the description of the tally before it. -/
theorem descriptions_stale (tallies : List TallyInfo) (n m : Nat) (r q : Check) (t : TallyInfo) (ht : t ∈ tallies) (htn : t.number = n)
    (htu : ∀ u ∈ tallies, u.number = n → u = t) (hm : ∀ u ∈ tallies, u.number ≠ m) (hnm : n ≠ m) :
    assignDescriptions [(n, r), (m, q)] tallies = .ok [(nameOf (t.comment.headD []) n, r), (nameOf (t.comment.headD []) m, q)] := by
  have h1 := describe_found tallies n t none ht htn htu
  have h2 : describe tallies m (some (t.comment.headD [])) = some (t.comment.headD []) := by
    unfold describe
    have : ∀ (ts : List TallyInfo) (o : Option Str), (∀ u ∈ ts, u.number ≠ m) →
        ts.foldl (fun cur t => if t.number = m then some (t.comment.headD []) else cur) o = o := by
      intro ts
      induction ts with
      | nil => intro o _; rfl
      | cons u ts ih => intro o hu; rw [List.foldl_cons, if_neg (hu u (by simp))]; exact ih o (fun v hv => hu v (by simp [hv]))
    exact this _ _ hm
  unfold assignDescriptions
  rw [assignLoop, h1]
  simp only
  rw [assignLoop, h2]
  simp only [assignLoop, Dict.set]
  have : nameOf (t.comment.headD []) n ≠ nameOf (t.comment.headD []) m := fun h => hnm (nameOf_num h)
  unfold nameOf at this ⊢
  rw [if_neg this]

example : assignDescriptions [(4, .passed), (6, .missed)] [⟨4, ["flux".toList]⟩] = .ok [("flux [4]".toList, .passed), ("flux [6]".toList, .missed)] := by
  decide +kernel
example : assignDescriptions [(4, .passed), (6, .missed)] [⟨6, ["heat".toList]⟩, ⟨4, []⟩] = .ok [(" [4]".toList, .passed), ("heat [6]".toList, .missed)] := by
  decide +kernel

/-! ## C87: printed tables -/

/-- a column as MCNP prints it: one or more blanks, then a word without blanks (specification) -/
def column (c : Nat × Str) : Str := List.replicate (c.1 + 1) ' ' ++ c.2

theorem fwf_blanks (k : Nat) (s : Str) (cnt : Nat) (ws : List Nat) :
    fwfLoop (List.replicate k ' ' ++ s) true cnt ws = fwfLoop s true (cnt + k) ws := by
  induction k generalizing cnt with
  | zero => rfl
  | succ k ih =>
    rw [List.replicate_succ, List.cons_append, fwfLoop, if_neg (by simp)]
    simp only [ne_eq, not_true_eq_false, if_false]
    rw [ih]; congr 1; omega

theorem fwf_word (w s : Str) (hw : ∀ c ∈ w, c ≠ ' ') (cnt : Nat) (ws : List Nat) :
    fwfLoop (w ++ s) false cnt ws = fwfLoop s false (cnt + w.length) ws := by
  induction w generalizing cnt with
  | nil => rfl
  | cons c w ih =>
    have hc := hw c (by simp)
    rw [List.cons_append, fwfLoop, if_neg (by simp [hc])]
    simp only [ne_eq, hc, not_false_eq_true, if_true]
    rw [ih (fun d hd => hw d (by simp [hd]))]
    congr 1; rw [List.length_cons]; omega

theorem fwf_word_new (w s : Str) (hne : w ≠ []) (hw : ∀ c ∈ w, c ≠ ' ') (cnt : Nat) (ws : List Nat) :
    fwfLoop (w ++ s) true cnt ws = fwfLoop s false (cnt + w.length) ws := by
  cases w with
  | nil => exact absurd rfl hne
  | cons c w =>
    have hc := hw c (by simp)
    rw [List.cons_append, fwfLoop, if_neg (by simp)]
    simp only [ne_eq, hc, not_false_eq_true, if_true]
    rw [fwf_word w s (fun d hd => hw d (by simp [hd]))]
    congr 1; rw [List.length_cons]; omega

theorem fwf_columns (cs : List (Nat × Str)) (h : ∀ c ∈ cs, c.2 ≠ [] ∧ ∀ x ∈ c.2, x ≠ ' ') (cnt : Nat) (ws : List Nat) :
    fwfLoop (cs.map column).flatten false cnt ws = ws ++ cnt :: cs.map (fun c => (column c).length) := by
  induction cs generalizing cnt ws with
  | nil => rfl
  | cons c cs ih =>
    obtain ⟨h1, h2⟩ := h c (by simp)
    have e : ((c :: cs).map column).flatten = ' ' :: (List.replicate c.1 ' ' ++ (c.2 ++ (cs.map column).flatten)) := by
      simp [column, List.replicate_succ]
    rw [e, fwfLoop, if_pos ⟨rfl, rfl⟩, fwf_blanks, fwf_word_new _ _ h1 h2, ih (fun d hd => h d (by simp [hd]))]
    simp only [List.map_cons, List.append_assoc, List.singleton_append, column, List.length_append, List.length_replicate]
    congr 3; congr 1; omega

/-- C87: the widths inferred from a line that begins with a blank cut it into its columns, none left out. (The newline
at the end counts as part of the last word, or as a last column if blanks come before it.) -/
theorem widths_exact_partial (cs : List (Nat × Str)) (h : ∀ c ∈ cs, c.2 ≠ [] ∧ ∀ x ∈ c.2, x ≠ ' ') :
    fwfWidths (cs.map column).flatten = cs.map (fun c => (column c).length) := by
  unfold fwfWidths
  rw [fwf_columns cs h]
  rfl

/-- C87: if the line begins with a word, that word has no column: all columns are displaced. -/
theorem widths_first_lost (w : Str) (hw : ∀ c ∈ w, c ≠ ' ') (cs : List (Nat × Str)) (h : ∀ c ∈ cs, c.2 ≠ [] ∧ ∀ x ∈ c.2, x ≠ ' ') :
    fwfWidths (w ++ (cs.map column).flatten) = cs.map (fun c => (column c).length) := by
  unfold fwfWidths
  rw [fwf_word w _ hw, fwf_columns cs h]
  rfl

example : fwfWidths "        1        2  1.5000E+00      3  \n".toList = [9, 9, 12, 7, 3] := by decide +kernel

theorem table_quiet (n : Nat) (i : Nat) (pre rest : List Str) (acc : List TableInst)
    (h : ∀ l ∈ pre, ¬ ("table ".toList ++ natStr n) <:+: l) :
    tableLoop n i (pre ++ rest) none acc = tableLoop n (i + pre.length) rest none acc := by
  induction pre generalizing i with
  | nil => rfl
  | cons l pre ih =>
    rw [List.cons_append, tableLoop]
    have h1 : ¬ contains ("table ".toList ++ natStr n) l = true := by rw [contains_iff]; exact h l (by simp)
    rw [if_neg h1, ih _ (fun x hx => h x (by simp [hx])), List.length_cons]
    congr 1; omega

theorem table_rows (n : Nat) (i s : Nat) (pre rest : List Str) (acc : List TableInst)
    (h : ∀ l ∈ pre, ¬ ("table ".toList ++ natStr n) <:+: l ∧ ¬ "total".toList <:+: l) :
    tableLoop n i (pre ++ rest) (some s) acc = tableLoop n (i + pre.length) rest (some s) acc := by
  induction pre generalizing i with
  | nil => rfl
  | cons l pre ih =>
    rw [List.cons_append, tableLoop]
    have h1 : ¬ contains ("table ".toList ++ natStr n) l = true := by rw [contains_iff]; exact (h l (by simp)).1
    have h2 : ¬ contains "total".toList l = true := by rw [contains_iff]; exact (h l (by simp)).2
    simp only
    rw [if_neg h2]
    simp only
    rw [if_neg h1, ih _ (fun x hx => h x (by simp [hx])), List.length_cons]
    congr 1; omega

/-- C87: a single table with that number is found where it is: the lines up to and including its title are skipped,
and the rows read end two lines before the line with the total. -/
theorem table_found_partial (n : Nat) (pre rows post : List Str) (title total : Str)
    (hpre : ∀ l ∈ pre, ¬ ("table ".toList ++ natStr n) <:+: l) (ht : ("table ".toList ++ natStr n) <:+: title)
    (hrows : ∀ l ∈ rows, ¬ ("table ".toList ++ natStr n) <:+: l ∧ ¬ "total".toList <:+: l)
    (htot : "total".toList <:+: total) (htt : ¬ ("table ".toList ++ natStr n) <:+: total)
    (hpost : ∀ l ∈ post, ¬ ("table ".toList ++ natStr n) <:+: l) :
    tableInstances n (pre ++ title :: (rows ++ total :: post)) = .ok [⟨pre.length + 1, (rows.length : ℤ) - 2⟩] := by
  have key : tableLoop n 0 (pre ++ title :: (rows ++ total :: post)) none [] = [⟨pre.length + 1, (rows.length : ℤ) - 2⟩] := by
    rw [table_quiet n 0 pre _ _ hpre, tableLoop, if_pos ((contains_iff _ _).mpr ht), table_rows n _ _ rows _ _ hrows, tableLoop]
    simp only
    rw [if_pos ((contains_iff _ _).mpr htot)]
    simp only
    rw [if_neg (by rw [contains_iff]; exact htt)]
    have := table_quiet n (0 + pre.length + 1 + rows.length + 1) post [] ([] ++ [⟨0 + pre.length + 1, ((0 + pre.length + 1 + rows.length : ℕ) : ℤ) - ((0 + pre.length + 1 : ℕ) : ℤ) - 2⟩]) hpost
    rw [List.append_nil] at this
    rw [this, tableLoop]
    simp only [List.nil_append, List.cons.injEq, TableInst.mk.injEq, and_true]
    refine ⟨by omega, ?_⟩
    push_cast; omega
  unfold tableInstances; rw [key]

/-- C87, what fails: the number is not delimited: every title of a table whose number begins with the digits asked for
is taken for that table. -/
theorem table_prefix (n m : Nat) (title : Str) (h : natStr n <+: natStr m) (ht : ("table ".toList ++ natStr m) <:+: title) :
    ("table ".toList ++ natStr n) <:+: title := by
  obtain ⟨t, ht2⟩ := h
  obtain ⟨a, b, hab⟩ := ht
  exact ⟨a, t ++ b, by rw [← hab, ← ht2]; simp⟩

/-- asking for table 6 gives table 60 -/
example : tableInstances 6 ["1cells  print table 60\n".toList, " a\n".toList, " 1\n".toList, "\n".toList, " total 1\n".toList] = .ok [⟨1, 1⟩] ∧
    natStr 6 <+: natStr 60 := by
  refine ⟨by decide +kernel, ⟨['0'], by decide⟩⟩

/-! ## C88: the version of the code -/

/-- C88 is false beyond the first line: a file with no D1SUNED line in its first 34 lines and no `MCNP_` in its first
line has no version, whatever the next lines (that are meant to be looked at) say. -/
theorem version_first_line (l : Str) (ls : List Str) (hd : ∀ x ∈ (l :: ls).take 34, search d1sHere x = none)
    (hl : search mcnpHere l = none) : codeVersion (l :: ls) = .error .valueError := by
  have h1 : ∀ q : List Str, (∀ x ∈ q, search d1sHere x = none) → d1sVersion q = none := by
    intro q hq
    induction q with
    | nil => rfl
    | cons x q ih => rw [d1sVersion, hq x (by simp)]; exact ih (fun y hy => hq y (by simp [hy]))
  have h2 : ∀ q : List Str, mcnpVersion (l :: ls) q = none := by
    intro q
    induction q with
    | nil => rfl
    | cons x q ih => rw [mcnpVersion]; simp only [List.headD_cons, hl]; exact ih
  unfold codeVersion
  rw [h1 _ hd, h2]

/-- C88: a version on the first line is found, and reported without the zeros at both ends: 6.20 is reported as 6.2,
and 10 as 1. -/
theorem version_found_partial (l w : Str) (ls : List Str) (hd : ∀ x ∈ (l :: ls).take 34, search d1sHere x = none)
    (hl : search mcnpHere l = some w) : codeVersion (l :: ls) = .ok (stripZeros w) := by
  have h1 : ∀ q : List Str, (∀ x ∈ q, search d1sHere x = none) → d1sVersion q = none := by
    intro q hq
    induction q with
    | nil => rfl
    | cons x q ih => rw [d1sVersion, hq x (by simp)]; exact ih (fun y hy => hq y (by simp [hy]))
  unfold codeVersion
  rw [h1 _ hd]
  have : mcnpVersion (l :: ls) ((l :: ls).take 4) = some (stripZeros w) := by
    rw [List.take_succ_cons, mcnpVersion]
    simp [hl]
  rw [this]

/-- `mcnpMark` (specification) -/
def mcnpMark : Str := "MCNP_".toList

/-- A character of a version number. (specification) -/
def isVer (c : Char) : Bool := isDigit c || decide (c = '.')

theorem mcnp_search {a w s : Str} (ha : ¬ mcnpMark <:+: a ++ "MCNP".toList) (hne : w ≠ []) (hw : ∀ c ∈ w, isVer c = true)
    (hs : ∀ c t, s = c :: t → isVer c = false) : search mcnpHere (a ++ (mcnpMark ++ (w ++ s))) = some w := by
  rw [search_skip]
  · have e : mcnpMark ++ (w ++ s) = 'M' :: ("CNP_".toList ++ (w ++ s)) := by simp [mcnpMark]
    have h1 : mcnpHere (mcnpMark ++ (w ++ s)) = some w := by
      unfold mcnpHere
      have hp : "MCNP_".toList.isPrefixOf (mcnpMark ++ (w ++ s)) = true := List.isPrefixOf_iff_prefix.mpr (List.prefix_append _ _)
      have hd : (mcnpMark ++ (w ++ s)).drop 5 = w ++ s := List.drop_left (l₁ := mcnpMark)
      rw [if_pos hp, hd]
      have ht : (w ++ s).takeWhile (fun c => isDigit c || decide (c = '.')) = w := (takeWhile_run (p := isVer) hw hs).1
      rw [ht]
      cases w with
      | nil => exact absurd rfl hne
      | cons c w => rfl
    rw [e] at h1 ⊢
    rw [search, h1]
  · intro x y hxy hy
    unfold mcnpHere
    rw [if_neg]
    intro h
    apply ha
    have hpre := List.isPrefixOf_iff_prefix.mp h
    have hpre2 : mcnpMark <+: (y ++ "MCNP".toList) := by
      have e : y ++ (mcnpMark ++ (w ++ s)) = (y ++ "MCNP".toList) ++ ("_".toList ++ (w ++ s)) := by simp [mcnpMark]
      rw [e] at hpre
      refine List.prefix_of_prefix_length_le hpre (List.prefix_append _ _) ?_
      have : 1 ≤ y.length := by cases y with
        | nil => exact absurd rfl hy
        | cons c y => simp
      simp only [List.length_append]
      have e4 : "MCNP".toList.length = 4 := by decide
      have e5 : mcnpMark.length = 5 := by decide
      omega
    obtain ⟨t, ht⟩ := hpre2
    exact ⟨x, t, by rw [← hxy, List.append_assoc, List.append_assoc, ← ht]⟩

theorem stripZeros_spec (i j : Nat) (u : Str) (h1 : u.head? ≠ some '0') (h2 : u.getLast? ≠ some '0') (hne : u ≠ []) :
    stripZeros (List.replicate i '0' ++ (u ++ List.replicate j '0')) = u := by
  unfold stripZeros
  have hz : ∀ k, ∀ c ∈ List.replicate k '0', (decide (c = '0')) = true := by
    intro k c hc; simpa using (List.mem_replicate.mp hc).2
  have q1 := (takeWhile_run (p := fun c => decide (c = '0')) (a := List.replicate i '0') (s := u ++ List.replicate j '0') (hz i) (by
    intro c t hc
    cases u with
    | nil => exact absurd rfl hne
    | cons d u =>
      simp only [List.cons_append, List.cons.injEq] at hc
      simp only [List.head?_cons, ne_eq, Option.some.injEq] at h1
      rw [← hc.1]; simpa using h1)).2
  rw [q1, List.reverse_append, List.reverse_replicate]
  have q2 := (takeWhile_run (p := fun c => decide (c = '0')) (a := List.replicate j '0') (s := u.reverse) (hz j) (by
    intro c t hc
    have : u.getLast? = some c := by
      have := congrArg List.head? hc
      simpa using this
    rw [this] at h2
    simpa using h2)).2
  rw [q2, List.reverse_reverse]

/-- C88 on the text: a first line `… MCNP_<version>…` (and no D1SUNED line): the version without the zeros at both ends. -/
theorem version_text_partial (a w s u : Str) (ls : List Str) (i j : Nat) (ha : ¬ mcnpMark <:+: a ++ "MCNP".toList)
    (hw : w = List.replicate i '0' ++ (u ++ List.replicate j '0')) (hv : ∀ c ∈ w, isVer c = true) (hne : u ≠ [])
    (h1 : u.head? ≠ some '0') (h2 : u.getLast? ≠ some '0') (hs : ∀ c t, s = c :: t → isVer c = false)
    (hd : ∀ x ∈ ((a ++ (mcnpMark ++ (w ++ s))) :: ls).take 34, search d1sHere x = none) :
    codeVersion ((a ++ (mcnpMark ++ (w ++ s))) :: ls) = .ok u := by
  have hwne : w ≠ [] := by rw [hw]; simp [hne]
  rw [version_found_partial _ w ls hd (mcnp_search ha hwne hv hs), hw, stripZeros_spec i j u h1 h2 hne]

/-- a line without the letter `d` is no D1SUNED line -/
theorem no_d1s (l : Str) (h : ∀ c ∈ l, c ≠ 'd') : search d1sHere l = none := by
  induction l with
  | nil => rfl
  | cons c l ih =>
    have hc := h c (by simp)
    have h1 : d1sHere (c :: l) = none := by
      unfold d1sHere
      rw [if_neg]
      have e : "d1suned".toList = 'd' :: "1suned".toList := by decide
      rw [e, List.isPrefixOf]
      simp [Ne.symm hc]
    rw [search, h1]
    exact ih (fun x hx => h x (by simp [hx]))

/-- C88 for D1SUNED: the number after the first `d1suned version` in the first 34 lines. -/
theorem version_d1s (pre post : List Str) (a b1 b2 ds s : Str) (hpre : ∀ x ∈ pre, search d1sHere x = none) (hlen : pre.length < 34)
    (ha : ∀ c ∈ a, c ≠ 'd' ∧ c ≠ 'v') (hb1 : b1 ≠ []) (hb1s : ∀ c ∈ b1, isSpace c = true) (hb2 : b2 ≠ []) (hb2s : ∀ c ∈ b2, isSpace c = true)
    (hds : ds ≠ []) (hd : ∀ c ∈ ds, isDigit c = true) (hs : ∀ c t, s = c :: t → isDigit c = false) :
    codeVersion (pre ++ (a ++ ("d1suned".toList ++ (b1 ++ ("version".toList ++ (b2 ++ (ds ++ s)))))) :: post) = .ok ("d1suned".toList ++ ds) := by
  have hspace : ∀ (b r : Str), b ≠ [] → (∀ c ∈ b, isSpace c = true) → startsSpace (b ++ r) = true := by
    intro b r hb h
    cases b with
    | nil => exact absurd rfl hb
    | cons c b => exact h c (by simp)
  have hvw : ∀ c t, "version".toList ++ (b2 ++ (ds ++ s)) = c :: t → isSpace c = false := by
    intro c t h
    have h' : 'v' :: ("ersion".toList ++ (b2 ++ (ds ++ s))) = c :: t := h
    rw [List.cons.injEq] at h'
    rw [← h'.1]; decide
  have hdw : ∀ c t, ds ++ s = c :: t → isSpace c = false := by
    intro c t h
    exact isSpace_of_isDigit (head_of (p := isDigit) hds hd c t h)
  have hdig : (ds ++ s).takeWhile isDigit = ds := (takeWhile_run hd hs).1
  have hver : versionHere ("version".toList ++ (b2 ++ (ds ++ s))) = some ds := by
    unfold versionHere
    have hp : "version".toList.isPrefixOf ("version".toList ++ (b2 ++ (ds ++ s))) = true := List.isPrefixOf_iff_prefix.mpr (List.prefix_append _ _)
    have hdr : ("version".toList ++ (b2 ++ (ds ++ s))).drop 7 = b2 ++ (ds ++ s) := List.drop_left (l₁ := "version".toList)
    rw [if_pos hp, hdr, if_pos (hspace _ _ hb2 hb2s), (takeWhile_run (p := isSpace) hb2s hdw).2, hdig]
    cases ds with
    | nil => exact absurd rfl hds
    | cons c ds => rfl
  have hd1 : d1sHere ("d1suned".toList ++ (b1 ++ ("version".toList ++ (b2 ++ (ds ++ s))))) = some ds := by
    unfold d1sHere
    have hp : "d1suned".toList.isPrefixOf ("d1suned".toList ++ (b1 ++ ("version".toList ++ (b2 ++ (ds ++ s))))) = true := List.isPrefixOf_iff_prefix.mpr (List.prefix_append _ _)
    have hdr : ("d1suned".toList ++ (b1 ++ ("version".toList ++ (b2 ++ (ds ++ s))))).drop 7 = b1 ++ ("version".toList ++ (b2 ++ (ds ++ s))) := List.drop_left (l₁ := "d1suned".toList)
    have hp2 : "version".toList.isPrefixOf ("version".toList ++ (b2 ++ (ds ++ s))) = true := List.isPrefixOf_iff_prefix.mpr (List.prefix_append _ _)
    have hdr2 : ("version".toList ++ (b2 ++ (ds ++ s))).drop 7 = b2 ++ (ds ++ s) := List.drop_left (l₁ := "version".toList)
    rw [if_pos hp, hdr]
    simp only
    rw [(takeWhile_run (p := isSpace) hb1s hvw).2, if_pos ⟨hspace _ _ hb1 hb1s, hp2⟩, hdr2, if_pos (hspace _ _ hb2 hb2s),
      (takeWhile_run (p := isSpace) hb2s hdw).2, hdig]
    cases ds with
    | nil => exact absurd rfl hds
    | cons c ds => rfl
  have notv : ∀ (c : Char) (r : Str), c ≠ 'v' → versionHere (c :: r) = none := by
    intro c r hc
    unfold versionHere
    rw [if_neg]
    have e : "version".toList = 'v' :: "ersion".toList := by decide
    rw [e, List.isPrefixOf]
    simp [Ne.symm hc]
  have notd : ∀ (c : Char) (r : Str), c ≠ 'd' → d1sHere (c :: r) = none := by
    intro c r hc
    unfold d1sHere
    rw [if_neg]
    have e : "d1suned".toList = 'd' :: "1suned".toList := by decide
    rw [e, List.isPrefixOf]
    simp [Ne.symm hc]
  have s1 : search d1sHere (a ++ ("d1suned".toList ++ (b1 ++ ("version".toList ++ (b2 ++ (ds ++ s)))))) = some ds := by
    rw [search_skip]
    · have e : ∀ r : Str, "d1suned".toList ++ r = 'd' :: ("1suned".toList ++ r) := fun _ => rfl
      rw [e] at hd1 ⊢
      rw [search, hd1]
    · intro x y hxy hy
      cases y with
      | nil => exact absurd rfl hy
      | cons c y => exact notd c _ (ha c (by rw [← hxy]; simp)).1
  have s2 : search versionHere (a ++ ("d1suned".toList ++ (b1 ++ ("version".toList ++ (b2 ++ (ds ++ s)))))) = some ds := by
    have e0 : a ++ ("d1suned".toList ++ (b1 ++ ("version".toList ++ (b2 ++ (ds ++ s))))) =
        (a ++ ("d1suned".toList ++ b1)) ++ ("version".toList ++ (b2 ++ (ds ++ s))) := by simp
    rw [e0, search_skip]
    · have e : ∀ r : Str, "version".toList ++ r = 'v' :: ("ersion".toList ++ r) := fun _ => rfl
      rw [e] at hver ⊢
      rw [search, hver]
    · intro x y hxy hy
      cases y with
      | nil => exact absurd rfl hy
      | cons c y =>
        apply notv
        have hm : c ∈ a ++ ("d1suned".toList ++ b1) := by rw [← hxy]; simp
        rcases List.mem_append.mp hm with hm | hm
        · exact (ha c hm).2
        · rcases List.mem_append.mp hm with hm | hm
          · have hall : ∀ d ∈ "d1suned".toList, d ≠ 'v' := by decide
            exact hall c hm
          · intro h; subst h
            have := hb1s 'v' hm
            revert this; decide
  have h1 : ∀ (q r : List Str), (∀ x ∈ q, search d1sHere x = none) → d1sVersion (q ++ r) = d1sVersion r := by
    intro q r hq
    induction q with
    | nil => rfl
    | cons x q ih => rw [List.cons_append, d1sVersion, hq x (by simp)]; exact ih (fun y hy => hq y (by simp [hy]))
  unfold codeVersion
  have ht : (pre ++ (a ++ ("d1suned".toList ++ (b1 ++ ("version".toList ++ (b2 ++ (ds ++ s)))))) :: post).take 34 =
      pre ++ (a ++ ("d1suned".toList ++ (b1 ++ ("version".toList ++ (b2 ++ (ds ++ s)))))) :: post.take (33 - pre.length) := by
    rw [List.take_append, List.take_of_length_le (by omega)]
    congr 1
    have : 34 - pre.length = (33 - pre.length) + 1 := by omega
    rw [this, List.take_succ_cons]
  rw [ht, h1 _ _ hpre, d1sVersion, s1]
  simp only
  rw [s2]; rfl

/-- the hypotheses of `version_text_partial` are met by a real header (a first line and a second one) -/
example : codeVersion ["          Cope Name & Version = MCNP_6.20, 6.2.0\n".toList, "x\n".toList] = .ok "6.2".toList :=
  version_text_partial "          Cope Name & Version = ".toList "6.20".toList ", 6.2.0\n".toList "6.2".toList ["x\n".toList] 0 1
    (by rw [← contains_iff]; decide +kernel) (by decide) (by decide) (by decide) (by decide) (by decide)
    (by intro c t h
        have h' : ',' :: " 6.2.0\n".toList = c :: t := h
        rw [List.cons.injEq] at h'
        rw [← h'.1]; decide)
    (by intro x hx
        apply no_d1s
        revert x; decide +kernel)

example : codeVersion ["          Code Name & Version = MCNP_6.20, 6.2.0\n".toList] = .ok "6.2".toList ∧
    codeVersion ["          Code Name & Version = MCNP_10, 10\n".toList] = .ok "1".toList ∧
    codeVersion ["\n".toList, "          Code Name & Version = MCNP_6.20, 6.2.0\n".toList] = .error .valueError ∧
    codeVersion ["d1suned  version  4  ld=\n".toList] = .ok "d1suned4".toList := by decide +kernel

end F4Enix.Outp
