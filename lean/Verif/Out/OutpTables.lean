import Verif.Out.OutpProps
/-!
# C82–C87: lost particles, tables of statistical checks, printed tables, code version
-/
namespace F4Enix.Outp
open F4Enix F4Enix.Find

/-! ## C82: lost particles -/

/-- A number in scientific notation: signs, digit, point, digits, `E`, sign, digits. (specification) -/
def IsSci (w : Str) : Prop :=
  ∃ (signs : Str) (d : Char) (ds : Str) (g : Char) (es : Str), w = signs ++ ([d, '.'] ++ (ds ++ (['E', g] ++ es))) ∧
    (∀ c ∈ signs, c = '-' ∨ c = '+') ∧ isDigit d = true ∧ ds ≠ [] ∧ (∀ c ∈ ds, isDigit c = true) ∧
    (g = '-' ∨ g = '+') ∧ es ≠ [] ∧ (∀ c ∈ es, isDigit c = true)

theorem digit_not_sign {c : Char} (h : isDigit c = true) : decide (c = '-' ∨ c = '+') = false := by
  rw [decide_eq_false_iff_not]
  rintro (h' | h') <;> subst h' <;> revert h <;> decide

theorem isDigit_E : isDigit 'E' = false := by decide

theorem sciHere_sci {w s : Str} (h : IsSci w) (hs : ∀ c t, s = c :: t → isDigit c = false) : sciHere (w ++ s) = some w := by
  obtain ⟨signs, d, ds, g, es, rfl, hsg, hd, hds, hdsd, hg, hes, hesd⟩ := h
  unfold sciHere
  have a1 := takeWhile_run (p := fun c => decide (c = '-' ∨ c = '+')) (a := signs) (s := [d, '.'] ++ (ds ++ (['E', g] ++ es)) ++ s)
    (fun c hc => by simpa using hsg c hc) (by
      intro c t hc
      simp only [List.cons_append, List.cons.injEq] at hc
      rw [← hc.1]; exact digit_not_sign hd)
  have e1 : signs ++ ([d, '.'] ++ (ds ++ (['E', g] ++ es))) ++ s = signs ++ ([d, '.'] ++ (ds ++ (['E', g] ++ es)) ++ s) := by simp
  rw [e1, a1.1, a1.2]
  have e2 : [d, '.'] ++ (ds ++ (['E', g] ++ es)) ++ s = d :: '.' :: (ds ++ ('E' :: g :: (es ++ s))) := by simp
  rw [e2]
  simp only
  have a2 := takeWhile_run (p := isDigit) (a := ds) (s := 'E' :: g :: (es ++ s)) hdsd (by
      intro c t hc
      simp only [List.cons.injEq] at hc
      rw [← hc.1]; exact isDigit_E)
  rw [a2.1, a2.2]
  simp only
  have a3 := takeWhile_run (p := isDigit) (a := es) (s := s) hesd hs
  rw [a3.1]
  rw [if_pos ⟨hd, by decide, hds, trivial, hg, hes⟩]
  simp

/-- A text without digits and signs begins no number, whatever follows a blank. -/
theorem sciHere_none {c : Char} {s : Str} (h1 : isDigit c = false) (h2 : ¬ (c = '-' ∨ c = '+')) : sciHere (c :: s) = none := by
  unfold sciHere
  have hd : decide (c = '-' ∨ c = '+') = false := by rw [decide_eq_false_iff_not]; exact h2
  simp only [List.dropWhile_cons, hd, Bool.false_eq_true, if_false]
  cases s with
  | nil => rfl
  | cons p r =>
    simp only
    cases r.dropWhile isDigit with
    | nil => rfl
    | cons e r2 =>
      cases r2 with
      | nil => rfl
      | cons g r3 => simp [h1]

/-- Text in which no number can begin. (specification) -/
def Plain (t : Str) : Prop := ∀ c ∈ t, isDigit c = false ∧ ¬ (c = '-' ∨ c = '+')

theorem findAll_plain {t : Str} (s : Str) (h : Plain t) : findAll sciHere 0 (t ++ s) = findAll sciHere 0 s := by
  apply findAll_quiet
  intro a b hab hb
  cases b with
  | nil => exact absurd rfl hb
  | cons c b =>
    have := h c (by rw [← hab]; simp)
    exact sciHere_none this.1 this.2

theorem sci_ne {w : Str} (h : IsSci w) : w ≠ [] := by
  obtain ⟨signs, d, ds, g, es, rfl, -⟩ := h
  simp

theorem findAll_three {l0 l1 l2 l3 a b c : Str} (h0 : Plain l0) (h1 : Plain l1) (h2 : Plain l2) (h3 : Plain l3)
    (n1 : l1 ≠ []) (n2 : l2 ≠ []) (ha : IsSci a) (hb : IsSci b) (hc : IsSci c) :
    findAll sciHere 0 (l0 ++ (a ++ (l1 ++ (b ++ (l2 ++ (c ++ l3)))))) = [a, b, c] := by
  have start : ∀ (l : Str) (s : Str), Plain l → l ≠ [] → ∀ x t, l ++ s = x :: t → isDigit x = false := by
    intro l s hl hn x t hx
    cases l with
    | nil => exact absurd rfl hn
    | cons y l =>
      simp only [List.cons_append, List.cons.injEq] at hx
      rw [← hx.1]; exact (hl y (by simp)).1
  rw [findAll_plain _ h0, findAll_match (sci_ne ha) (sciHere_sci ha (start l1 _ h1 n1)), findAll_plain _ h1,
    findAll_match (sci_ne hb) (sciHere_sci hb (start l2 _ h2 n2)), findAll_plain _ h2]
  have e : findAll sciHere 0 (c ++ l3) = c :: findAll sciHere 0 l3 := by
    apply findAll_match (sci_ne hc)
    apply sciHere_sci hc
    intro x t hx
    rw [hx] at h3
    exact (h3 x (by simp)).1
  rw [e]
  have := findAll_plain [] h3
  rw [List.append_nil] at this
  rw [this]; rfl

/-- What a complete record of a lost particle says; `after` are the seven lines after the one with the surface. (specification) -/
structure LpRecord where
  first : Str
  after : List Str
  surface : Str
  cell : Str
  point : Str × Str × Str
  cosines : Str × Str × Str

/-- The digits `ds` are the first number in the line. (specification) -/
def FirstNumber (ds l : Str) : Prop :=
  ∃ a s, l = a ++ (ds ++ s) ∧ (∀ c ∈ a, isDigit c = false) ∧ ds ≠ [] ∧ (∀ c ∈ ds, isDigit c = true) ∧ ∀ c t, s = c :: t → isDigit c = false

/-- The line has these three numbers, with text free of digits and signs around them. (specification) -/
def ThreeNumbers (p : Str × Str × Str) (l : Str) : Prop :=
  ∃ l0 l1 l2 l3, l = l0 ++ (p.1 ++ (l1 ++ (p.2.1 ++ (l2 ++ (p.2.2 ++ l3))))) ∧ Plain l0 ∧ Plain l1 ∧ Plain l2 ∧ Plain l3 ∧ l1 ≠ [] ∧ l2 ≠ [] ∧
    IsSci p.1 ∧ IsSci p.2.1 ∧ IsSci p.2.2

/-- The record is written as MCNP writes it: the number of the surface after the words, the number of the cell in the
next line, position and direction in the sixth and seventh line. (specification) -/
def LpRecord.Written (r : LpRecord) : Prop :=
  surfaceId <:+: r.first ∧ FirstNumber r.surface r.first ∧ (∀ l ∈ r.after, ¬ surfaceId <:+: l) ∧
  ∃ l1 l2 l3 l4 l5 l6 l7, r.after = [l1, l2, l3, l4, l5, l6, l7] ∧ FirstNumber r.cell l1 ∧ ThreeNumbers r.point l6 ∧ ThreeNumbers r.cosines l7

/-- reading three numbers (specification) -/
def readThree (num : Str → Option ℚ) (p : Str × Str × Str) : Option (ℚ × ℚ × ℚ) :=
  match num p.1, num p.2.1, num p.2.2 with
  | some x, some y, some z => some (x, y, z)
  | _, _, _ => none

/-- the row of the table for a record (specification) -/
def LpRecord.IsRow (num : Str → Option ℚ) (cosine : Bool) (cells : Option (Dict Str (Option ℤ))) (r : LpRecord) (row : LpRow) : Prop :=
  row.surface = r.surface ∧ row.cell = r.cell ∧ readThree num r.point = some row.point ∧
  (cosine = true → ∃ q, row.cosines = some q ∧ readThree num r.cosines = some q) ∧ (cosine = false → row.cosines = none) ∧
  (match cells with
   | none => row.univ = none
   | some d => ∃ u, Dict.get? d r.cell = some u ∧ row.univ = some u)

theorem digitsOf_first {ds l : Str} (h : FirstNumber ds l) : digitsOf l = .ok ds := by
  obtain ⟨a, s, rfl, ha, hne, hd, hs⟩ := h
  unfold digitsOf
  rw [searchDigits_run ha hne hd hs]

theorem three_numbers (num : Str → Option ℚ) {p : Str × Str × Str} {l : Str} (h : ThreeNumbers p l) {q : ℚ × ℚ × ℚ}
    (hq : readThree num p = some q) : three num (findAll sciHere 0 l) = .ok q := by
  obtain ⟨l0, l1, l2, l3, rfl, h0, h1, h2, h3, n1, n2, ha, hb, hc⟩ := h
  rw [findAll_three h0 h1 h2 h3 n1 n2 ha hb hc]
  unfold three
  unfold readThree at hq
  simp only
  cases hx : num p.1 with
  | none => rw [hx] at hq; simp at hq
  | some x =>
    cases hy : num p.2.1 with
    | none => rw [hx, hy] at hq; simp at hq
    | some y =>
      cases hz : num p.2.2 with
      | none => rw [hx, hy, hz] at hq; simp at hq
      | some z => rw [hx, hy, hz] at hq; simp only [Option.some.injEq] at hq; simp [hq]

theorem lpRow_record (num : Str → Option ℚ) (cosine : Bool) (cells : Option (Dict Str (Option ℤ))) (r : LpRecord) (row : LpRow)
    (hw : r.Written) (hr : r.IsRow num cosine cells row) (rest : List Str) :
    lpRow num cosine cells r.first (r.after ++ rest) = .ok row := by
  obtain ⟨-, hs, -, l1, l2, l3, l4, l5, l6, l7, hl, hc, hp, hd⟩ := hw
  obtain ⟨r1, r2, r3, r4, r5, r6⟩ := hr
  obtain ⟨rs, rc, rp, rcos, ru⟩ := row
  simp only at r1 r2 r3 r4 r5 r6
  unfold lpRow
  rw [hl]
  have a0 : lineAt ([l1, l2, l3, l4, l5, l6, l7] ++ rest) 0 = .ok l1 := rfl
  have a5 : lineAt ([l1, l2, l3, l4, l5, l6, l7] ++ rest) 5 = .ok l6 := rfl
  have a6 : lineAt ([l1, l2, l3, l4, l5, l6, l7] ++ rest) 6 = .ok l7 := rfl
  rw [a0, a5, a6, digitsOf_first hs]
  simp only [bind, Except.bind, pure, Except.pure]
  rw [digitsOf_first hc, three_numbers num hp r3]
  cases cells with
  | none =>
    simp only at r6
    cases cosine with
    | false => simp [r5 rfl, r1, r2, r6]
    | true =>
      obtain ⟨q, q1, q2⟩ := r4 rfl
      rw [three_numbers num hd q2]
      simp [q1, r1, r2, r6, Except.map]
  | some d =>
    simp only at r6
    obtain ⟨u, u1, u2⟩ := r6
    simp only
    rw [u1]
    simp only
    cases cosine with
    | false => simp [r5 rfl, r1, r2, u2]
    | true =>
      obtain ⟨q, q1, q2⟩ := r4 rfl
      rw [three_numbers num hd q2]
      simp [q1, r1, r2, u2, Except.map]

theorem lpTable_quiet (num : Str → Option ℚ) (cosine : Bool) (cells : Option (Dict Str (Option ℤ))) (pre rest : List Str)
    (h : ∀ l ∈ pre, ¬ surfaceId <:+: l) : lpTable num cosine cells (pre ++ rest) = lpTable num cosine cells rest := by
  induction pre with
  | nil => rfl
  | cons l pre ih =>
    rw [List.cons_append, lpTable, if_neg (by rw [contains_iff]; exact h l (by simp))]
    exact ih (fun x hx => h x (by simp [hx]))

/-- the file: other lines, a record, other lines, a record, … and other lines at the end (specification) -/
def lpFile (rs : List (List Str × LpRecord)) (tail : List Str) : List Str :=
  (rs.map (fun r => r.1 ++ r.2.first :: r.2.after)).flatten ++ tail

/-- C82: the table has one row per lost particle, in the order of the file, with its surface, cell, position,
direction and (if an input is given) universe. -/
theorem lp_table_exact (num : Str → Option ℚ) (cosine : Bool) (cells : Option (Dict Str (Option ℤ)))
    (rs : List (List Str × LpRecord)) (tail : List Str) (rows : List LpRow)
    (hgap : ∀ r ∈ rs, ∀ l ∈ r.1, ¬ surfaceId <:+: l) (htail : ∀ l ∈ tail, ¬ surfaceId <:+: l)
    (hw : ∀ r ∈ rs, r.2.Written) (hrow : List.Forall₂ (fun r row => r.2.IsRow num cosine cells row) rs rows) :
    lpTable num cosine cells (lpFile rs tail) = .ok rows := by
  induction hrow with
  | nil =>
    have := lpTable_quiet num cosine cells tail [] htail
    rw [List.append_nil] at this
    simpa [lpFile, lpTable] using this
  | @cons r row rs rows hr _ ih =>
    have ih' := ih (fun x hx => hgap x (by simp [hx])) (fun x hx => hw x (by simp [hx]))
    have e : lpFile (r :: rs) tail = r.1 ++ (r.2.first :: (r.2.after ++ lpFile rs tail)) := by
      simp [lpFile]
    have hwr := hw r (by simp)
    rw [e, lpTable_quiet _ _ _ _ _ (hgap r (by simp)), lpTable, if_pos ((contains_iff _ _).mpr hwr.1),
      lpRow_record num cosine cells r.2 row hwr hr, lpTable_quiet _ _ _ _ _ hwr.2.2.1, ih']

/-- an error in what follows is an error of the whole file -/
theorem lpTable_error_after (num : Str → Option ℚ) (cosine : Bool) (cells : Option (Dict Str (Option ℤ))) (pre rest : List Str)
    (h : ∃ e, lpTable num cosine cells rest = .error e) : ∃ e, lpTable num cosine cells (pre ++ rest) = .error e := by
  induction pre with
  | nil => exact h
  | cons l pre ih =>
    obtain ⟨e, he⟩ := ih
    rw [List.cons_append, lpTable]
    split
    · cases lpRow num cosine cells l (pre ++ rest) with
      | error e' => exact ⟨e', rfl⟩
      | ok r => simp only [he]; exact ⟨e, rfl⟩
    · exact ⟨e, he⟩

/-- C82: in every file for which a table is made, whatever its layout, the table has as many rows as the file has lines
that name the surface of a lost particle: no record is left out. -/
theorem lp_rows_count (num : Str → Option ℚ) (cosine : Bool) (cells : Option (Dict Str (Option ℤ))) (lines : List Str)
    (rows : List LpRow) (h : lpTable num cosine cells lines = .ok rows) :
    rows.length = (lines.filter (fun l => decide (surfaceId <:+: l))).length := by
  induction lines generalizing rows with
  | nil => simp only [lpTable, Except.ok.injEq] at h; subst h; rfl
  | cons l ls ih =>
    rw [lpTable] at h
    by_cases hl : surfaceId <:+: l
    · rw [if_pos ((contains_iff _ _).mpr hl)] at h
      rw [List.filter_cons_of_pos (by simpa using hl)]
      cases h1 : lpRow num cosine cells l ls with
      | error e => simp only [h1] at h; simp at h
      | ok r =>
        cases h2 : lpTable num cosine cells ls with
        | error e => simp only [h1, h2] at h; simp at h
        | ok rs =>
          simp only [h1, h2, Except.ok.injEq] at h
          subst h
          simp [ih rs h2]
    · rw [if_neg (by rw [contains_iff]; exact hl)] at h
      rw [List.filter_cons_of_neg (by simpa using hl)]
      exact ih rows h

/-- C82: a record that is cut off, wherever the ones before it stand, by the end of the file (fewer than seven lines after the surface) is an error, not a
table without that particle. -/
theorem lp_truncated (num : Str → Option ℚ) (cosine : Bool) (cells : Option (Dict Str (Option ℤ))) (pre after : List Str) (l : Str)
    (hl : surfaceId <:+: l) (hshort : after.length < 7) :
    ∃ e, lpTable num cosine cells (pre ++ l :: after) = .error e := by
  apply lpTable_error_after
  rw [lpTable, if_pos ((contains_iff _ _).mpr hl)]
  have h6 : lineAt after 6 = .error .indexError := by
    unfold lineAt; rw [List.getElem?_eq_none (by omega)]
  have : ∃ e, lpRow num cosine cells l after = .error e := by
    unfold lpRow
    simp only [bind, Except.bind, pure, Except.pure]
    cases digitsOf l with
    | error e => exact ⟨e, rfl⟩
    | ok s =>
      simp only
      cases lineAt after 0 with
      | error e => exact ⟨e, rfl⟩
      | ok l1 =>
        simp only
        cases digitsOf l1 with
        | error e => exact ⟨e, rfl⟩
        | ok c =>
          simp only
          cases lineAt after 5 with
          | error e =>
            cases cells with
            | none => exact ⟨e, rfl⟩
            | some d =>
              simp only
              cases Dict.get? d c with
              | none => exact ⟨_, rfl⟩
              | some u => exact ⟨_, rfl⟩
          | ok l6 =>
            rw [h6]
            cases cells with
            | none => exact ⟨_, rfl⟩
            | some d =>
              simp only
              cases Dict.get? d c with
              | none => exact ⟨_, rfl⟩
              | some u => exact ⟨_, rfl⟩
  obtain ⟨e, he⟩ := this
  exact ⟨e, by rw [he]⟩

/-- `exRec` (example) -/
def exRec : LpRecord where
  first := " the neutron  currently being tracked has reached surface         6  ; there\n".toList
  after := [" appears to be no cell on the other side of the surface from cell 60\n".toList, " at that point.\n".toList, "\n".toList,
    " the neutron  is in cell 60.\n".toList, "\n".toList, " x,y,z coordinates:          8.51597E+00   -7.66724E+00    5.83396E-01\n".toList,
    " u,v,w direction cosines:    6.62279E-01    5.96273E-01    4.53702E-01\n".toList]
  surface := "6".toList
  cell := "60".toList
  point := ("8.51597E+00".toList, "-7.66724E+00".toList, "5.83396E-01".toList)
  cosines := ("6.62279E-01".toList, "5.96273E-01".toList, "4.53702E-01".toList)

/-- a stand-in for `float`, to evaluate examples -/
def exNum (s : Str) : Option ℚ := if s.length = 11 then some 1 else some 2

/-- a record of a real output -/
example : lpTable exNum true (some [("60".toList, some 3)]) ("header\n".toList :: exRec.first :: (exRec.after ++ ["\n".toList])) =
    .ok [⟨"6".toList, "60".toList, (1, 2, 1), some (1, 1, 1), some (some 3)⟩] := by decide +kernel

theorem exRec_written : exRec.Written := by
  have sci : ∀ (d : Char) (ds : Str) (g : Char) (es : Str) (signs : Str), (signs = [] ∨ signs = ['-']) → isDigit d = true → ds ≠ [] → ds.all isDigit = true →
      (g = '-' ∨ g = '+') → es ≠ [] → es.all isDigit = true → IsSci (signs ++ ([d, '.'] ++ (ds ++ (['E', g] ++ es)))) := by
    intro d ds g es signs h0 h1 h2 h3 h4 h5 h6
    refine ⟨signs, d, ds, g, es, rfl, ?_, h1, h2, List.all_eq_true.mp h3, h4, h5, List.all_eq_true.mp h6⟩
    rcases h0 with rfl | rfl <;> simp
  have plain : ∀ t : Str, t.all (fun c => !isDigit c && !decide (c = '-' ∨ c = '+')) = true → Plain t := by
    intro t ht c hc
    have := List.all_eq_true.mp ht c hc
    simpa using this
  refine ⟨?_, ⟨" the neutron  currently being tracked has reached surface         ".toList, "  ; there\n".toList, ?_, ?_, ?_, ?_, ?_⟩, ?_, ?_⟩
  · rw [← contains_iff]; decide +kernel
  · decide +kernel
  · decide +kernel
  · decide +kernel
  · decide +kernel
  · intro c t h
    have h' : ' ' :: " ; there\n".toList = c :: t := h
    rw [List.cons.injEq] at h'
    rw [← h'.1]; decide
  · intro l hl
    rw [← contains_iff]
    revert l; decide +kernel
  · refine ⟨_, _, _, _, _, _, _, rfl, ⟨" appears to be no cell on the other side of the surface from cell ".toList, "\n".toList, ?_, ?_, ?_, ?_, ?_⟩, ?_, ?_⟩
    · decide +kernel
    · decide +kernel
    · decide +kernel
    · decide +kernel
    · intro c t h
      have h' : '\n' :: [] = c :: t := h
      rw [List.cons.injEq] at h'
      rw [← h'.1]; decide
    · refine ⟨" x,y,z coordinates:          ".toList, "   ".toList, "    ".toList, "\n".toList, ?_, plain _ ?_, plain _ ?_, plain _ ?_, plain _ ?_, ?_, ?_, ?_, ?_, ?_⟩
      · decide +kernel
      · decide +kernel
      · decide +kernel
      · decide +kernel
      · decide +kernel
      · decide +kernel
      · decide +kernel
      · exact sci '8' "51597".toList '+' "00".toList [] (by simp) (by decide) (by decide) (by decide) (by simp) (by decide) (by decide)
      · exact sci '7' "66724".toList '+' "00".toList ['-'] (by simp) (by decide) (by decide) (by decide) (by simp) (by decide) (by decide)
      · exact sci '5' "83396".toList '-' "01".toList [] (by simp) (by decide) (by decide) (by decide) (by simp) (by decide) (by decide)
    · refine ⟨" u,v,w direction cosines:    ".toList, "    ".toList, "    ".toList, "\n".toList, ?_, plain _ ?_, plain _ ?_, plain _ ?_, plain _ ?_, ?_, ?_, ?_, ?_, ?_⟩
      · decide +kernel
      · decide +kernel
      · decide +kernel
      · decide +kernel
      · decide +kernel
      · decide +kernel
      · decide +kernel
      · exact sci '6' "62279".toList '-' "01".toList [] (by simp) (by decide) (by decide) (by decide) (by simp) (by decide) (by decide)
      · exact sci '5' "96273".toList '-' "01".toList [] (by simp) (by decide) (by decide) (by decide) (by simp) (by decide) (by decide)
      · exact sci '4' "53702".toList '-' "01".toList [] (by simp) (by decide) (by decide) (by decide) (by simp) (by decide) (by decide)

/-! ## C83: totals -/

/-- C83: the number of lost particles is the first number of the last line with the words. -/
theorem tot_lp_last (pre post : List Str) (l ds : Str) (hl : totalLP <:+: l) (hd : FirstNumber ds l)
    (hpost : ∀ x ∈ post, ¬ totalLP <:+: x) : getTotLp (pre ++ l :: post) = some (digitsVal ds) := by
  unfold getTotLp
  rw [List.reverse_append, List.reverse_cons, List.append_assoc]
  have : ∀ (q r : List Str), (∀ x ∈ q, ¬ totalLP <:+: x) → totLpLoop (q ++ r) = totLpLoop r := by
    intro q r hq
    induction q with
    | nil => rfl
    | cons x q ih =>
      rw [List.cons_append, totLpLoop, if_neg (by rw [contains_iff]; exact hq x (by simp))]
      exact ih (fun y hy => hq y (by simp [hy]))
  rw [this _ _ (by intro x hx; exact hpost x (by simpa using hx))]
  rw [List.singleton_append, totLpLoop, if_pos ((contains_iff _ _).mpr hl)]
  obtain ⟨a, s, rfl, ha, hne, hdd, hs⟩ := hd
  rw [searchDigits_run ha hne hdd hs]; rfl

/-- C83: the number of histories is the first number three lines below the first heading `<particle> creation`. -/
theorem nps_exact (particle : Str) (pre post : List Str) (l l1 l2 l3 ds : Str)
    (hpre : ∀ x ∈ pre, ¬ (particle ++ " creation".toList) <:+: x) (hl : (particle ++ " creation".toList) <:+: l)
    (hd : FirstNumber ds l3) : getNps particle (pre ++ l :: l1 :: l2 :: l3 :: post) = .ok (digitsVal ds) := by
  induction pre with
  | nil =>
    have h2 : lineAt (l1 :: l2 :: l3 :: post) 2 = .ok l3 := rfl
    rw [List.nil_append, getNps, if_pos ((contains_iff _ _).mpr hl), h2]
    simp only
    rw [digitsOf_first hd]
  | cons x pre ih =>
    rw [List.cons_append, getNps, if_neg (by rw [contains_iff]; exact hpre x (by simp))]
    exact ih (fun y hy => hpre y (by simp [hy]))

/-- C83: the ratio is the quotient of the two; no line on lost particles (a run without them) is a `TypeError`. -/
theorem lpr_exact (lines : List Str) (nps lp : Nat) (h1 : getNps "neutron".toList lines = .ok nps) (h2 : getTotLp lines = some lp)
    (h0 : nps ≠ 0) : getLpr lines = .ok ((lp : ℚ) / nps) := by
  unfold getLpr; rw [h1]; simp only; rw [h2]; simp [h0]

theorem lpr_no_lost (lines : List Str) (nps : Nat) (h1 : getNps "neutron".toList lines = .ok nps)
    (h2 : ∀ l ∈ lines, ¬ totalLP <:+: l) : getLpr lines = .error .typeError := by
  have : getTotLp lines = none := by
    unfold getTotLp
    have : ∀ q : List Str, (∀ x ∈ q, ¬ totalLP <:+: x) → totLpLoop q = none := by
      intro q hq
      induction q with
      | nil => rfl
      | cons x q ih =>
        rw [totLpLoop, if_neg (by rw [contains_iff]; exact hq x (by simp))]
        exact ih (fun y hy => hq y (by simp [hy]))
    exact this _ (by intro x hx; exact h2 x (by simpa using hx))
  unfold getLpr; rw [h1, this]

example : getLpr ["neutron creation tracks\n".toList, "\n".toList, "\n".toList, " source               10000    1.0000E+00\n".toList,
    "   10 particles got lost.\n".toList] = .ok (10 / 10000) := by decide +kernel
example : getLpr ["neutron creation tracks\n".toList, "\n".toList, "\n".toList, " source               10000    1.0000E+00\n".toList] =
    .error .typeError := by decide +kernel

end F4Enix.Outp
