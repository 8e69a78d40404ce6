import Verif.Base.Cut
import Verif.D1S.Props
/-!
# Reaction and irradiation files cut off while they are written (C199)

`ReactionFile.write` (d1suned.py:658-676) and `IrradiationFile.write` (d1suned.py:221-254) open the file for writing and write row after
row: an interruption leaves an initial part of the text.
-/
namespace F4Enix.D1S
open F4Enix

/-! ## Reaction files -/

/-- a reaction as it is read back: a missing comment is an empty one (specification) -/
def asRead (r : Reaction) : Reaction := { r with comment := some (r.comment.getD []) }

theorem readReactionLines_append (a b : List Str) :
    readReactionLines (a ++ b) = match readReactionLines a with
      | .error e => .error e
      | .ok xs =>
        match readReactionLines b with
        | .error e => .error e
        | .ok ys => .ok (xs ++ ys) := by
  induction a with
  | nil => simp only [List.nil_append, readReactionLines]; cases readReactionLines b <;> rfl
  | cons l a ih =>
    simp only [List.cons_append, readReactionLines]
    by_cases hb : (isBlankLine l || isCommentLine l) = true
    · simp only [hb, if_true, ih]
    · simp only [hb, Bool.false_eq_true, if_false, ih]
      cases Reaction.fromText l with
      | error e => rfl
      | ok r =>
        cases readReactionLines a with
        | error e => rfl
        | ok xs => cases readReactionLines b <;> rfl

theorem readReactionLines_rows {rs : List Reaction} (h : ∀ r ∈ rs, ReacFits r) :
    readReactionLines (rs.map Reaction.row) = .ok (rs.map asRead) := by
  have hl : fileLines (writeReactions rs) = rs.map Reaction.row := by
    have := fileLines_flatten (rs.map Reaction.row) (by
      intro l hl
      rw [List.mem_map] at hl
      obtain ⟨r, hr, rfl⟩ := hl
      exact (reaction_row_data (h r hr)).1) []
    simpa [writeReactions, fileLines] using this
  have := c24_write_read rs h
  rw [readReactions, hl] at this
  exact this

theorem map_eq_append_cons {α β : Type} {g : α → β} {l : List α} {a : List β} {x : β} {b : List β} (h : l.map g = a ++ x :: b) :
    ∃ l1 y l2, l = l1 ++ y :: l2 ∧ a = l1.map g ∧ x = g y ∧ b = l2.map g := by
  obtain ⟨l1, l2, rfl, h1, h2⟩ := List.map_eq_append_iff.mp h
  obtain ⟨y, l3, rfl, h3, h4⟩ := List.map_eq_cons_iff.mp h2
  exact ⟨l1, y, l3, rfl, h1.symm, h3.symm, h4.symm⟩

/-- a row that was cut and is still read has its parent and its reaction number -/
theorem fromText_cut {r r' : Reaction} (hf : ReacFits r) {part : Str} (hp : part <+: r.row) (h : Reaction.fromText part = .ok r') :
    r'.parent = r.parent ∧ r'.mt = r.mt ∧ r'.daughter <+: r.daughter := by
  obtain ⟨ws, _, _, hrow⟩ := reaction_row_split hf
  rw [splitWs_strip] at hrow
  have hrow : tokens r.row = r.parent :: intStr r.mt :: r.daughter :: ws := by
    split at hrow
    · simp at hrow
    · exact hrow
  unfold Reaction.fromText at h
  rw [splitWs_strip] at h
  by_cases h0 : tokens part = []
  · rw [if_pos h0] at h; simp at h
  · rw [if_neg h0] at h
    match ht : tokens part, h with
    | [], h => simp at h
    | [_], h => simp at h
    | [_, _], h => simp at h
    | p :: m :: d :: rest, h =>
      have l0 : 2 < (tokens part).length := by rw [ht]; simp
      have g0 := tokens_prefix_get hp (i := 0) (by omega)
      have g1 := tokens_prefix_get hp (i := 1) (by omega)
      have g2 := tokens_prefix_le hp (i := 2) (w' := d) (by rw [ht]; rfl)
      rw [ht, hrow] at g0 g1
      rw [hrow] at g2
      simp only [List.getElem?_cons_zero, List.getElem?_cons_succ, Option.some.injEq] at g0 g1 g2
      subst g0 g1
      obtain ⟨w, rfl, g2⟩ := g2
      simp only [parseInt_intStr] at h
      cases h
      exact ⟨strip_word hf.parent.1, rfl, g2⟩

/-- **C199** (reaction files, what holds). Whatever is read of a reaction file that was cut off is the first reactions of the file, and at
most one more, which has the parent and the number of the next reaction and a daughter that begins like its daughter. -/
theorem reac_cut_partial {rs : List Reaction} (h : ∀ r ∈ rs, ReacFits r) {cut : Str} (hc : cut <+: writeReactions rs)
    {rs' : List Reaction} (hr : readReactions cut = .ok rs') :
    ∃ k, rs' = (rs.take k).map asRead ∨ ∃ r r', rs[k]? = some r ∧ rs' = (rs.take k).map asRead ++ [r'] ∧
      r'.parent = r.parent ∧ r'.mt = r.mt ∧ r'.daughter <+: r.daughter := by
  have hlines : ∀ l ∈ rs.map Reaction.row, IsLine l := by
    intro l hl
    obtain ⟨r, hr, rfl⟩ := List.mem_map.mp hl
    exact (reaction_row_data (h r hr)).1
  rcases cut_lines _ hlines hc with rfl | ⟨ls1, l, ls2, part, d1, d2, d3, rfl⟩
  · refine ⟨rs.length, Or.inl ?_⟩
    have := c24_write_read rs h
    rw [writeReactions, hr] at this
    rw [List.take_length]
    exact Except.ok.inj this
  · obtain ⟨a, r, b, rfl, rfl, rfl, rfl⟩ := map_eq_append_cons d1
    have ha : ∀ r ∈ a, ReacFits r := fun x hx => h x (List.mem_append_left _ hx)
    have hrf : ReacFits r := h r (by simp)
    have htake : (a ++ r :: b).take a.length = a := by simp
    have hget : (a ++ r :: b)[a.length]? = some r := by simp
    refine ⟨a.length, ?_⟩
    rw [htake, hget]
    unfold readReactions at hr
    rw [fileLines_flatten _ (fun l hl => hlines l (by rw [d1]; exact List.mem_append_left _ hl)), fileLines_noNl d3,
      readReactionLines_append, readReactionLines_rows ha] at hr
    by_cases hp0 : part = []
    · rw [if_pos hp0] at hr
      simp only [readReactionLines, List.append_nil] at hr
      exact Or.inl (Except.ok.inj hr).symm
    · rw [if_neg hp0] at hr
      simp only [readReactionLines] at hr
      by_cases hb : (isBlankLine part || isCommentLine part) = true
      · simp only [hb, if_true, List.append_nil] at hr
        exact Or.inl (Except.ok.inj hr).symm
      · simp only [hb, Bool.false_eq_true, if_false] at hr
        cases hft : Reaction.fromText part with
        | error e => simp only [hft] at hr; cases hr
        | ok r' =>
          simp only [hft] at hr
          obtain ⟨e1, e2, e3⟩ := fromText_cut hrf d2 hft
          exact Or.inr ⟨r, r', rfl, (Except.ok.inj hr).symm, e1, e2, e3⟩

/-- **C199** (reaction files, what does not). For every number of reactions, a reaction file cut off after that many is read as a
complete file of that many: the loss is not noticed. -/
theorem reac_rows_lost {rs : List Reaction} (h : ∀ r ∈ rs, ReacFits r) (k : ℕ) :
    writeReactions (rs.take k) <+: writeReactions rs ∧ readReactions (writeReactions (rs.take k)) = .ok ((rs.take k).map asRead) := by
  refine ⟨?_, c24_write_read _ (fun r hr => h r (List.mem_of_mem_take hr))⟩
  refine ⟨writeReactions (rs.drop k), ?_⟩
  unfold writeReactions
  rw [← List.flatten_append, ← List.map_append, List.take_append_drop]

/-! ## Irradiation files -/

/-- the row of an irradiation (proof) -/
def rowOf (w : Widths) (i : Irradiation) : Str := rowText w i (i.comment.getD []) ++ ['\n']

theorem writeRows_rows {w : Widths} {n : Int} {is : List Irradiation} (hfit : ∀ i ∈ is, Fits w i)
    (hlen : ∀ i ∈ is, (i.times.length : Int) = n) : writeRows (irrCols w n) is = .ok (is.map (rowOf w)).flatten := by
  induction is with
  | nil => rfl
  | cons i is ih =>
    obtain ⟨ws, _, hc, _⟩ := (hfit i (by simp)).comment
    have hg : i.comment.getD [] = unwords ws := by rw [hc]; rfl
    simp only [writeRows, format_row w i n (hlen i (by simp)) _ hc,
      ih (fun i hi => hfit i (List.mem_cons_of_mem _ hi)) (fun i hi => hlen i (List.mem_cons_of_mem _ hi))]
    simp [rowOf, hg]

theorem row_facts {w : Widths} {i : Irradiation} (hf : Fits w i) {n : Int} (hn : (i.times.length : Int) = n) :
    IsLine (rowOf w i) ∧ isNscLine (rowOf w i) = false ∧ isBlankLine (rowOf w i) = false ∧ isCommentLine (rowOf w i) = false ∧
      Irradiation.fromText (rowOf w i) n = .ok i ∧ startsSpace (rowOf w i) = true ∧
      ∃ ws, splitWs (rowOf w i) = [] :: (i.daughter :: i.lambd :: (i.times ++ (ws ++ [[]]))) := by
  obtain ⟨c, hc, hft⟩ := fromText_rowText w i hf n hn
  have hg : i.comment.getD [] = c := by rw [hc]; rfl
  obtain ⟨ws, _, hcw, hsp⟩ := splitWs_rowText w i hf
  rw [hc] at hcw
  obtain rfl := Option.some.inj hcw
  obtain ⟨d1, d2, d3, d4⟩ := rowText_data hf hc
  unfold rowOf
  rw [hg]
  refine ⟨⟨_, rfl, d1⟩, d2, d3, d4, hft, ?_, ws, hsp⟩
  unfold rowText
  simp only [List.cons_append, List.nil_append, List.zipWith_cons_cons, List.flatten_cons, List.append_assoc]
  exact startsSpace_pad hf.daughter.2

theorem readLoop_rowOf {w : Widths} {n : Int} {is : List Irradiation} {h : Str} (hfit : ∀ i ∈ is, Fits w i)
    (hlen : ∀ i ∈ is, (i.times.length : Int) = n) (sc : List Irradiation) :
    readLoop ⟨some n, false, h, sc⟩ (is.map (rowOf w)) = .ok ⟨some n, false, h, sc ++ is⟩ := by
  induction is generalizing sc with
  | nil => simp [readLoop]
  | cons i is ih =>
    obtain ⟨_, d2, d3, d4, d5, _⟩ := row_facts (hfit i (by simp)) (hlen i (by simp))
    simp only [List.map_cons, readLoop, readStep, d2, d3, d4, Bool.false_eq_true, if_false, Bool.or_self, d5]
    rw [ih (fun i hi => hfit i (List.mem_cons_of_mem _ hi)) (fun i hi => hlen i (List.mem_cons_of_mem _ hi))]
    simp

theorem isNscLine_prefix {a b : Str} (h : a <+: b) (hn : isNscLine a = true) : isNscLine b = true := by
  match a, h, hn with
  | x :: y :: z :: a, h, hn =>
    match b, h with
    | x' :: y' :: z' :: b, h =>
      simp only [List.cons_prefix_cons] at h
      obtain ⟨rfl, rfl, rfl, _⟩ := h
      exact hn

theorem takeTimes_inv {n : ℕ} {ps ts rest : List Str} (h : takeTimes n ps = .ok (ts, rest)) : ps = ts ++ rest ∧ ts.length = n := by
  induction n generalizing ps ts with
  | zero => cases h; exact ⟨rfl, rfl⟩
  | succ n ih =>
    cases ps with
    | nil => cases h
    | cons p ps =>
      simp only [takeTimes] at h
      cases ht : takeTimes n ps with
      | error e => simp only [ht] at h; cases h
      | ok q =>
        obtain ⟨ts', rest'⟩ := q
        simp only [ht] at h
        cases h
        obtain ⟨e1, e2⟩ := ih ht
        exact ⟨by rw [e1]; rfl, by simp [e2]⟩

/-- what a row that was cut and is still read has kept (specification) -/
structure CutRow (i i' : Irradiation) : Prop where
  daughter : i'.daughter = i.daughter
  lambd : i'.lambd <+: i.lambd
  length : i'.times.length = i.times.length
  times : ∀ (j : ℕ) (t' : Str), i'.times[j]? = some t' → ∃ t, i.times[j]? = some t ∧ t' <+: t ∧ (j + 1 < i.times.length → t' = t)

theorem irr_fromText_cut {w : Widths} {i i' : Irradiation} (hf : Fits w i) {n : Int} (hn : (i.times.length : Int) = n) {part : Str}
    (hp : part <+: rowOf w i) (h0 : part ≠ []) (h : Irradiation.fromText part n = .ok i') : CutRow i i' := by
  obtain ⟨_, _, _, _, _, hss, ws, hrow⟩ := row_facts hf hn
  have hps : startsSpace part = true := by
    obtain ⟨c, t, rfl⟩ := List.exists_cons_of_ne_nil h0
    obtain ⟨c', t', hr⟩ := List.exists_cons_of_ne_nil (l := rowOf w i) (by intro h; rw [h] at hss; simp [startsSpace] at hss)
    rw [hr] at hp hss
    obtain ⟨rfl, _⟩ := List.cons_prefix_cons.mp hp
    simpa [startsSpace] using hss
  obtain ⟨qs, hqs⟩ := splitWs_head_of_startsSpace part hps
  obtain ⟨ts, v, v', e1, e2, u, e3⟩ := splitWs_prefix hp
  rw [hrow] at e3
  rw [hqs] at e1
  unfold Irradiation.fromText at h
  rw [hqs] at h
  simp only [List.head?_cons, if_true, List.tail_cons] at h
  match hq : qs, h with
  | [], h => simp at h
  | [_], h => simp at h
  | d :: l :: rest, h =>
    cases htt : takeTimes n.toNat rest with
    | error e => simp only [htt] at h; cases h
    | ok q =>
      obtain ⟨times, rest'⟩ := q
      simp only [htt] at h
      cases h
      obtain ⟨rfl, hl⟩ := takeTimes_inv htt
      have hl : times.length = i.times.length := by omega
      match ts, e1, e3 with
      | [], e1, _ => simp at e1
      | [_], e1, _ => simp at e1
      | a :: b :: ts, e1, e3 =>
        simp only [List.cons_append, List.cons.injEq] at e1 e3
        obtain ⟨rfl, rfl, g1⟩ := e1
        obtain ⟨_, rfl, g3⟩ := e3
        -- all pieces but the last are those of the row
        have key : ∀ (j : ℕ) (x : Str), (l :: (times ++ rest'))[j]? = some x →
            ∃ y, (i.lambd :: (i.times ++ (ws ++ [[]])))[j]? = some y ∧ x <+: y ∧ (j + 1 < (l :: (times ++ rest')).length → x = y) := by
          intro j x hx
          rw [g1] at hx
          rw [g1, ← g3, List.append_assoc]
          by_cases hj : j < ts.length
          · rw [List.getElem?_append_left hj] at hx ⊢
            exact ⟨x, hx, List.prefix_refl _, fun _ => rfl⟩
          · rw [List.getElem?_append_right (by omega)] at hx ⊢
            have hz : j - ts.length = 0 := by
              by_contra hz
              rw [List.getElem?_eq_none (by simp; omega)] at hx; cases hx
            rw [hz] at hx ⊢
            simp only [List.getElem?_cons_zero, Option.some.injEq, List.cons_append] at hx ⊢
            subst hx
            exact ⟨v, rfl, e2, fun hlt => by simp at hlt; omega⟩
        refine ⟨rfl, ?_, hl, ?_⟩
        · obtain ⟨y, h1, h2, _⟩ := key 0 l rfl
          simp only [List.getElem?_cons_zero, Option.some.injEq] at h1
          subst h1; exact h2
        · intro j t' ht'
          have hj : j < times.length := by
            by_contra hge
            rw [List.getElem?_eq_none (by simpa using hge)] at ht'; cases ht'
          obtain ⟨y, h1, h2, h3⟩ := key (j + 1) t' (by rw [List.getElem?_cons_succ, List.getElem?_append_left hj]; exact ht')
          rw [List.getElem?_cons_succ, List.getElem?_append_left (by omega)] at h1
          refine ⟨y, h1, h2, fun hlt => h3 ?_⟩
          simp only [List.length_cons, List.length_append]; omega

/-- the lines of a written irradiation file -/
theorem irr_lines {f : IrradiationFile} (hc : Consistent f) (hn : 0 ≤ f.nsc)
    (hh : HeaderOk (f.header.getD [])) (hf : ∀ i ∈ f.schedules, Fits f.formatting i) {text : Str} (hw : writeFile f = .ok text) :
    ∃ (hl : List Str) (n : ℕ) (t : Str), f.nsc = n ∧ f.header.getD [] = hl.flatten ∧ (∀ l ∈ hl, IsLine l ∧ isNscLine l = false) ∧
      (∀ c ∈ t, c ≠ '\n') ∧
      text = (hl ++ ("nsc ".toList ++ (natStr n ++ ['\n'])) :: ("C ".toList ++ t ++ ['\n']) :: f.schedules.map (rowOf f.formatting)).flatten := by
  obtain ⟨t, ht1, ht2⟩ := formatTitles f.formatting f.nsc
  have hcols : f.cols = irrCols f.formatting f.nsc := by rw [hc.cols]; simp [irrCols]
  obtain ⟨hl, hl1, hl2⟩ := hh
  obtain ⟨n, hn'⟩ := Int.eq_ofNat_of_zero_le hn
  refine ⟨hl, n, t, hn', hl1, hl2, ht2, ?_⟩
  rw [writeFile, hcols, ht1, writeRows_rows hf hc.times] at hw
  rw [← Except.ok.inj hw, hl1, hn']
  simp [intStr]

theorem nsc_line (n : ℕ) : IsLine ("nsc ".toList ++ (natStr n ++ ['\n'])) := by
  refine ⟨"nsc ".toList ++ natStr n, by simp, ?_⟩
  intro c hcm
  rw [List.mem_append] at hcm
  rcases hcm with hcm | hcm
  · revert c; decide
  · exact isWord_no_nl (natStr_isWord n) c hcm

theorem title_line {t : Str} (ht : ∀ c ∈ t, c ≠ '\n') : IsLine ("C ".toList ++ t ++ ['\n']) := by
  refine ⟨"C ".toList ++ t, by simp, ?_⟩
  intro c hcm
  rw [List.mem_append] at hcm
  rcases hcm with hcm | hcm
  · revert c; decide
  · exact ht c hcm

/-- **C199** (irradiation files, what holds). Whatever is read of an irradiation file that was cut off has the header of the file, and its
schedules are the first schedules of the file, and at most one more: one with the daughter of the next, decay constant and time factors
that are those of the next but for a cut in the last of them. If anything was read, the number of time factors is right. -/
theorem irr_cut_partial {f : IrradiationFile} (hc : Consistent f) (hn : 0 ≤ f.nsc)
    (hh : HeaderOk (f.header.getD [])) (hf : ∀ i ∈ f.schedules, Fits f.formatting i) {text : Str} (hw : writeFile f = .ok text)
    {cut : Str} (hcut : cut <+: text) {g : IrradiationFile} (hr : readFile cut = .ok g) :
    g.header = some (f.header.getD []) ∧ (g.schedules ≠ [] → g.nsc = f.nsc) ∧
      ∃ k, g.schedules = f.schedules.take k ∨
        ∃ i i', f.schedules[k]? = some i ∧ g.schedules = f.schedules.take k ++ [i'] ∧ CutRow i i' := by
  obtain ⟨hl, n, t, hn', hl1, hl2, ht, rfl⟩ := irr_lines hc hn hh hf hw
  have hlen : ∀ i ∈ f.schedules, (i.times.length : Int) = n := fun i hi => by rw [hc.times i hi, hn']
  have hall : ∀ l ∈ hl ++ ("nsc ".toList ++ (natStr n ++ ['\n'])) :: ("C ".toList ++ t ++ ['\n']) :: f.schedules.map (rowOf f.formatting),
      IsLine l := by
    intro l hm
    simp only [List.mem_append, List.mem_cons] at hm
    rcases hm with hm | hm | hm | hm
    · exact (hl2 l hm).1
    · rw [hm]; have := nsc_line n; simpa using this
    · rw [hm]; have := title_line ht; simpa using this
    · obtain ⟨i, hi, rfl⟩ := List.mem_map.mp hm
      exact (row_facts (hf i hi) (hlen i hi)).1
  have hnsc : searchDigits ("nsc ".toList ++ (natStr n ++ ['\n'])) = some (natStr n) :=
    searchDigits_natStr "nsc ".toList ['\n'] n (by decide) (by decide)
  have hnscl : isNscLine ("nsc ".toList ++ (natStr n ++ ['\n'])) = true := rfl
  have htl1 : isNscLine ("C ".toList ++ t ++ ['\n']) = false := by cases t <;> simp [isNscLine]
  have htl2 : isCommentLine ("C ".toList ++ t ++ ['\n']) = true := by simp [isCommentLine, isSpace_space]
  have hhead : ∀ ls, readLoop ⟨none, true, [], []⟩ (hl ++ ls) = readLoop ⟨none, true, f.header.getD [], []⟩ ls := by
    intro ls
    rw [readLoop_append, readLoop_header [] hl (fun l hm => (hl2 l hm).2), hl1]; rfl
  have hn1 : ∀ ls, readLoop ⟨none, true, f.header.getD [], []⟩ (("nsc ".toList ++ (natStr n ++ ['\n'])) :: ls) =
      readLoop ⟨some (n : Int), false, f.header.getD [], []⟩ ls := by
    intro ls
    simp only [readLoop, readStep, hnscl, if_true, hnsc, digitsVal_natStr]
  have ht1 : ∀ ls, readLoop ⟨some (n : Int), false, f.header.getD [], []⟩ (("C ".toList ++ t ++ ['\n']) :: ls) =
      readLoop ⟨some (n : Int), false, f.header.getD [], []⟩ ls := by
    intro ls
    simp only [readLoop, readStep, htl1, htl2, Bool.false_eq_true, if_false, Bool.or_true, if_true]
  have hrows : ∀ is ls, (∀ i ∈ is, i ∈ f.schedules) →
      readLoop ⟨some (n : Int), false, f.header.getD [], []⟩ (is.map (rowOf f.formatting) ++ ls) =
        readLoop ⟨some (n : Int), false, f.header.getD [], is⟩ ls := by
    intro is ls his
    rw [readLoop_append, readLoop_rowOf (fun i hi => hf i (his i hi)) (fun i hi => hlen i (his i hi))]; rfl
  -- what is read in the end
  have fin : ∀ (h : Str) (m : Int) (sc : List Irradiation),
      readLoop ⟨none, true, [], []⟩ (fileLines cut) = .ok ⟨some m, false, h, sc⟩ → g.header = some h ∧ g.schedules = sc ∧ g.nsc = m := by
    intro h m sc hst
    unfold readFile at hr
    rw [hst] at hr
    simp only at hr
    obtain rfl := (Except.ok.inj hr).symm
    exact ⟨rfl, rfl, rfl⟩
  have bad : ∀ (i : Bool) (h : Str) (sc : List Irradiation), readLoop ⟨none, true, [], []⟩ (fileLines cut) ≠ .ok ⟨none, i, h, sc⟩ := by
    intro i h sc hst
    unfold readFile at hr
    rw [hst] at hr
    cases hr
  rcases cut_lines _ hall hcut with rfl | ⟨ls1, l, ls2, part, d1, d2, d3, rfl⟩
  · have hfl := fileLines_flatten _ hall []
    rw [List.append_nil] at hfl
    rw [hfl, show fileLines [] = ([] : List Str) from rfl, List.append_nil] at fin
    have := hrows f.schedules [] (fun i hi => hi)
    rw [List.append_nil] at this
    obtain ⟨a, b, c⟩ := fin (f.header.getD []) n f.schedules (by rw [hhead, hn1, ht1, this]; rfl)
    exact ⟨a, fun _ => by rw [c, hn'], f.schedules.length, Or.inl (by rw [b, List.take_length])⟩
  · have hls1 : ∀ l ∈ ls1, IsLine l := fun m hm => hall m (by rw [d1]; exact List.mem_append_left _ hm)
    rw [fileLines_flatten ls1 hls1, fileLines_noNl d3] at fin bad
    have hcases : (∃ h2, hl = ls1 ++ l :: h2) ∨ (ls1 = hl ∧ l = "nsc ".toList ++ (natStr n ++ ['\n'])) ∨
        (ls1 = hl ++ ["nsc ".toList ++ (natStr n ++ ['\n'])] ∧ l = "C ".toList ++ t ++ ['\n']) ∨
        ∃ r1, ls1 = hl ++ ("nsc ".toList ++ (natStr n ++ ['\n'])) :: ("C ".toList ++ t ++ ['\n']) :: r1 ∧
          f.schedules.map (rowOf f.formatting) = r1 ++ l :: ls2 := by
      rcases List.append_eq_append_iff.mp d1 with ⟨c, e1, e2⟩ | ⟨c, e1, e2⟩
      · right
        match c, e2 with
        | [], e2 =>
          left
          simp only [List.nil_append, List.cons.injEq] at e2
          exact ⟨by simpa using e1, e2.1.symm⟩
        | [x], e2 =>
          right; left
          simp only [List.cons_append, List.nil_append, List.cons.injEq] at e2
          exact ⟨by rw [e1, ← e2.1], e2.2.1.symm⟩
        | x :: y :: c, e2 =>
          right; right
          simp only [List.cons_append, List.cons.injEq] at e2
          exact ⟨c, by rw [e1, ← e2.1, ← e2.2.1], e2.2.2⟩
      · cases c with
        | nil =>
          right; left
          simp only [List.nil_append, List.cons.injEq] at e2
          exact ⟨by simpa using e1.symm, e2.1⟩
        | cons x c =>
          left
          simp only [List.cons_append, List.cons.injEq] at e2
          exact ⟨c, by rw [e1, e2.1]⟩
    rcases hcases with ⟨h2, rfl⟩ | ⟨rfl, rfl⟩ | ⟨rfl, rfl⟩ | ⟨r1, rfl, e2⟩
    · -- a cut in the header
      exfalso
      have hhead' : ∀ l ∈ ls1, isNscLine l = false := fun m hm => (hl2 m (List.mem_append_left _ hm)).2
      have hln : isNscLine l = false := (hl2 l (by simp)).2
      by_cases hp0 : part = []
      · rw [if_pos hp0, List.append_nil] at bad
        exact bad true _ _ (readLoop_header [] ls1 hhead' none [])
      · rw [if_neg hp0] at bad
        have : isNscLine part = false := by
          by_contra hb
          have := isNscLine_prefix d2 (by simpa using hb)
          rw [hln] at this; cases this
        refine bad true _ _ (readLoop_header [] (ls1 ++ [part]) ?_ none [])
        intro m hm
        rcases List.mem_append.mp hm with hm | hm
        · exact hhead' m hm
        · rw [List.mem_singleton.mp hm]; exact this
    · -- a cut in the line of nsc
      by_cases hp0 : part = []
      · exfalso
        rw [if_pos hp0, hhead] at bad
        exact bad _ _ _ rfl
      · rw [if_neg hp0, hhead] at fin bad
        by_cases hb : isNscLine part = true
        · cases hd : searchDigits part with
          | none =>
            exfalso
            unfold readFile at hr
            rw [fileLines_flatten ls1 hls1, fileLines_noNl d3, if_neg hp0, hhead] at hr
            simp only [readLoop, readStep, hb, if_true, hd] at hr
            cases hr
          | some ds =>
            obtain ⟨a, b, c⟩ := fin (f.header.getD []) (digitsVal ds) [] (by simp only [readLoop, readStep, hb, if_true, hd])
            exact ⟨a, fun h => absurd b h, 0, Or.inl (by rw [b]; simp)⟩
        · exfalso
          have hb : isNscLine part = false := by simpa using hb
          exact bad true (f.header.getD [] ++ part) [] (by simp only [readLoop, readStep, hb, Bool.false_eq_true, if_false, if_true])
    · -- a cut in the titles
      have e0 : ∀ P : List Str, hl ++ ["nsc ".toList ++ (natStr n ++ ['\n'])] ++ P = hl ++ ("nsc ".toList ++ (natStr n ++ ['\n'])) :: P := by
        intro P; simp
      have done : readLoop ⟨none, true, [], []⟩ (hl ++ ["nsc ".toList ++ (natStr n ++ ['\n'])] ++ if part = [] then [] else [part]) =
          .ok ⟨some (n : Int), false, f.header.getD [], []⟩ ∨ part = ['C'] := by
        rw [e0, hhead, hn1]
        by_cases hp0 : part = []
        · left; rw [if_pos hp0]; rfl
        · rw [if_neg hp0]
          have hb : isNscLine part = false := by
            by_contra hb
            have := isNscLine_prefix d2 (by simpa using hb)
            rw [htl1] at this; cases this
          match part, hp0, d2 with
          | [a], _, d2 =>
            right
            obtain ⟨rfl, _⟩ := List.cons_prefix_cons.mp (show [a] <+: 'C' :: (' ' :: t ++ ['\n']) from d2)
            rfl
          | a :: b :: p, _, d2 =>
            left
            have d2 : a :: b :: p <+: 'C' :: ' ' :: (t ++ ['\n']) := d2
            simp only [List.cons_prefix_cons] at d2
            obtain ⟨rfl, rfl, _⟩ := d2
            have hcm : isCommentLine ('C' :: ' ' :: p) = true := by simp [isCommentLine, isSpace_space]
            simp only [readLoop, readStep, hb, hcm, Bool.false_eq_true, if_false, Bool.or_true, if_true]
      rcases done with done | rfl
      · obtain ⟨a, b, c⟩ := fin _ _ _ done
        exact ⟨a, fun h => absurd b h, 0, Or.inl (by rw [b]; simp)⟩
      · exfalso
        unfold readFile at hr
        rw [fileLines_flatten _ hls1, fileLines_noNl d3, if_neg (by decide), e0, hhead, hn1] at hr
        have : Irradiation.fromText ['C'] n = .error .indexError := by
          have hsp : splitWs ['C'] = [['C']] := by decide
          simp [Irradiation.fromText, hsp]
        have z1 : isNscLine ['C'] = false := rfl
        have z2 : isBlankLine ['C'] = false := by decide
        have z3 : isCommentLine ['C'] = false := rfl
        simp only [readLoop, readStep, z1, z2, z3, Bool.false_eq_true, if_false, Bool.or_self, this] at hr
        cases hr
    · -- a cut in the rows
      obtain ⟨a, i, b, hs, rfl, rfl, rfl⟩ := map_eq_append_cons e2
      have hi : i ∈ f.schedules := by rw [hs]; simp
      have ha : ∀ j ∈ a, j ∈ f.schedules := fun j hj => by rw [hs]; exact List.mem_append_left _ hj
      have htake : f.schedules.take a.length = a := by rw [hs]; simp
      have hget : f.schedules[a.length]? = some i := by rw [hs]; simp
      have e0 : ∀ P : List Str, hl ++ ("nsc ".toList ++ (natStr n ++ ['\n'])) :: ("C ".toList ++ t ++ ['\n']) :: a.map (rowOf f.formatting) ++ P =
          hl ++ ("nsc ".toList ++ (natStr n ++ ['\n'])) :: ("C ".toList ++ t ++ ['\n']) :: (a.map (rowOf f.formatting) ++ P) := by
        intro P; simp
      have start : ∀ P, readLoop ⟨none, true, [], []⟩
          (hl ++ ("nsc ".toList ++ (natStr n ++ ['\n'])) :: ("C ".toList ++ t ++ ['\n']) :: a.map (rowOf f.formatting) ++ P) =
          readLoop ⟨some (n : Int), false, f.header.getD [], a⟩ P := by
        intro P; rw [e0, hhead, hn1, ht1, hrows a P ha]
      rw [start] at fin
      by_cases hp0 : part = []
      · rw [if_pos hp0] at fin
        obtain ⟨x, y, z⟩ := fin _ _ _ rfl
        exact ⟨x, fun _ => by rw [z, hn'], a.length, Or.inl (by rw [htake, y])⟩
      · rw [if_neg hp0] at fin
        obtain ⟨_, r2, r3, r4, _, hss, _⟩ := row_facts (hf i hi) (hlen i hi)
        have hb : isNscLine part = false := by
          by_contra hb
          have := isNscLine_prefix d2 (by simpa using hb)
          rw [r2] at this; cases this
        by_cases hbc : (isBlankLine part || isCommentLine part) = true
        · obtain ⟨x, y, z⟩ := fin (f.header.getD []) n a (by
            simp only [readLoop, readStep, hb, hbc, Bool.false_eq_true, if_false, if_true])
          exact ⟨x, fun _ => by rw [z, hn'], a.length, Or.inl (by rw [htake, y])⟩
        · cases hft : Irradiation.fromText part n with
          | error e =>
            exfalso
            unfold readFile at hr
            rw [fileLines_flatten _ hls1, fileLines_noNl d3, if_neg hp0, start] at hr
            simp only [readLoop, readStep, hb, hbc, Bool.false_eq_true, if_false, hft] at hr
            cases hr
          | ok i' =>
            obtain ⟨x, y, z⟩ := fin (f.header.getD []) n (a ++ [i']) (by
              simp only [readLoop, readStep, hb, hbc, Bool.false_eq_true, if_false, hft])
            exact ⟨x, fun _ => by rw [z, hn'], a.length,
              Or.inr ⟨i, i', hget, by rw [htake, y], irr_fromText_cut (hf i hi) (hlen i hi) d2 hp0 hft⟩⟩

/-- **C199** (irradiation files, what does not). For every number of schedules, an irradiation file cut off after that many is read as a
complete file of that many: the loss is not noticed. -/
theorem irr_rows_lost {f : IrradiationFile} (hc : Consistent f) (hn : 0 ≤ f.nsc)
    (hh : HeaderOk (f.header.getD [])) (hf : ∀ i ∈ f.schedules, Fits f.formatting i) {text : Str} (hw : writeFile f = .ok text) (k : ℕ) :
    ∃ cut, cut <+: text ∧ readFile cut = .ok (IrradiationFile.mk' f.nsc (f.schedules.take k) (some (f.header.getD []))) := by
  have hc' : Consistent { f with schedules := f.schedules.take k } :=
    ⟨fun i hi => hc.times i (List.mem_of_mem_take hi), hc.cols⟩
  obtain ⟨cut, w1, w2⟩ := c23_write_read { f with schedules := f.schedules.take k } hc' hn hh
    (fun i hi => hf i (List.mem_of_mem_take hi))
  refine ⟨cut, ?_, w2⟩
  obtain ⟨t, ht1, ht2⟩ := formatTitles f.formatting f.nsc
  have hcols : f.cols = irrCols f.formatting f.nsc := by rw [hc.cols]; simp [irrCols]
  rw [writeFile, hcols, ht1, writeRows_rows hf hc.times] at hw
  have w1' : writeFile { f with schedules := f.schedules.take k } = .ok cut := w1
  simp only [writeFile, hcols, ht1] at w1'
  rw [writeRows_rows (fun i hi => hf i (List.mem_of_mem_take hi)) (fun i hi => hc.times i (List.mem_of_mem_take hi))] at w1'
  obtain rfl := Except.ok.inj w1'
  obtain rfl := Except.ok.inj hw
  rw [List.prefix_append_right_inj]
  refine ⟨((f.schedules.drop k).map (rowOf f.formatting)).flatten, ?_⟩
  rw [← List.flatten_append, ← List.map_append, List.take_append_drop]

/-- the file of the examples: cut in its last row, a time factor is shortened or lost without a word -/
example : (match writeFile exFile with
    | .error _ => false
    | .ok text => (match readFile (text.take (text.length - 11)) with
      | .ok g => decide (g.schedules.length = 3 ∧ g.schedules ≠ exFile.schedules ∧ g.schedules.take 2 = exFile.schedules.take 2)
      | .error _ => false)) = true := by
  decide +kernel

end F4Enix.D1S
