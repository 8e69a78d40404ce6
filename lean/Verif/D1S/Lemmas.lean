import Verif.D1S.Spec
import Verif.Base.TextLemmas
/-! Helper lemmas for the D1S properties. -/
namespace F4Enix.D1S
open F4Enix

theorem foldl_max_const (l : List Irradiation) (n : Nat) (h : ∀ i ∈ l, i.times.length = n) :
    l.foldl (fun m j => max m j.times.length) n = n := by
  induction l with
  | nil => rfl
  | cons i is ih =>
    simp only [List.foldl_cons, h i (by simp), Nat.max_self]
    exact ih (fun j hj => h j (by simp [hj]))

theorem maxTimes_const (l : List Irradiation) (n : Nat) (hne : l ≠ [])
    (h : ∀ i ∈ l, i.times.length = n) : maxTimes l = some n := by
  cases l with
  | nil => exact absurd rfl hne
  | cons i is =>
    simp only [maxTimes, h i (by simp)]
    rw [foldl_max_const is n (fun j hj => h j (by simp [hj]))]

theorem lengthsDiffer_false {td : Dict Str (List Str)} (h : lengthsDiffer td = false) :
    ∃ n, ∀ p ∈ td, p.2.length = n := by
  cases td with
  | nil => exact ⟨0, by simp⟩
  | cons p rest =>
    obtain ⟨k, t⟩ := p
    refine ⟨t.length, ?_⟩
    simp only [lengthsDiffer, List.any_eq_false, bne_iff_ne, ne_eq, Decidable.not_not] at h
    intro q hq
    simp only [List.mem_cons] at hq
    rcases hq with rfl | hq
    · rfl
    · exact h q hq

theorem maxTimes_none {l : List Irradiation} (h : maxTimes l = none) : l = [] := by
  cases l with
  | nil => rfl
  | cons i is => simp [maxTimes] at h

theorem popAll_uniform (index : Int) (n : Nat) (l : List Irradiation)
    (h : ∀ i ∈ l, i.times.length = n) :
    popAll index l =
      if (index < 0 ∨ index ≥ n) ∧ l ≠ [] then (l, .error .indexError)
      else (l.map (fun i => { i with times := i.times.eraseIdx index.toNat }), .ok ()) := by
  induction l with
  | nil => simp [popAll]
  | cons i is ih =>
    have hi := h i (by simp)
    have := ih (fun j hj => h j (by simp [hj]))
    by_cases hr : index < 0 ∨ index ≥ n
    · simp [popAll, hi, hr]
    · simp only [popAll, hi, hr, false_and, if_false, this, List.map_cons]

theorem popAll_ok {index : Int} {l : List Irradiation} {s : List Irradiation}
    (h : popAll index l = (s, .ok ())) :
    s = l.map (fun i => { i with times := i.times.eraseIdx index.toNat }) ∧
      ∀ i ∈ l, 0 ≤ index ∧ index < i.times.length := by
  induction l generalizing s with
  | nil => simp [popAll] at h; simp [h]
  | cons i is ih =>
    simp only [popAll] at h
    split at h
    · simp at h
    · rename_i hr
      simp only [Prod.mk.injEq] at h
      obtain ⟨h1, h2⟩ := ih (s := (popAll index is).1) (by rw [← h.2])
      refine ⟨by rw [← h.1, h1]; rfl, ?_⟩
      intro j hj
      simp only [List.mem_cons] at hj
      rcases hj with rfl | hj
      · omega
      · exact h2 j hj

theorem popAll_daughters (index : Int) (l : List Irradiation) :
    (popAll index l).1.map (·.daughter) = l.map (·.daughter) := by
  induction l with
  | nil => rfl
  | cons i is ih =>
    simp only [popAll]
    split
    · rfl
    · simp [ih]

/-! ### formatting -/

theorem formatCols_ok (ws : List Nat) (as : List Str) (h : ws.length = as.length) :
    formatCols ws (as.map some) = .ok (List.zipWith padLeft ws as).flatten := by
  induction ws generalizing as with
  | nil => cases as with
    | nil => rfl
    | cons a as => simp at h
  | cons w ws ih => cases as with
    | nil => simp at h
    | cons a as => simp [formatCols, ih as (by simpa using h)]

/-- Splitting a row of right aligned words followed by white space. -/
theorem splitWs_row (ws : List Nat) (as : List Str) (hl : ws.length = as.length)
    (h : ∀ p ∈ ws.zip as, IsWord p.2 ∧ p.2.length < p.1) (s : Str) (hs : startsSpace s = true)
    (hne : ws ≠ []) :
    splitWs ((List.zipWith padLeft ws as).flatten ++ s) = [] :: (as ++ (splitWs s).tail) := by
  induction ws generalizing as with
  | nil => exact absurd rfl hne
  | cons w ws ih =>
    cases as with
    | nil => simp at hl
    | cons a as =>
      have ha := h (w, a) (by simp)
      simp only [List.zipWith_cons_cons, List.flatten_cons, List.append_assoc]
      by_cases hws : ws = []
      · subst hws
        have : as = [] := by simpa using hl.symm
        subst this
        simp only [List.zipWith_nil_left, List.flatten_nil, List.nil_append]
        rw [splitWs_padLeft_word ha.1 ha.2 hs]; simp
      · have hi := ih as (by simpa using hl) (fun p hp => h p (by simp [hp])) hws
        have hst : startsSpace ((List.zipWith padLeft ws as).flatten ++ s) = true := by
          cases ws with
          | nil => exact absurd rfl hws
          | cons w' ws => cases as with
            | nil => simp at hl
            | cons a' as =>
              simp only [List.zipWith_cons_cons, List.flatten_cons, List.append_assoc]
              exact startsSpace_pad (h (w', a') (by simp)).2
        rw [splitWs_padLeft_word ha.1 ha.2 hst, hi]; simp

/-- Splitting a right aligned comment column and the end of the line. -/
theorem splitWs_comment (w : Nat) (ws : List Str) (h : ∀ x ∈ ws, IsWord x)
    (hw : (unwords ws).length < w) :
    splitWs (padLeft w (unwords ws) ++ ['\n']) = [] :: (ws ++ [[]]) := by
  obtain ⟨k, hk⟩ : ∃ k, w - (unwords ws).length = k + 1 := ⟨w - (unwords ws).length - 1, by omega⟩
  by_cases hne : ws = []
  · subst hne
    simp only [unwords, List.length_nil, Nat.sub_zero] at hk
    simp only [padLeft, unwords, List.length_nil, Nat.sub_zero, hk, List.append_nil]
    -- only white space
    have : ∀ n, splitWs (List.replicate (n + 1) ' ' ++ ['\n']) = [[], []] := by
      intro n
      induction n with
      | zero => decide
      | succ n ih =>
        have h2 : List.replicate (n + 1 + 1) ' ' ++ ['\n'] =
            ' ' :: (List.replicate (n + 1) ' ' ++ ['\n']) := by simp [List.replicate_succ]
        rw [h2]; simp only [splitWs, isSpace_space, if_true, startsSpace_replicate, ih]
    simpa using this k
  · rw [padLeft, hk, List.append_assoc, splitWs_pad _ _ (unwords_head_word h hne _),
      splitWs_unwords_nl ws h hne]

theorem joinWords_eq (ws : List Str) (hne : ws ≠ []) :
    (ws.map (fun p => ' ' :: p)).flatten = ' ' :: unwords ws := by
  induction ws with
  | nil => exact absurd rfl hne
  | cons w ws ih =>
    cases ws with
    | nil => simp [unwords]
    | cons w' ws => simp [unwords] at ih ⊢; simp [ih]

theorem lstrip_space_cons (s : Str) : lstrip (' ' :: s) = lstrip s :=
  lstrip_cons_space isSpace_space

theorem strip_joined (ws : List Str) (h : ∀ x ∈ ws, IsWord x) :
    strip ((ws ++ [[]]).map (fun p => ' ' :: p)).flatten = unwords ws := by
  by_cases hne : ws = []
  · subst hne; simp [unwords]; decide
  · rw [List.map_append, List.flatten_append, joinWords_eq ws hne]
    simp only [List.map_cons, List.map_nil, List.flatten_cons, List.flatten_nil, List.append_nil,
      List.cons_append]
    have h1 := unwords_head_word h hne [' ']
    have h2 := unwords_endsOk h hne []
    simp only [List.nil_append] at h2
    rw [strip, lstrip_space_cons, lstrip_of_not_startsSpace h1, rstrip_append_space isSpace_space,
      rstrip_of_endsOk h2]

theorem strip_joined' (ws : List Str) (h : ∀ x ∈ ws, IsWord x) :
    strip (ws.map (fun p => ' ' :: p)).flatten = unwords ws := by
  by_cases hne : ws = []
  · subst hne; rfl
  · rw [joinWords_eq ws hne]
    have h1 := unwords_head_word h hne []
    have h2 := unwords_endsOk h hne []
    simp only [List.nil_append, List.append_nil] at h1 h2
    rw [strip, lstrip_space_cons, lstrip_of_not_startsSpace h1, rstrip_of_endsOk h2]

theorem joinComment_words (ws : List Str) (h : ∀ x ∈ ws, IsWord x) :
    joinComment (ws ++ [[]]) = some (unwords ws) := by
  have := strip_joined ws h
  unfold joinComment
  split
  · rename_i h; simp at h
  · rw [this]

theorem takeTimes_append (ts rest : List Str) :
    takeTimes ts.length (ts ++ rest) = .ok (ts, rest) := by
  induction ts with
  | nil => rfl
  | cons t ts ih => simp [takeTimes, ih]

/-- columns and arguments of a row (proof) -/
def rowText (w : Widths) (i : Irradiation) (c : Str) : Str :=
  (List.zipWith padLeft ([w.w1, w.w2] ++ List.replicate i.times.length w.w3)
    ([i.daughter, i.lambd] ++ i.times)).flatten ++ padLeft w.w4 c

theorem format_row (w : Widths) (i : Irradiation) (n : Int) (hn : (i.times.length : Int) = n) (c : Str)
    (hc : i.comment = some c) :
    formatCols (irrCols w n) (formatArgs i) = .ok (rowText w i c) := by
  have hargs : formatArgs i = ([i.daughter, i.lambd] ++ i.times ++ [c]).map some := by
    simp [formatArgs, hc]
  have hlen : (irrCols w n).length = ([i.daughter, i.lambd] ++ i.times ++ [c]).length := by
    simp [irrCols]; omega
  rw [hargs, formatCols_ok _ _ hlen]
  have hr : n.toNat = i.times.length := by omega
  have hz : ∀ (l : List Nat) (m : List Str), l.length = m.length →
      List.zipWith padLeft (l ++ [w.w4]) (m ++ [c]) = List.zipWith padLeft l m ++ [padLeft w.w4 c] := by
    intro l m h
    rw [List.zipWith_append h]; rfl
  unfold irrCols rowText
  rw [hr, hz _ _ (by simp)]; simp

theorem zip_replicate_mem {n : Nat} {w : Nat} {l : List Str} {p : Nat × Str}
    (h : p ∈ (List.replicate n w).zip l) : p.1 = w ∧ p.2 ∈ l := by
  have h1 := List.of_mem_zip h
  exact ⟨(List.mem_replicate.mp h1.1).2, h1.2⟩

theorem splitWs_rowText (w : Widths) (i : Irradiation) (hf : Fits w i) :
    ∃ ws : List Str, (∀ x ∈ ws, IsWord x) ∧ i.comment = some (unwords ws) ∧
      splitWs (rowText w i (unwords ws) ++ ['\n']) =
        [] :: (i.daughter :: i.lambd :: (i.times ++ (ws ++ [[]]))) := by
  obtain ⟨ws, h1, h2, h3⟩ := hf.comment
  refine ⟨ws, h1, h2, ?_⟩
  unfold rowText
  rw [List.append_assoc, splitWs_row _ _ (by simp) ?_ _ (startsSpace_pad h3) (by simp),
    splitWs_comment _ _ h1 h3]
  · simp
  · intro p hp
    simp only [List.cons_append, List.nil_append, List.zip_cons_cons, List.mem_cons] at hp
    rcases hp with rfl | rfl | hp
    · exact hf.daughter
    · exact hf.lambd
    · obtain ⟨ha, hb⟩ := zip_replicate_mem hp
      rw [ha]; exact hf.times _ hb

theorem fromText_rowText (w : Widths) (i : Irradiation) (hf : Fits w i) (n : Int)
    (hn : (i.times.length : Int) = n) :
    ∃ c, i.comment = some c ∧ Irradiation.fromText (rowText w i c ++ ['\n']) n = .ok i := by
  obtain ⟨ws, h1, h2, h3⟩ := splitWs_rowText w i hf
  refine ⟨unwords ws, h2, ?_⟩
  have hr : n.toNat = i.times.length := by omega
  unfold Irradiation.fromText
  rw [h3]
  simp only [List.head?_cons, if_true, List.tail_cons, hr, takeTimes_append, joinComment_words ws h1]
  cases i; simp_all

/-! ### recognising the lines -/

theorem isWord_no_nl {s : Str} (h : IsWord s) : ∀ c ∈ s, c ≠ '\n' := by
  intro c hc e; have := h.2 c hc; rw [e] at this; exact absurd this (by decide)

theorem unwords_no_nl {ws : List Str} (h : ∀ x ∈ ws, IsWord x) : ∀ c ∈ unwords ws, c ≠ '\n' := by
  induction ws with
  | nil => simp [unwords]
  | cons w ws ih =>
    cases ws with
    | nil => simpa [unwords] using isWord_no_nl (h w (by simp))
    | cons w' ws =>
      intro c hc
      simp only [unwords, List.mem_append, List.mem_cons] at hc
      rcases hc with hc | rfl | hc
      · exact isWord_no_nl (h w (by simp)) c hc
      · decide
      · exact ih (fun x hx => h x (by simp [hx])) c hc

theorem padLeft_no_nl {w : Nat} {s : Str} (h : ∀ c ∈ s, c ≠ '\n') :
    ∀ c ∈ padLeft w s, c ≠ '\n' := by
  intro c hc
  simp only [padLeft, List.mem_append] at hc
  rcases hc with hc | hc
  · rw [(List.mem_replicate.mp hc).2]; decide
  · exact h c hc

theorem zipPad_no_nl (ws : List Nat) (as : List Str) (h : ∀ a ∈ as, ∀ c ∈ a, c ≠ '\n') :
    ∀ c ∈ (List.zipWith padLeft ws as).flatten, c ≠ '\n' := by
  induction ws generalizing as with
  | nil => simp
  | cons w ws ih => cases as with
    | nil => simp
    | cons a as =>
      intro c hc
      simp only [List.zipWith_cons_cons, List.flatten_cons, List.mem_append] at hc
      rcases hc with hc | hc
      · exact padLeft_no_nl (h a (by simp)) c hc
      · exact ih as (fun b hb => h b (by simp [hb])) c hc

/-- A line that begins with a blank and contains a character that is neither white space nor the
letter c before its end is neither blank, a comment nor an `nsc` line. -/
theorem data_line {s : Str} (hs : startsSpace s = true) (hnl : ∀ c ∈ s, c ≠ '\n')
    (hx : ∃ c ∈ s, isSpace c = false ∧ c ≠ 'c' ∧ c ≠ 'C') :
    isNscLine (s ++ ['\n']) = false ∧ isBlankLine (s ++ ['\n']) = false ∧
      isCommentLine (s ++ ['\n']) = false := by
  cases s with
  | nil => simp [startsSpace] at hs
  | cons a s =>
    simp only [startsSpace] at hs
    have hn : a ≠ 'n' := by rintro rfl; revert hs; decide
    have hN : a ≠ 'N' := by rintro rfl; revert hs; decide
    have hc : a ≠ 'c' := by rintro rfl; revert hs; decide
    have hC : a ≠ 'C' := by rintro rfl; revert hs; decide
    refine ⟨?_, ?_, ?_⟩
    · unfold isNscLine; split
      · rename_i h
        simp only [List.cons_append, List.cons.injEq] at h
        simp [← h.1, hn, hN]
      · rfl
    · obtain ⟨x, hx, h1, h2, h3⟩ := hx
      unfold isBlankLine
      have : ∀ (t : Str), (∀ c ∈ t, c ≠ '\n') → x ∈ t →
          ((t ++ ['\n']).takeWhile (fun c => isSpace c || c == 'C' || c == 'c')).contains '\n'
            = false := by
        intro t
        induction t with
        | nil => simp
        | cons y t ih =>
          intro hy hxt
          by_cases hp : (isSpace y || y == 'C' || y == 'c') = true
          · simp only [List.cons_append, List.takeWhile_cons, hp, if_true]
            have hyx : x ≠ y := by
              rintro rfl; simp [h1, h2, h3] at hp
            have hxt' : x ∈ t := by simpa [hyx] using hxt
            have := ih (fun c hc => hy c (by simp [hc])) hxt'
            have hyn : y ≠ '\n' := hy y (by simp)
            simp only [List.contains_eq_mem, List.mem_cons, decide_eq_false_iff_not] at this ⊢
            intro h; rcases h with h | h
            · exact hyn h.symm
            · exact this h
          · simp [hp]
      exact this _ hnl hx
    · unfold isCommentLine; split
      · rename_i h
        simp only [List.cons_append, List.cons.injEq] at h
        simp [← h.1, hc, hC]
      · rfl

theorem rowText_data {w : Widths} {i : Irradiation} (hf : Fits w i) {c : Str}
    (hc : i.comment = some c) :
    (∀ x ∈ rowText w i c, x ≠ '\n') ∧ isNscLine (rowText w i c ++ ['\n']) = false ∧
      isBlankLine (rowText w i c ++ ['\n']) = false ∧
      isCommentLine (rowText w i c ++ ['\n']) = false := by
  have hnl : ∀ x ∈ rowText w i c, x ≠ '\n' := by
    intro x hx
    simp only [rowText, List.mem_append] at hx
    rcases hx with hx | hx
    · refine zipPad_no_nl _ _ ?_ x hx
      intro a ha
      simp only [List.cons_append, List.nil_append, List.mem_cons] at ha
      rcases ha with rfl | rfl | ha
      · exact isWord_no_nl hf.daughter.1
      · exact isWord_no_nl hf.lambd.1
      · exact isWord_no_nl (hf.times a ha).1
    · obtain ⟨ws, h1, h2, h3⟩ := hf.comment
      rw [hc] at h2; cases h2
      exact padLeft_no_nl (unwords_no_nl h1) x hx
  refine ⟨hnl, data_line ?_ hnl ?_⟩
  · unfold rowText
    simp only [List.cons_append, List.nil_append, List.zipWith_cons_cons, List.flatten_cons,
      List.append_assoc]
    exact startsSpace_pad hf.daughter.2
  · obtain ⟨x, hx, h1, h2⟩ := hf.notC
    refine ⟨x, ?_, hf.daughter.1.2 x hx, h1, h2⟩
    simp only [rowText, List.cons_append, List.nil_append, List.zipWith_cons_cons,
      List.flatten_cons, List.mem_append, padLeft]
    exact Or.inl (Or.inl (Or.inr hx))

/-! ### reading loops -/

theorem readLoop_append (st : ReadState) (a b : List Str) :
    readLoop st (a ++ b) =
      match readLoop st a with
      | .error e => .error e
      | .ok st' => readLoop st' b := by
  induction a generalizing st with
  | nil => rfl
  | cons l a ih =>
    simp only [List.cons_append, readLoop]
    cases readStep st l with
    | error e => rfl
    | ok st' => exact ih st'

theorem readLoop_header (h : Str) (ls : List Str) (hn : ∀ l ∈ ls, isNscLine l = false)
    (n : Option Int) (sc : List Irradiation) :
    readLoop ⟨n, true, h, sc⟩ ls = .ok ⟨n, true, h ++ ls.flatten, sc⟩ := by
  induction ls generalizing h with
  | nil => simp [readLoop]
  | cons l ls ih =>
    have hl := hn l (by simp)
    simp only [readLoop, readStep, hl, Bool.false_eq_true, if_false, if_true]
    rw [ih _ (fun l hl => hn l (by simp [hl]))]; simp

theorem readLoop_rows (w : Widths) (n : Int) (is : List Irradiation) (h : Str)
    (hfit : ∀ i ∈ is, Fits w i) (hlen : ∀ i ∈ is, (i.times.length : Int) = n)
    (sc : List Irradiation) :
    ∃ rows : List Str, writeRows (irrCols w n) is = .ok rows.flatten ∧ (∀ l ∈ rows, IsLine l) ∧
      readLoop ⟨some n, false, h, sc⟩ rows = .ok ⟨some n, false, h, sc ++ is⟩ := by
  induction is generalizing sc with
  | nil => exact ⟨[], rfl, by simp, by simp [readLoop]⟩
  | cons i is ih =>
    obtain ⟨c, hc, hft⟩ := fromText_rowText w i (hfit i (by simp)) n (hlen i (by simp))
    obtain ⟨rows, h1, h2, h3⟩ := ih (fun j hj => hfit j (by simp [hj]))
      (fun j hj => hlen j (by simp [hj])) (sc ++ [i])
    obtain ⟨d1, d2, d3, d4⟩ := rowText_data (hfit i (by simp)) hc
    refine ⟨(rowText w i c ++ ['\n']) :: rows, ?_, ?_, ?_⟩
    · simp [writeRows, format_row w i n (hlen i (by simp)) c hc, h1]
    · intro l hl
      simp only [List.mem_cons] at hl
      rcases hl with rfl | hl
      · exact ⟨_, rfl, d1⟩
      · exact h2 l hl
    · simp only [readLoop, readStep, d2, d3, d4, Bool.false_eq_true, if_false, Bool.or_self, hft]
      rw [h3]; simp

theorem formatTitles (w : Widths) (n : Int) :
    ∃ t, formatCols (irrCols w n) (titleArgs n) = .ok t ∧ ∀ c ∈ t, c ≠ '\n' := by
  let as : List Str := ["Daught.".toList, "lambda(1/s)".toList] ++
    (List.range n.toNat).map (fun i => "time_fact_".toList ++ natStr (i + 1)) ++
    ["comments".toList]
  have hargs : titleArgs n = as.map some := by simp [titleArgs, as]
  have hlen : (irrCols w n).length = as.length := by simp [irrCols, as]
  refine ⟨_, by rw [hargs, formatCols_ok _ _ hlen], zipPad_no_nl _ _ ?_⟩
  intro a ha
  simp only [as, List.mem_append, List.mem_cons, List.not_mem_nil, or_false, List.mem_map] at ha
  rcases ha with ((rfl | rfl) | ⟨k, _, rfl⟩) | rfl
  · decide
  · decide
  · intro c hc
    simp only [List.mem_append] at hc
    rcases hc with hc | hc
    · revert c; decide
    · exact isWord_no_nl (natStr_isWord _) c hc
  · decide

/-! ### reaction rows -/

theorem reaction_row_split {r : Reaction} (hf : ReacFits r) :
    ∃ ws : List Str, (∀ x ∈ ws, IsWord x) ∧ r.comment.getD [] = unwords ws ∧
      splitWs (strip r.row) = r.parent :: intStr r.mt :: r.daughter :: ws := by
  obtain ⟨ws, h1, h2, h3⟩ := hf.comment
  refine ⟨ws, h1, h2, ?_⟩
  -- the row without the leading blanks
  have hrow : r.row = List.replicate (13 - r.parent.length) ' ' ++
      (r.parent ++ (padLeft 7 (intStr r.mt) ++ (padLeft 12 r.daughter ++
        (padLeft 40 (unwords ws) ++ ['\n'])))) := by
    simp [Reaction.row, reacCols, Reaction.textPieces, h2, padLeft]
  have hl : ∀ (k : Nat) (s : Str), lstrip (List.replicate k ' ' ++ s) = lstrip s := by
    intro k s
    induction k with
    | zero => rfl
    | succ k ih => simp only [List.replicate_succ, List.cons_append, lstrip_space_cons, ih]
  have hst : lstrip r.row = r.parent ++ (padLeft 7 (intStr r.mt) ++ (padLeft 12 r.daughter ++
        (padLeft 40 (unwords ws) ++ ['\n']))) := by
    rw [hrow, hl]; exact lstrip_of_not_startsSpace (startsSpace_word_append hf.parent.1)
  have hrstrip : ∀ (s : Str) (k : Nat), EndsOk s →
      rstrip (s ++ (List.replicate k ' ' ++ ['\n'])) = s := by
    intro s k hs
    rw [← List.append_assoc, rstrip_append_space isSpace_nl]
    induction k with
    | zero => simpa using rstrip_of_endsOk hs
    | succ k ih =>
      rw [List.replicate_succ', ← List.append_assoc, rstrip_append_space isSpace_space, ih]
  have key : ∀ s, startsSpace s = true → splitWs (r.parent ++ (padLeft 7 (intStr r.mt) ++
      (padLeft 12 r.daughter ++ s))) = r.parent :: intStr r.mt :: r.daughter :: (splitWs s).tail := by
    intro s hs
    have e1 := splitWs_padLeft_word hf.daughter.1 hf.daughter.2 hs
    have e2 := splitWs_padLeft_word (intStr_isWord r.mt) hf.mt
      (startsSpace_pad (s := s) hf.daughter.2)
    rw [splitWs_word_space _ _ hf.parent.1.2 (startsSpace_pad hf.mt), e2, e1]; rfl
  have key0 : splitWs (r.parent ++ (padLeft 7 (intStr r.mt) ++ padLeft 12 r.daughter))
      = [r.parent, intStr r.mt, r.daughter] := by
    have e0 : splitWs (padLeft 12 r.daughter) = [[], r.daughter] := by
      obtain ⟨k, hk⟩ : ∃ k, 12 - r.daughter.length = k + 1 :=
        ⟨12 - r.daughter.length - 1, by have := hf.daughter.2; omega⟩
      have hsw := startsSpace_word_append (s := []) hf.daughter.1
      rw [List.append_nil] at hsw
      rw [padLeft, hk, splitWs_pad _ _ hsw, splitWs_word _ hf.daughter.1.2]
    have hst2 : startsSpace (padLeft 12 r.daughter) = true := by
      simpa using startsSpace_pad (s := []) hf.daughter.2
    have e2 := splitWs_padLeft_word (intStr_isWord r.mt) hf.mt hst2
    rw [splitWs_word_space _ _ hf.parent.1.2 (startsSpace_pad hf.mt), e2, e0]; rfl
  unfold strip
  rw [hst]
  by_cases hne : ws = []
  · subst hne
    have : r.parent ++ (padLeft 7 (intStr r.mt) ++ (padLeft 12 r.daughter ++
        (padLeft 40 (unwords []) ++ ['\n']))) =
        (r.parent ++ (padLeft 7 (intStr r.mt) ++ padLeft 12 r.daughter)) ++
          (List.replicate 40 ' ' ++ ['\n']) := by simp [padLeft, unwords]
    rw [this, hrstrip _ 40 (by
      have := word_endsOk hf.daughter.1 (r.parent ++ (padLeft 7 (intStr r.mt) ++
        List.replicate (12 - r.daughter.length) ' '))
      simpa [padLeft] using this), key0]
  · have h5 : startsSpace (padLeft 40 (unwords ws)) = true := by
      simpa using startsSpace_pad (s := []) h3
    have : r.parent ++ (padLeft 7 (intStr r.mt) ++ (padLeft 12 r.daughter ++
        (padLeft 40 (unwords ws) ++ ['\n']))) =
        (r.parent ++ (padLeft 7 (intStr r.mt) ++ (padLeft 12 r.daughter ++
          padLeft 40 (unwords ws)))) ++ (List.replicate 0 ' ' ++ ['\n']) := by simp
    rw [this, hrstrip _ 0 (by
      have := unwords_endsOk h1 hne (r.parent ++ (padLeft 7 (intStr r.mt) ++ (padLeft 12 r.daughter
        ++ List.replicate (40 - (unwords ws).length) ' ')))
      simpa [padLeft] using this), key _ h5]
    obtain ⟨k, hk⟩ : ∃ k, 40 - (unwords ws).length = k + 1 :=
      ⟨40 - (unwords ws).length - 1, by omega⟩
    have hsw := unwords_head_word h1 hne []
    rw [List.append_nil] at hsw
    rw [padLeft, hk, splitWs_pad _ _ hsw]
    -- words without a trailing newline
    have hw : ∀ l : List Str, (∀ x ∈ l, IsWord x) → l ≠ [] → splitWs (unwords l) = l := by
      intro l
      induction l with
      | nil => intro _ h; exact absurd rfl h
      | cons w l ih =>
        intro hl _
        cases l with
        | nil => simpa [unwords] using splitWs_word w (hl w (by simp)).2
        | cons w' l =>
          have hi := ih (fun x hx => hl x (by simp [hx])) (by simp)
          have hs : startsSpace (' ' :: unwords (w' :: l)) = true := by
            simp [startsSpace, isSpace_space]
          have h4 := unwords_head_word (ws := w' :: l) (fun x hx => hl x (by simp [hx])) (by simp) []
          rw [List.append_nil] at h4
          rw [unwords, splitWs_word_space _ _ (hl w (by simp)).2 hs]
          simp only [splitWs, isSpace_space, if_true, h4]
          simp [hi]
    rw [hw ws h1 hne]; rfl

theorem reaction_row_data {r : Reaction} (hf : ReacFits r) :
    IsLine r.row ∧ isBlankLine r.row = false ∧ isCommentLine r.row = false := by
  obtain ⟨ws, h1, h2, h3⟩ := hf.comment
  have hnl : ∀ c ∈ (List.zipWith padLeft reacCols r.textPieces).flatten, c ≠ '\n' := by
    refine zipPad_no_nl _ _ ?_
    intro a ha
    simp only [Reaction.textPieces, List.mem_cons, List.not_mem_nil, or_false] at ha
    rcases ha with rfl | rfl | rfl | rfl
    · exact isWord_no_nl hf.parent.1
    · exact isWord_no_nl (intStr_isWord _)
    · exact isWord_no_nl hf.daughter.1
    · rw [h2]; exact unwords_no_nl h1
  obtain ⟨d1, d2, d3⟩ := data_line (s := (List.zipWith padLeft reacCols r.textPieces).flatten)
    (by
      simp only [reacCols, Reaction.textPieces, List.zipWith_cons_cons, List.flatten_cons]
      exact startsSpace_pad hf.parent.2) hnl
    (by
      obtain ⟨x, hx, e1, e2⟩ := hf.notC
      refine ⟨x, ?_, hf.parent.1.2 x hx, e1, e2⟩
      simp only [reacCols, Reaction.textPieces, List.zipWith_cons_cons, List.flatten_cons,
        List.mem_append, padLeft]
      exact Or.inl (Or.inr hx))
  exact ⟨⟨_, rfl, hnl⟩, d2, d3⟩

theorem fromText_row {r : Reaction} (hf : ReacFits r) :
    Reaction.fromText r.row = .ok { r with comment := some (r.comment.getD []) } := by
  obtain ⟨ws, h1, h2, h3⟩ := reaction_row_split hf
  unfold Reaction.fromText
  rw [h3]
  simp only [parseInt_intStr, strip_word hf.parent.1, strip_joined' ws h1, h2]

/-! ### sorting -/

theorem strLe_refl (a : Str) : strLe a a = true := by
  induction a with
  | nil => rfl
  | cons c cs ih => simp [strLe, ih]

theorem strLe_total (a b : Str) : strLe a b = true ∨ strLe b a = true := by
  induction a generalizing b with
  | nil => simp [strLe]
  | cons c cs ih =>
    cases b with
    | nil => simp [strLe]
    | cons d ds =>
      simp only [strLe, Bool.or_eq_true, decide_eq_true_eq, Bool.and_eq_true, beq_iff_eq]
      rcases ih ds with h | h
      · rcases Nat.lt_trichotomy c.toNat d.toNat with h1 | h1 | h1
        · exact Or.inl (Or.inl h1)
        · exact Or.inl (Or.inr ⟨h1, h⟩)
        · exact Or.inr (Or.inl h1)
      · rcases Nat.lt_trichotomy c.toNat d.toNat with h1 | h1 | h1
        · exact Or.inl (Or.inl h1)
        · exact Or.inr (Or.inr ⟨h1.symm, h⟩)
        · exact Or.inr (Or.inl h1)

theorem strLe_trans {a b c : Str} (h1 : strLe a b = true) (h2 : strLe b c = true) :
    strLe a c = true := by
  induction a generalizing b c with
  | nil => simp [strLe]
  | cons x xs ih =>
    cases b with
    | nil => simp [strLe] at h1
    | cons y ys =>
      cases c with
      | nil => simp [strLe] at h2
      | cons z zs =>
        simp only [strLe, Bool.or_eq_true, decide_eq_true_eq, Bool.and_eq_true, beq_iff_eq] at *
        rcases h1 with h1 | ⟨h1, h1'⟩ <;> rcases h2 with h2 | ⟨h2, h2'⟩
        · exact Or.inl (by omega)
        · exact Or.inl (by omega)
        · exact Or.inl (by omega)
        · exact Or.inr ⟨by omega, ih h1' h2'⟩

theorem strLe_antisymm {a b : Str} (h1 : strLe a b = true) (h2 : strLe b a = true) : a = b := by
  induction a generalizing b with
  | nil => cases b with
    | nil => rfl
    | cons y ys => simp [strLe] at h2
  | cons x xs ih =>
    cases b with
    | nil => simp [strLe] at h1
    | cons y ys =>
      simp only [strLe, Bool.or_eq_true, decide_eq_true_eq, Bool.and_eq_true, beq_iff_eq] at *
      have hxy : x.toNat = y.toNat := by omega
      have : x = y := Char.ext (UInt32.toNat_inj.mp hxy)
      subst this
      simp only [Nat.lt_irrefl, false_or, true_and] at h1 h2
      rw [ih h1 h2]

theorem mem_insertSorted (s x : Str) (l : List Str) : x ∈ insertSorted s l ↔ x = s ∨ x ∈ l := by
  induction l with
  | nil => simp [insertSorted]
  | cons t ts ih =>
    simp only [insertSorted]
    split
    · simp
    · simp only [List.mem_cons, ih]
      constructor
      · rintro (h | h | h) <;> simp [h]
      · rintro (h | h | h) <;> simp [h]

theorem mem_sortStrs (x : Str) (l : List Str) : x ∈ sortStrs l ↔ x ∈ l := by
  induction l with
  | nil => simp [sortStrs]
  | cons s l ih =>
    have : sortStrs (s :: l) = insertSorted s (sortStrs l) := rfl
    rw [this, mem_insertSorted, ih]; simp

/-- strictly increasing (proof) -/
def StrictIncr (l : List Str) : Prop := l.Pairwise (fun a b => strLe a b = true ∧ a ≠ b)

theorem insertSorted_strict (s : Str) (l : List Str) (h : StrictIncr l) (hs : s ∉ l) :
    StrictIncr (insertSorted s l) := by
  induction l with
  | nil => simp [insertSorted, StrictIncr]
  | cons t ts ih =>
    simp only [StrictIncr, List.pairwise_cons] at h
    simp only [insertSorted]
    split
    · rename_i hle
      simp only [StrictIncr, List.pairwise_cons]
      refine ⟨?_, h⟩
      intro x hx
      simp only [List.mem_cons] at hx
      rcases hx with rfl | hx
      · exact ⟨hle, fun e => hs (by simp [e])⟩
      · exact ⟨strLe_trans hle (h.1 x hx).1, fun e => hs (by simp [e, hx])⟩
    · rename_i hle
      have hle' : strLe t s = true := by
        rcases strLe_total s t with h1 | h1
        · exact absurd h1 hle
        · exact h1
      simp only [StrictIncr, List.pairwise_cons]
      refine ⟨?_, ih h.2 (fun hm => hs (by simp [hm]))⟩
      intro x hx
      rw [mem_insertSorted] at hx
      rcases hx with rfl | hx
      · exact ⟨hle', fun e => hs (by simp [e])⟩
      · exact h.1 x hx

theorem sortStrs_strict (l : List Str) (h : l.Nodup) : StrictIncr (sortStrs l) := by
  induction l with
  | nil => simp [sortStrs, StrictIncr]
  | cons s l ih =>
    have e : sortStrs (s :: l) = insertSorted s (sortStrs l) := rfl
    rw [List.nodup_cons] at h
    rw [e]; exact insertSorted_strict s _ (ih h.2) (by rw [mem_sortStrs]; exact h.1)

theorem mem_dedupAppend (x : Str) (l acc : List Str) : x ∈ dedupAppend acc l ↔ x ∈ acc ∨ x ∈ l := by
  induction l generalizing acc with
  | nil => simp [dedupAppend]
  | cons p ps ih =>
    simp only [dedupAppend]
    split
    · rename_i h
      rw [ih, List.mem_cons]
      constructor
      · rintro (h1 | h1) <;> simp [h1]
      · rintro (h1 | rfl | h1)
        · exact Or.inl h1
        · exact Or.inl (by simpa using h)
        · exact Or.inr h1
    · rw [ih]; simp [or_assoc]

theorem nodup_dedupAppend (l acc : List Str) (h : acc.Nodup) : (dedupAppend acc l).Nodup := by
  induction l generalizing acc with
  | nil => simpa [dedupAppend]
  | cons p ps ih =>
    simp only [dedupAppend]
    split
    · exact ih acc h
    · rename_i hp
      refine ih _ ?_
      rw [List.nodup_append]
      refine ⟨h, by simp, ?_⟩
      intro a ha b hb
      simp only [List.mem_singleton] at hb
      subst hb; rintro rfl; exact hp (by simpa using ha)

theorem takeWhile_takeWhile_self (s : Str) (t : Str) :
    (s.takeWhile (· != '.') ++ '.' :: t).takeWhile (· != '.') = s.takeWhile (· != '.') := by
  induction s with
  | nil => simp
  | cons c cs ih =>
    by_cases h : c = '.'
    · simp [h]
    · simp only [List.takeWhile_cons, bne_iff_ne, ne_eq, h, not_false_eq_true, if_true,
        List.cons_append, ih]

theorem beforeDot_append (s t : Str) : beforeDot (beforeDot s ++ '.' :: t) = beforeDot s :=
  takeWhile_takeWhile_self s t

end F4Enix.D1S
