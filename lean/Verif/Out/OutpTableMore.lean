import Verif.Out.OutpTableProps
/-!
# C87: aligned columns, what goes wrong; C88: version of the code in other files
-/
namespace F4Enix.Outp
open F4Enix F4Enix.Find

/-! ### aligned columns -/

/-- a word of a table (specification) -/
def TWord (w : Str) : Prop := w ≠ [] ∧ ∀ c ∈ w, isPad c = false

/-- a row as MCNP prints it: in each column some blanks and a word (specification) -/
def rowLine (cs : List (ℕ × Str)) : Str := (cs.map column).flatten ++ ['\n']

/-- the pieces of the row; the end of the line belongs to the last one (proof) -/
def pieces : List (ℕ × Str) → List Str
  | [] => []
  | [c] => [column c ++ ['\n']]
  | c :: cs => column c :: pieces cs

theorem pieces_flatten {cs : List (ℕ × Str)} (h : cs ≠ []) : (pieces cs).flatten = rowLine cs := by
  induction cs with
  | nil => exact absurd rfl h
  | cons c cs ih =>
    cases cs with
    | nil => simp [pieces, rowLine]
    | cons d cs =>
      have := ih (by simp)
      have e : pieces (c :: d :: cs) = column c :: pieces (d :: cs) := rfl
      rw [e, List.flatten_cons, this]
      simp [rowLine]

theorem dropWhile_pad {k : ℕ} {w s : Str} (h : TWord w) : (List.replicate k ' ' ++ (w ++ s)).dropWhile isPad = w ++ s := by
  induction k with
  | zero =>
    obtain ⟨h0, h1⟩ := h
    cases w with
    | nil => exact absurd rfl h0
    | cons c w => simp [h1 c (by simp)]
  | succ k ih =>
    rw [List.replicate_succ, List.cons_append, List.dropWhile_cons, if_pos (by decide)]
    exact ih

theorem cellText_word {k : ℕ} {w s : Str} (h : TWord w) (hs : ∀ c ∈ s, isPad c = true) : cellText (List.replicate k ' ' ++ (w ++ s)) = some w := by
  unfold cellText
  rw [dropWhile_pad h, List.reverse_append]
  have h1 : ∀ (a b : Str), (∀ c ∈ a, isPad c = true) → (a ++ b).dropWhile isPad = b.dropWhile isPad := by
    intro a b ha
    induction a with
    | nil => rfl
    | cons c a ih =>
      rw [List.cons_append, List.dropWhile_cons, if_pos (ha c (by simp))]
      exact ih (fun x hx => ha x (by simp [hx]))
  have h2 : w.reverse.dropWhile isPad = w.reverse := by
    cases hr : w.reverse with
    | nil => rfl
    | cons c r =>
      have : c ∈ w := by rw [← List.mem_reverse, hr]; simp
      rw [List.dropWhile_cons, h.2 c this]
      rfl
  rw [h1 _ _ (by intro c hc; exact hs c (List.mem_reverse.1 hc)), h2, List.reverse_reverse]
  cases w with
  | nil => exact absurd rfl h.1
  | cons c w => rfl

theorem fields_pieces (ps : List Str) : fields (ps.map List.length) ps.flatten = ps.map cellText := by
  induction ps with
  | nil => rfl
  | cons p ps ih =>
    rw [List.map_cons, fields, List.flatten_cons, List.take_left, List.drop_left, ih]
    rfl

theorem pieces_cells {cs : List (ℕ × Str)} (h : ∀ c ∈ cs, TWord c.2) : (pieces cs).map cellText = cs.map (fun c => some c.2) := by
  induction cs with
  | nil => rfl
  | cons c cs ih =>
    cases cs with
    | nil =>
      simp only [pieces, List.map_cons, List.map_nil]
      congr 1
      unfold column
      rw [List.append_assoc]
      exact cellText_word (h c (by simp)) (by simp [isPad])
    | cons d cs =>
      have e : pieces (c :: d :: cs) = column c :: pieces (d :: cs) := rfl
      rw [e, List.map_cons, ih (fun x hx => h x (by simp [hx]))]
      simp only [List.map_cons]
      congr 1
      have := cellText_word (k := c.1 + 1) (s := []) (h c (by simp)) (by simp)
      rw [List.append_nil] at this
      exact this

/-- the widths of a row: those of its columns -/
theorem widths_row {cs : List (ℕ × Str)} (h : ∀ c ∈ cs, TWord c.2) (h0 : cs ≠ []) : fwfWidths (rowLine cs) = (pieces cs).map List.length := by
  have key : ∃ cs' : List (ℕ × Str), (cs'.map column) = pieces cs ∧ ∀ c ∈ cs', c.2 ≠ [] ∧ ∀ x ∈ c.2, x ≠ ' ' := by
    induction cs with
    | nil => exact absurd rfl h0
    | cons c cs ih =>
      have hc := h c (by simp)
      have hne : ∀ x ∈ c.2, x ≠ ' ' := by
        rintro x hx rfl
        have := hc.2 _ hx
        revert this; decide
      cases cs with
      | nil =>
        refine ⟨[(c.1, c.2 ++ ['\n'])], by simp [pieces, column], ?_⟩
        intro d hd
        simp only [List.mem_singleton] at hd
        subst hd
        refine ⟨by simp, ?_⟩
        intro x hx
        rcases List.mem_append.1 hx with hx | hx
        · exact hne x hx
        · simp only [List.mem_singleton] at hx
          subst hx; decide
      | cons d cs =>
        obtain ⟨cs', e, hh⟩ := ih (fun x hx => h x (by simp [hx])) (by simp)
        refine ⟨c :: cs', ?_, ?_⟩
        · rw [List.map_cons, e]
          rfl
        · intro x hx
          rcases List.mem_cons.1 hx with rfl | hx
          · exact ⟨hc.1, hne⟩
          · exact hh x hx
  obtain ⟨cs', e, hh⟩ := key
  rw [← pieces_flatten h0, ← e, widths_exact_partial cs' hh, List.map_map]
  rfl

theorem pieces_length (cs : List (ℕ × Str)) : (pieces cs).length = cs.length := by
  induction cs with
  | nil => rfl
  | cons c cs ih =>
    cases cs with
    | nil => rfl
    | cons d cs =>
      have e : pieces (c :: d :: cs) = column c :: pieces (d :: cs) := rfl
      rw [e, List.length_cons, ih]; rfl

theorem lengths_pieces {cs ds : List (ℕ × Str)} (h : cs.map (fun c => (column c).length) = ds.map (fun c => (column c).length)) :
    (pieces cs).map List.length = (pieces ds).map List.length := by
  induction cs generalizing ds with
  | nil =>
    cases ds with
    | nil => rfl
    | cons d ds => simp at h
  | cons c cs ih =>
    cases ds with
    | nil => simp at h
    | cons d ds =>
      simp only [List.map_cons, List.cons.injEq] at h
      cases cs with
      | nil =>
        cases ds with
        | nil => simp [pieces, h.1]
        | cons e ds => simp at h
      | cons c' cs =>
        cases ds with
        | nil => simp at h
        | cons d' ds =>
          have e : pieces (c :: c' :: cs) = column c :: pieces (c' :: cs) := rfl
          have e' : pieces (d :: d' :: ds) = column d :: pieces (d' :: ds) := rfl
          rw [e, e', List.map_cons, List.map_cons, ih h.2, h.1]

/-- **C87 (rows).** Cut at the widths of a row, every row with columns of the same widths gives its words. -/
theorem row_cells {cs ds : List (ℕ × Str)} (hc : ∀ c ∈ cs, TWord c.2) (hd : ∀ c ∈ ds, TWord c.2) (h0 : cs ≠ [])
    (h : ds.map (fun c => (column c).length) = cs.map (fun c => (column c).length)) :
    fields (fwfWidths (rowLine cs)) (rowLine ds) = ds.map (fun c => some c.2) := by
  have hd0 : ds ≠ [] := by
    rintro rfl
    cases cs with
    | nil => exact h0 rfl
    | cons c cs => simp at h
  rw [widths_row hc h0, ← lengths_pieces h, ← pieces_flatten hd0, fields_pieces, pieces_cells hd]

theorem dropEmpty_all {f : Frame} {r : List (Option Str)} (hr : r ∈ f.rows) (hl : ∀ r ∈ f.rows, r.length = f.columns.length)
    (hs : ∀ c ∈ r, c.isSome = true) : dropEmpty f = f := by
  have hk : (List.range f.columns.length).filter (fun j => f.rows.any (fun r => (r.getD j none).isSome)) = List.range f.columns.length := by
    rw [List.filter_eq_self]
    intro j hj
    have hj : j < f.columns.length := List.mem_range.1 hj
    rw [List.any_eq_true]
    refine ⟨r, hr, ?_⟩
    have : j < r.length := by rw [hl r hr]; exact hj
    rw [List.getD_eq_getElem?_getD, List.getElem?_eq_getElem this]
    exact hs _ (List.getElem_mem this)
  have hmap : ∀ {α : Type} (l : List α) (d : α), (List.range l.length).map (fun j => l.getD j d) = l := by
    intro α l d
    apply List.ext_getElem?
    intro j
    rw [List.getElem?_map]
    by_cases hj : j < l.length
    · rw [List.getElem?_range hj, List.getElem?_eq_getElem hj]
      simp [List.getD_eq_getElem?_getD, List.getElem?_eq_getElem hj]
    · rw [List.getElem?_eq_none (l := l) (by omega), List.getElem?_eq_none (l := List.range l.length) (by rw [List.length_range]; omega)]
      rfl
  unfold dropEmpty
  simp only
  rw [hk, hmap]
  have : f.rows.map (fun r => (List.range f.columns.length).map (fun j => r.getD j none)) = f.rows := by
    conv_rhs => rw [← List.map_id f.rows]
    apply List.map_congr_left
    intro x hx
    rw [← hl x hx, hmap]
    rfl
  rw [this]

/-- **C87.** The last printing of a table (the only one, if there is one) with aligned columns: its rows are returned word by word, under the texts of the
header lines. -/
theorem table_last {ahead n : ℕ} {segs : List Seg} {s : Seg} {tail : List Str} (h : ∀ t ∈ segs ++ [s], t.Ok n) (ht : ∀ l ∈ tail, ¬ mark n <:+: l)
    {H B : List Str} {b b' : Str} {D : List (List (ℕ × Str))} {d : List (ℕ × Str)}
    (hr : s.rows = b :: (H ++ (B ++ ((D ++ [d]).map rowLine ++ [b'])))) (hb : BlankLine b) (hb' : BlankLine b') (hB : ∀ l ∈ B, BlankLine l) (hB1 : B.length ≤ 1)
    (hH0 : H ≠ []) (hH9 : H.length ≤ 9) (hd : d ≠ []) (hp : ∀ r ∈ D ++ [d], ∀ c ∈ r, TWord c.2)
    (hw : ∀ r ∈ D, r.map (fun c => (column c).length) = d.map (fun c => (column c).length))
    (hH : ∀ l ∈ H, (fields (fwfWidths (rowLine d)) l).headD none = none ∧ full (fields (fwfWidths (rowLine d)) l) = true) (ha : 1 ≤ ahead) (ha2 : ahead ≤ 2) :
    getTable ahead n (-1) (fileOf (segs ++ [s]) tail) =
      .ok ⟨titlesOf (fwfWidths (rowLine d)) H, (D ++ [d]).map (fun r => r.map (fun c => some c.2))⟩ := by
  have hcells : ∀ r ∈ D ++ [d], fields (fwfWidths (rowLine d)) (rowLine r) = r.map (fun c => some c.2) := by
    intro r hr
    refine row_cells (hp d (by simp)) (hp r hr) hd ?_
    rcases List.mem_append.1 hr with h1 | h1
    · exact hw r h1
    · simp only [List.mem_singleton] at h1; rw [h1]
  have hne : ∀ r ∈ D ++ [d], r ≠ [] := by
    intro r hr
    rcases List.mem_append.1 hr with h1 | h1
    · rintro rfl
      have := hw [] h1
      cases d with
      | nil => exact hd rfl
      | cons c d => simp at this
    · simp only [List.mem_singleton] at h1; rw [h1]; exact hd
  have hlay : Layout (fwfWidths (rowLine d)) s.rows H ((D ++ [d]).map rowLine) := by
    refine ⟨b, B, b', hr, hb, hb', hB, hB1, hH0, hH9, by simp, hH, ?_⟩
    intro l hl
    obtain ⟨r, hr', rfl⟩ := List.mem_map.1 hl
    rw [hcells r hr']
    cases r with
    | nil => exact absurd rfl (hne [] hr')
    | cons c r => rfl
  have hrows : s.rows = (b :: (H ++ (B ++ D.map rowLine))) ++ [rowLine d, b'] := by rw [hr]; simp
  have hHl : 1 ≤ H.length := List.length_pos_iff.2 hH0
  rw [table_exact_partial (k := segs.length) (t := s) h ht hrows ⟨by omega, Or.inr (by push_cast; omega)⟩ (by simp) hlay ha
    (by rw [List.length_map, List.length_append, List.length_singleton]; omega)]
  have e : ((D ++ [d]).map rowLine).map (fields (fwfWidths (rowLine d))) = (D ++ [d]).map (fun r => r.map (fun c => some c.2)) := by
    rw [List.map_map]
    exact List.map_congr_left hcells
  rw [e]
  congr 1
  have hlenW : (fwfWidths (rowLine d)).length = d.length := by rw [widths_row (hp d (by simp)) hd, List.length_map, pieces_length]
  refine dropEmpty_all (r := d.map (fun c => some c.2)) (by simp) ?_ ?_
  · intro x hx
    obtain ⟨r, hr', rfl⟩ := List.mem_map.1 hx
    simp only [titlesOf, List.length_map, List.length_range, hlenW]
    rcases List.mem_append.1 hr' with h1 | h1
    · have := congrArg List.length (hw r h1)
      simpa using this
    · simp only [List.mem_singleton] at h1; rw [h1]
  · intro c hc
    obtain ⟨x, -, rfl⟩ := List.mem_map.1 hc
    rfl

/-! ### what goes wrong -/

/-- a printing with a narrow and one with a wide column (example) -/
def exNarrow : Seg := ⟨["x\n".toList], "1cells print table 60\n".toList,
  ["\n".toList, "  cell mat\n".toList, "     n   m\n".toList, "\n".toList, " 1   5   7\n".toList, " 2   6   8\n".toList, "\n".toList], " total 1 2\n".toList⟩

/-- `exWide` (example) -/
def exWide : Seg := ⟨[], "1cells print table 60\n".toList,
  ["\n".toList, "      cell mat\n".toList, "\n".toList, " 1       5   7\n".toList, "\n".toList], " total 1 2\n".toList⟩

/-- the printing alone is returned as it stands -/
example : getTable 2 60 0 (fileOf [exNarrow] []) =
    .ok ⟨[" ".toList, "cell n".toList, "mat m".toList], [[some "1".toList, some "5".toList, some "7".toList], [some "2".toList, some "6".toList, some "8".toList]]⟩ := by
  decide +kernel

/-- **C87 is false of the code for earlier printings**: the columns are cut at the widths of the last printing. Here the columns of the first printing are
run together once a wider one follows. -/
theorem instance_widths : getTable 2 60 0 (fileOf [exNarrow, exWide] []) = getTable 2 60 0 (fileOf [exNarrow, exWide] ["\n".toList]) ∧
    (getTable 2 60 0 (fileOf [exNarrow, exWide] [])).map Frame.rows = .ok [[some "1".toList, some "5   7".toList], [some "2".toList, some "6   8".toList]] ∧
    (getTable 2 60 0 (fileOf [exNarrow] [])).map Frame.rows =
      .ok [[some "1".toList, some "5".toList, some "7".toList], [some "2".toList, some "6".toList, some "8".toList]] := by
  decide +kernel

/-- the rows of a table without an empty line before its rows -/
theorem rows_lost (ahead : ℕ) (b' t d : List (Option Str)) (H D post : List (List (Option Str))) (ha : 1 ≤ ahead) (ha2 : ahead ≤ H.length + D.length)
    (hH : ∀ r ∈ H, full r = true) (hD : ∀ r ∈ D, full r = true) :
    let q := readAhead ahead (H ++ (D ++ (d :: b' :: t :: post)))
    q.1 ≠ [] ∧ (if H.length + D.length ≤ q.1.length then q.1.take (H.length + D.length)
      else q.1 ++ (q.2.take (H.length + D.length - q.1.length)).filter full) = H ++ D := by
  have hHD : ∀ r ∈ H ++ D, full r = true := by
    intro r hr
    rcases List.mem_append.1 hr with h | h
    · exact hH r h
    · exact hD r h
  simp only
  have e0 : H ++ (D ++ (d :: b' :: t :: post)) = (H ++ D) ++ (d :: b' :: t :: post) := by simp
  rw [e0, ahead_full ahead (H ++ D) _ hHD (by simpa using ha2)]
  simp only
  have hl : ((H ++ D).take ahead).length = ahead := by rw [List.length_take, List.length_append]; omega
  refine ⟨by intro h; rw [h] at hl; simp at hl; omega, ?_⟩
  rw [hl]
  by_cases hq : H.length + D.length ≤ ahead
  · rw [if_pos hq, List.take_take, Nat.min_eq_left hq, List.take_of_length_le (by simp)]
  · rw [if_neg hq]
    have h1 : H.length + D.length - ahead = ((H ++ D).drop ahead).length := by rw [List.length_drop, List.length_append]
    rw [h1, List.take_left, filter_full (fun r hr => hHD r (List.mem_of_mem_drop hr)), List.take_append_drop]

/-- **C87 is false of the code for compact tables**: a table whose header follows its title and whose rows follow the header, without empty lines, loses its
last row. -/
theorem last_row_lost {ahead n : ℕ} {s : Seg} {tail : List Str} (h : s.Ok n) (ht : ∀ l ∈ tail, ¬ mark n <:+: l) {H D : List Str} {r b' : Str}
    (hr : s.rows = H ++ (D ++ [r, b'])) (hH0 : H ≠ []) (hH9 : H.length ≤ 9) (hD0 : D ≠ [])
    (hH : ∀ l ∈ H, (fields (fwfWidths r) l).headD none = none ∧ full (fields (fwfWidths r) l) = true)
    (hD : ∀ l ∈ D, ((fields (fwfWidths r) l).headD none).isSome = true) (ha : 1 ≤ ahead) (ha2 : ahead ≤ H.length + D.length) :
    getTable ahead n 0 (fileOf [s] tail) = .ok (dropEmpty ⟨titlesOf (fwfWidths r) H, D.map (fields (fwfWidths r))⟩) := by
  have hrows : s.rows = (H ++ D) ++ [r, b'] := by rw [hr]; simp
  unfold getTable
  have e1 := loopW_file (n := n) (segs := []) (s := s) (tail := tail) (by intro t h'; simp at h'; rw [h']; exact h) ht hrows
  simp only [List.nil_append] at e1
  rw [e1]
  simp only [instsAt]
  rw [if_pos (Int.le_refl 0)]
  simp only [Int.toNat_zero, List.getElem?_cons_zero]
  obtain ⟨post, hpost⟩ := drop_title [s] tail (k := 0) (s := s) (by simp)
  simp only [List.take_zero, List.flatMap_nil, List.length_nil] at hpost
  unfold readFwf
  have hn : (instAt 0 s).nrows = ((H.length + D.length : ℕ) : ℤ) := by
    unfold instAt
    simp only [hr, List.length_cons, List.length_append, List.length_nil]
    push_cast; omega
  rw [hn, hpost, if_neg (by omega), Int.toNat_natCast]
  have hmap : (s.rows ++ (s.total :: post)).map (fields (fwfWidths r)) =
      H.map (fields (fwfWidths r)) ++ (D.map (fields (fwfWidths r)) ++ (fields (fwfWidths r) r :: fields (fwfWidths r) b' :: fields (fwfWidths r) s.total ::
        post.map (fields (fwfWidths r)))) := by
    rw [hr]; simp
  rw [hmap]
  have key := rows_lost ahead (fields (fwfWidths r) b') (fields (fwfWidths r) s.total) (fields (fwfWidths r) r) (H.map (fields (fwfWidths r)))
    (D.map (fields (fwfWidths r))) (post.map (fields (fwfWidths r))) ha (by simpa using ha2)
    (by intro x hx; obtain ⟨y, hy, rfl⟩ := List.mem_map.1 hx; exact (hH y hy).2)
    (by intro x hx; obtain ⟨y, hy, rfl⟩ := List.mem_map.1 hx; exact full_of_head (hD y hy))
  simp only [List.length_map] at key ⊢
  obtain ⟨key1, key2⟩ := key
  rw [if_neg key1]
  have hread : ∀ (q : List (List (Option Str)) × List (List (Option Str))) (N : ℕ) (X : List (List (Option Str))),
      (if N ≤ q.1.length then q.1.take N else q.1 ++ (q.2.take (N - q.1.length)).filter full) = X →
      (if N ≤ q.1.length then Except.ok (ε := PyErr) (q.1.take N) else .ok (q.1 ++ (q.2.take (N - q.1.length)).filter full)) = .ok X := by
    intro q N X hX
    by_cases hq : N ≤ q.1.length
    · rw [if_pos hq] at hX ⊢; rw [hX]
    · rw [if_neg hq] at hX ⊢; rw [hX]
  rw [hread _ _ _ key2]
  simp only
  unfold makeFrame
  cases D with
  | nil => exact absurd rfl hD0
  | cons d D =>
    rw [List.map_cons, headLoop_ok (hD d (by simp)) (fun l hl => (hH l hl).1) hH0 hH9]
    simp only
    rw [if_neg (by simp [titlesOf])]
    have : (H.map (fields (fwfWidths r)) ++ fields (fwfWidths r) d :: D.map (fields (fwfWidths r))).drop H.length =
        fields (fwfWidths r) d :: D.map (fields (fwfWidths r)) := by
      rw [show H.length = (H.map (fields (fwfWidths r))).length by simp, List.drop_left]
    rw [this]

/-! ### C88 -/

/-- what a line of another file tells: a D1SUNED version first, else an MCNP version without the zeros at its ends (specification) -/
def Tells (l v : Str) : Prop :=
  (∃ w, search d1sVerHere l = some w ∧ v = "d1suned".toList ++ w) ∨ (search d1sVerHere l = none ∧ ∃ w, search mcnpHere l = some w ∧ v = stripZeros w)

theorem lineVersion_iff (l v : Str) : lineVersion l = some v ↔ Tells l v := by
  unfold lineVersion Tells
  cases h : search d1sVerHere l with
  | some w => simp [eq_comm]
  | none => simp [eq_comm]

theorem lineVersion_none (l : Str) : lineVersion l = none ↔ ∀ v, ¬ Tells l v := by
  constructor
  · intro h v hv
    rw [← lineVersion_iff, h] at hv
    cases hv
  · intro h
    cases hl : lineVersion l with
    | none => rfl
    | some v => exact absurd ((lineVersion_iff l v).1 hl) (h v)

/-- a file that is looked at: its name ends with `.out` or `.dump` (specification) -/
def Looked (name : Str) : Prop := ∃ a, name = a ++ ".out".toList ∨ name = a ++ ".dump".toList

theorem isAux_iff (name : Str) : isAux name = true ↔ Looked name := by
  unfold isAux Looked
  rw [Bool.or_eq_true, List.isSuffixOf_iff_suffix, List.isSuffixOf_iff_suffix]
  constructor
  · rintro (⟨a, h⟩ | ⟨a, h⟩)
    · exact ⟨a, Or.inl h.symm⟩
    · exact ⟨a, Or.inr h.symm⟩
  · rintro ⟨a, h | h⟩
    · exact Or.inl ⟨a, h.symm⟩
    · exact Or.inr ⟨a, h.symm⟩

/-- **C88 (header).** A version in the header is what is returned, whatever the folder holds. -/
theorem version_header {folder : Option (List (Str × List Str))} {lines : List Str} {v : Str} (h : codeVersion lines = .ok v) :
    codeVersionIn folder lines = .ok v := by
  unfold codeVersionIn
  rw [h]

/-- **C88 (other files).** Without a version in the header: the first file, in the order of the folder, that is looked at and tells a version in its first
four lines, and there the first line that does. -/
theorem version_folder {lines : List Str} {e : PyErr} (h : codeVersion lines = .error e) (before after : List (Str × List Str)) (name : Str)
    (ls ls' : List Str) (l v : Str) (hb : ∀ f ∈ before, Looked f.1 → ∀ x ∈ f.2.take 4, ∀ v, ¬ Tells x v) (hn : Looked name) (hl : ls.length < 4)
    (hls : ∀ x ∈ ls, ∀ v, ¬ Tells x v) (hv : Tells l v) :
    codeVersionIn (some (before ++ (name, ls ++ l :: ls') :: after)) lines = .ok v := by
  unfold codeVersionIn
  rw [h]
  simp only
  have hnone : ∀ xs : List Str, (∀ x ∈ xs, ∀ v, ¬ Tells x v) → xs.findSome? lineVersion = none := by
    intro xs hx
    rw [List.findSome?_eq_none_iff]
    intro x hxm
    exact (lineVersion_none x).2 (hx x hxm)
  have key : folderVersion (before ++ (name, ls ++ l :: ls') :: after) = some v := by
    induction before with
    | nil =>
      rw [List.nil_append, folderVersion, if_pos ((isAux_iff name).2 hn)]
      have : (ls ++ l :: ls').take 4 = ls ++ l :: ls'.take (3 - ls.length) := by
        rw [List.take_append, List.take_of_length_le (by omega)]
        congr 1
        have : 4 - ls.length = (3 - ls.length) + 1 := by omega
        rw [this, List.take_succ_cons]
      simp only
      rw [this, List.findSome?_append, hnone ls hls, List.findSome?_cons, (lineVersion_iff l v).2 hv]
      rfl
    | cons f before ih =>
      rw [List.cons_append, folderVersion]
      have : (if isAux f.1 then (f.2.take 4).findSome? lineVersion else none) = none := by
        by_cases hf : isAux f.1 = true
        · rw [if_pos hf, hnone _ (hb f (by simp) ((isAux_iff _).1 hf))]
        · rw [if_neg hf]
      rw [this]
      simp only
      exact ih (fun g hg => hb g (by simp [hg]))
  rw [key]

/-- **C88 (nothing found).** If no file tells a version, `ValueError`; if the path of the output has no folder, the search in the folder fails
(`FileNotFoundError`), whatever stands beside the output. -/
theorem version_missing {lines : List Str} {e : PyErr} (h : codeVersion lines = .error e) :
    (∀ fs : List (Str × List Str), (∀ f ∈ fs, Looked f.1 → ∀ x ∈ f.2.take 4, ∀ v, ¬ Tells x v) → codeVersionIn (some fs) lines = .error .valueError) ∧
    codeVersionIn none lines = .error .ioError := by
  constructor
  · intro fs hf
    have key : folderVersion fs = none := by
      induction fs with
      | nil => rfl
      | cons f fs ih =>
        rw [folderVersion]
        have : (if isAux f.1 then (f.2.take 4).findSome? lineVersion else none) = none := by
          by_cases ha : isAux f.1 = true
          · rw [if_pos ha, List.findSome?_eq_none_iff]
            intro x hx
            exact (lineVersion_none x).2 (hf f (by simp) ((isAux_iff _).1 ha) x hx)
          · rw [if_neg ha]
        rw [this]
        exact ih (fun g hg => hf g (by simp [hg]))
    unfold codeVersionIn
    rw [h]
    simp only [key]
  · unfold codeVersionIn
    rw [h]

/-- **C88 (D1SUNED in another file).** A line `d1suned  ver=…` tells the digits that follow. -/
theorem tells_d1s {a ds s : Str} (ha : ∀ c ∈ a, c ≠ 'd') (hds : ds ≠ []) (hd : ∀ c ∈ ds, isDigit c = true) (hs : ∀ c t, s = c :: t → isDigit c = false) :
    Tells (a ++ ("d1suned  ver=".toList ++ (ds ++ s))) ("d1suned".toList ++ ds) := by
  left
  refine ⟨ds, ?_, rfl⟩
  rw [search_skip]
  · have hh : d1sVerHere ("d1suned  ver=".toList ++ (ds ++ s)) = some ds := by
      unfold d1sVerHere
      have hp : "d1suned  ver=".toList.isPrefixOf ("d1suned  ver=".toList ++ (ds ++ s)) = true := List.isPrefixOf_iff_prefix.mpr (List.prefix_append _ _)
      have hdr : ("d1suned  ver=".toList ++ (ds ++ s)).drop 13 = ds ++ s := List.drop_left (l₁ := "d1suned  ver=".toList)
      rw [if_pos hp, hdr, (takeWhile_run hd hs).1]
      cases ds with
      | nil => exact absurd rfl hds
      | cons c ds => rfl
    have e : ∀ r : Str, "d1suned  ver=".toList ++ r = 'd' :: ("1suned  ver=".toList ++ r) := fun _ => rfl
    rw [e] at hh ⊢
    rw [search, hh]
  · intro x y hxy hy
    cases y with
    | nil => exact absurd rfl hy
    | cons c y =>
      have hc := ha c (by rw [← hxy]; simp)
      unfold d1sVerHere
      rw [if_neg]
      have e : "d1suned  ver=".toList = 'd' :: "1suned  ver=".toList := by decide
      rw [List.cons_append, e, List.isPrefixOf]
      simp [Ne.symm hc]

example : codeVersionIn (some [("a.txt".toList, ["MCNP_6.2".toList]), ("run.out".toList, ["x".toList, " d1suned  ver=4 ".toList])]) ["no version\n".toList] =
    .ok "d1suned4".toList := by decide +kernel

/-! ### concrete cases -/

example : exNarrow.Ok 60 ∧ exWide.Ok 60 := by
  unfold Seg.Ok mark
  simp only [← contains_iff]
  decide +kernel

example : Layout (fwfWidths " 2   6   8\n".toList) exNarrow.rows ["  cell mat\n".toList, "     n   m\n".toList] [" 1   5   7\n".toList, " 2   6   8\n".toList] := by
  refine ⟨"\n".toList, ["\n".toList], "\n".toList, rfl, by unfold BlankLine; decide, by unfold BlankLine; decide, ?_, by simp, by simp, by simp, by simp, ?_, ?_⟩
  · intro l hl; simp only [List.mem_singleton] at hl; subst hl; unfold BlankLine; decide
  · intro l hl; simp only [List.mem_cons, List.not_mem_nil, or_false] at hl; rcases hl with rfl | rfl <;> decide +kernel
  · intro l hl; simp only [List.mem_cons, List.not_mem_nil, or_false] at hl; rcases hl with rfl | rfl <;> decide +kernel

example : rowLine [(0, "2".toList), (2, "6".toList), (2, "8".toList)] = " 2   6   8\n".toList := by decide

end F4Enix.Outp
