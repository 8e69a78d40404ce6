import Verif.Out.OutpTable
/-!
# C87: printed tables as they are returned; C88: version of the code in other files
-/
namespace F4Enix.Outp
open F4Enix F4Enix.Find

/-! ### the specification -/

/-- a part of an output: lines without the title of the table, the title, the rows, the line with the total (specification) -/
structure Seg where
  before : List Str
  title : Str
  rows : List Str
  total : Str

/-- its lines (specification) -/
def Seg.lines (s : Seg) : List Str := s.before ++ s.title :: (s.rows ++ [s.total])

/-- the mark of a title (specification) -/
def mark (n : ℕ) : Str := "table ".toList ++ natStr n

/-- what the lines are (specification) -/
def Seg.Ok (n : ℕ) (s : Seg) : Prop :=
  (∀ l ∈ s.before, ¬ mark n <:+: l) ∧ mark n <:+: s.title ∧ (∀ l ∈ s.rows, ¬ mark n <:+: l ∧ ¬ "total".toList <:+: l) ∧
    "total".toList <:+: s.total ∧ ¬ mark n <:+: s.total

/-- a line without text (specification) -/
def BlankLine (l : Str) : Prop := ∀ c ∈ l, isPad c = true

/-- texts with blanks between them (specification) -/
def joinB : List Str → Str
  | [] => []
  | w :: ws => w ++ ws.flatMap (fun x => ' ' :: x)

/-- the text in column `j` of a line cut at widths `W` (nothing is the empty text) (specification) -/
def cellOf (W : List ℕ) (j : ℕ) (l : Str) : Str := ((fields W l).getD j none).getD []

/-- the titles: the texts of the header lines in a column, one after the other (specification) -/
def titlesOf (W : List ℕ) (H : List Str) : List Str := (List.range W.length).map (fun j => joinB (H.map (cellOf W j)))

/-- the lines of the table asked for: an empty line, the header (one to nine lines with nothing in the first column), at most one empty line, the
rows (with something in the first column), an empty line (specification) -/
def Layout (W : List ℕ) (rows H D : List Str) : Prop :=
  ∃ b B b', rows = b :: (H ++ (B ++ (D ++ [b']))) ∧ BlankLine b ∧ BlankLine b' ∧ (∀ l ∈ B, BlankLine l) ∧ B.length ≤ 1 ∧ H ≠ [] ∧ H.length ≤ 9 ∧ D ≠ [] ∧
    (∀ l ∈ H, (fields W l).headD none = none ∧ full (fields W l) = true) ∧ (∀ l ∈ D, ((fields W l).headD none).isSome = true)

/-! ### places -/

theorem loopW_quiet (n : ℕ) (all : List Str) (i : ℕ) (pre rest : List Str) (acc : List TableInst) (w : List ℕ) (h : ∀ l ∈ pre, ¬ mark n <:+: l) :
    tableLoopW n all i (pre ++ rest) none acc w = tableLoopW n all (i + pre.length) rest none acc w := by
  induction pre generalizing i with
  | nil => rfl
  | cons l pre ih =>
    rw [List.cons_append, tableLoopW]
    have h1 : ¬ contains ("table ".toList ++ natStr n) l = true := by rw [contains_iff]; exact h l (by simp)
    rw [if_neg h1, ih _ (fun x hx => h x (by simp [hx])), List.length_cons]
    congr 1; omega

theorem loopW_rows (n : ℕ) (all : List Str) (i s : ℕ) (pre rest : List Str) (acc : List TableInst) (w : List ℕ)
    (h : ∀ l ∈ pre, ¬ mark n <:+: l ∧ ¬ "total".toList <:+: l) :
    tableLoopW n all i (pre ++ rest) (some s) acc w = tableLoopW n all (i + pre.length) rest (some s) acc w := by
  induction pre generalizing i with
  | nil => rfl
  | cons l pre ih =>
    rw [List.cons_append, tableLoopW]
    have h1 : ¬ contains ("table ".toList ++ natStr n) l = true := by rw [contains_iff]; exact (h l (by simp)).1
    have h2 : ¬ contains "total".toList l = true := by rw [contains_iff]; exact (h l (by simp)).2
    simp only
    rw [if_neg h2]
    simp only
    rw [if_neg h1, ih _ (fun x hx => h x (by simp [hx])), List.length_cons]
    congr 1; omega

/-- where the table of a part is, when the part begins at line `i` (proof) -/
def instAt (i : ℕ) (s : Seg) : TableInst := ⟨i + s.before.length + 1, (s.rows.length : ℤ) - 2⟩

theorem loopW_seg {n : ℕ} {all : List Str} {i : ℕ} {s : Seg} (h : s.Ok n) (rest : List Str) (acc : List TableInst) (w : List ℕ) :
    tableLoopW n all i (s.lines ++ rest) none acc w =
      tableLoopW n all (i + s.lines.length) rest none (acc ++ [instAt i s]) (fwfWidths (inferLine all (i + s.before.length + 1 + s.rows.length))) := by
  obtain ⟨h1, h2, h3, h4, h5⟩ := h
  have e : s.lines ++ rest = s.before ++ (s.title :: (s.rows ++ (s.total :: rest))) := by simp [Seg.lines]
  rw [e, loopW_quiet n all i _ _ _ _ h1, tableLoopW]
  have hc2 : contains ("table ".toList ++ natStr n) s.title = true := (contains_iff _ _).mpr h2
  rw [if_pos hc2, loopW_rows n all _ _ _ _ _ _ h3, tableLoopW]
  simp only
  rw [if_pos ((contains_iff _ _).mpr h4)]
  simp only
  rw [if_neg (by rw [contains_iff]; exact h5)]
  have hlen : i + s.lines.length = i + s.before.length + 1 + s.rows.length + 1 := by
    simp only [Seg.lines, List.length_append, List.length_cons, List.length_nil]; omega
  have hinst : (⟨i + s.before.length + 1, ((i + s.before.length + 1 + s.rows.length : ℕ) : ℤ) - ((i + s.before.length + 1 : ℕ) : ℤ) - 2⟩ : TableInst) = instAt i s := by
    unfold instAt
    congr 1
    push_cast; omega
  rw [hlen, hinst]

/-- the places of the tables of a list of parts (proof) -/
def instsAt : ℕ → List Seg → List TableInst
  | _, [] => []
  | i, s :: ss => instAt i s :: instsAt (i + s.lines.length) ss

theorem loopW_segs {n : ℕ} {all : List Str} (segs : List Seg) (h : ∀ s ∈ segs, s.Ok n) (s : Seg) (hs : s.Ok n) (i : ℕ) (rest : List Str)
    (acc : List TableInst) (w : List ℕ) :
    tableLoopW n all i ((segs ++ [s]).flatMap Seg.lines ++ rest) none acc w =
      tableLoopW n all (i + ((segs ++ [s]).flatMap Seg.lines).length) rest none (acc ++ instsAt i (segs ++ [s]))
        (fwfWidths (inferLine all (i + (segs.flatMap Seg.lines).length + s.before.length + 1 + s.rows.length))) := by
  induction segs generalizing i acc w with
  | nil =>
    simp only [List.nil_append, List.flatMap_cons, List.flatMap_nil, List.append_nil, List.length_nil, Nat.add_zero, instsAt]
    exact loopW_seg hs rest acc w
  | cons t segs ih =>
    rw [List.cons_append, List.flatMap_cons, List.append_assoc, loopW_seg (h t (by simp)), ih (fun x hx => h x (by simp [hx]))]
    simp only [List.flatMap_cons, List.length_append, instsAt, List.append_assoc, List.cons_append, List.nil_append]
    congr 1
    · omega
    · congr 2; omega

/-- the file: parts with tables, then other lines (specification) -/
def fileOf (segs : List Seg) (tail : List Str) : List Str := segs.flatMap Seg.lines ++ tail

/-- lines after the last table: no line with a total follows a title, so that no table in them is finished (specification) -/
def Open (n : ℕ) (tail : List Str) : Prop :=
  ∀ pre title rest, tail = pre ++ title :: rest → mark n <:+: title → ∀ l ∈ rest, ¬ "total".toList <:+: l

theorem open_quiet {n : ℕ} {tail : List Str} (h : ∀ l ∈ tail, ¬ mark n <:+: l) : Open n tail := by
  rintro pre title rest rfl ht
  exact absurd ht (h title (by simp))

theorem loopW_started (n : ℕ) (all : List Str) (i s : ℕ) (rest : List Str) (acc : List TableInst) (w : List ℕ)
    (h : ∀ l ∈ rest, ¬ "total".toList <:+: l) : tableLoopW n all i rest (some s) acc w = (acc, w) := by
  induction rest generalizing i s with
  | nil => rfl
  | cons l rest ih =>
    rw [tableLoopW]
    have h2 : ¬ contains "total".toList l = true := by rw [contains_iff]; exact h l (by simp)
    simp only
    rw [if_neg h2]
    simp only
    by_cases h1 : contains ("table ".toList ++ natStr n) l = true
    · rw [if_pos h1, ih _ _ (fun x hx => h x (by simp [hx]))]
    · rw [if_neg h1, ih _ _ (fun x hx => h x (by simp [hx]))]

theorem loopW_open (n : ℕ) (all : List Str) (i : ℕ) (tail : List Str) (acc : List TableInst) (w : List ℕ) (h : Open n tail) :
    tableLoopW n all i tail none acc w = (acc, w) := by
  induction tail generalizing i with
  | nil => rfl
  | cons l tail ih =>
    rw [tableLoopW]
    by_cases h1 : contains ("table ".toList ++ natStr n) l = true
    · rw [if_pos h1, loopW_started]
      exact h [] l tail rfl ((contains_iff _ _).1 h1)
    · rw [if_neg h1, ih]
      rintro pre title rest rfl ht
      exact h (l :: pre) title rest rfl ht

theorem loopW_file_open {n : ℕ} {segs : List Seg} {s : Seg} {tail : List Str} (h : ∀ t ∈ segs ++ [s], t.Ok n) (ht : Open n tail)
    {rs : List Str} {r b : Str} (hr : s.rows = rs ++ [r, b]) :
    tableLoopW n (fileOf (segs ++ [s]) tail) 0 (fileOf (segs ++ [s]) tail) none [] [] = (instsAt 0 (segs ++ [s]), fwfWidths r) := by
  conv_lhs => arg 4; unfold fileOf
  rw [loopW_segs segs (fun t ht => h t (by simp [ht])) s (h s (by simp))]
  rw [loopW_open _ _ _ _ _ _ ht, List.nil_append]
  congr 2
  unfold inferLine
  have hl : s.rows.length = rs.length + 2 := by rw [hr]; simp
  rw [if_pos (by omega)]
  have e : fileOf (segs ++ [s]) tail = (segs.flatMap Seg.lines ++ (s.before ++ (s.title :: rs))) ++ (r :: (b :: (s.total :: tail))) := by
    unfold fileOf
    simp [Seg.lines, hr]
  have hi : 0 + (segs.flatMap Seg.lines).length + s.before.length + 1 + s.rows.length - 2 = (segs.flatMap Seg.lines ++ (s.before ++ (s.title :: rs))).length := by
    simp only [List.length_append, List.length_cons]; omega
  rw [e, hi, List.getD_eq_getElem?_getD, List.getElem?_append_right (Nat.le_refl _)]
  simp

theorem loopW_file {n : ℕ} {segs : List Seg} {s : Seg} {tail : List Str} (h : ∀ t ∈ segs ++ [s], t.Ok n) (ht : ∀ l ∈ tail, ¬ mark n <:+: l)
    {rs : List Str} {r b : Str} (hr : s.rows = rs ++ [r, b]) :
    tableLoopW n (fileOf (segs ++ [s]) tail) 0 (fileOf (segs ++ [s]) tail) none [] [] = (instsAt 0 (segs ++ [s]), fwfWidths r) :=
  loopW_file_open h (open_quiet ht) hr

theorem instsAt_get (segs : List Seg) (i k : ℕ) : (instsAt i segs)[k]? =
    (segs[k]?).map (fun s => instAt (i + ((segs.take k).flatMap Seg.lines).length) s) := by
  induction segs generalizing i k with
  | nil => simp [instsAt]
  | cons s ss ih =>
    cases k with
    | zero => simp [instsAt]
    | succ k =>
      simp only [instsAt, List.getElem?_cons_succ, ih, List.take_succ_cons, List.flatMap_cons, List.length_append]
      congr 1
      funext t
      congr 1; omega

theorem instsAt_length (segs : List Seg) (i : ℕ) : (instsAt i segs).length = segs.length := by
  induction segs generalizing i with
  | nil => rfl
  | cons s ss ih => simp [instsAt, ih]

/-- the lines from the first one after a title on -/
theorem drop_title (segs : List Seg) (tail : List Str) {k : ℕ} {s : Seg} (hk : segs[k]? = some s) :
    ∃ post, (fileOf segs tail).drop (instAt (((segs.take k).flatMap Seg.lines).length) s).skip = s.rows ++ (s.total :: post) := by
  have hlt : k < segs.length := by
    by_contra hc
    rw [List.getElem?_eq_none (by omega)] at hk
    cases hk
  have hs : segs[k] = s := by
    rw [List.getElem?_eq_getElem hlt] at hk
    simpa using hk
  have e : segs = segs.take k ++ (s :: segs.drop (k + 1)) := by
    conv_lhs => rw [← List.take_append_drop k segs, List.drop_eq_getElem_cons hlt, hs]
  have e2 : fileOf segs tail = ((segs.take k).flatMap Seg.lines ++ (s.before ++ [s.title])) ++ (s.rows ++ (s.total :: ((segs.drop (k + 1)).flatMap Seg.lines ++ tail))) := by
    unfold fileOf
    conv_lhs => rw [e]
    simp [Seg.lines]
  refine ⟨(segs.drop (k + 1)).flatMap Seg.lines ++ tail, ?_⟩
  rw [e2]
  have : (instAt (((segs.take k).flatMap Seg.lines).length) s).skip = ((segs.take k).flatMap Seg.lines ++ (s.before ++ [s.title])).length := by
    simp [instAt]; omega
  rw [this, List.drop_left]

/-! ### rows -/

theorem fields_length (W : List ℕ) (l : Str) : (fields W l).length = W.length := by
  induction W generalizing l with
  | nil => rfl
  | cons w W ih => simp [fields, ih]

theorem cellText_blank {s : Str} (h : BlankLine s) : cellText s = none := by
  unfold cellText
  have : s.dropWhile isPad = [] := by
    induction s with
    | nil => rfl
    | cons c s ih =>
      rw [List.dropWhile_cons, if_pos (h c (by simp))]
      exact ih (fun x hx => h x (by simp [hx]))
  rw [this]
  rfl

theorem fields_blank (W : List ℕ) {l : Str} (h : BlankLine l) : full (fields W l) = false := by
  unfold full
  rw [List.any_eq_false]
  induction W generalizing l with
  | nil => intro x hx; simp [fields] at hx
  | cons w W ih =>
    intro x hx
    simp only [fields, List.mem_cons] at hx
    rcases hx with rfl | hx
    · rw [cellText_blank (fun c hc => h c (List.mem_of_mem_take hc))]; simp
    · exact ih (fun c hc => h c (List.mem_of_mem_drop hc)) x hx

theorem full_of_head {r : List (Option Str)} (h : (r.headD none).isSome = true) : full r = true := by
  cases r with
  | nil => simp at h
  | cons c r => unfold full; rw [List.any_cons]; simp only [List.headD_cons] at h; rw [h]; rfl

theorem ahead_full (k : ℕ) (xs ys : List (List (Option Str))) (h : ∀ r ∈ xs, full r = true) (hk : k ≤ xs.length) :
    readAhead k (xs ++ ys) = (xs.take k, xs.drop k ++ ys) := by
  induction xs generalizing k with
  | nil =>
    simp only [List.length_nil, Nat.le_zero] at hk
    subst hk
    simp [readAhead]
  | cons x xs ih =>
    cases k with
    | zero => simp [readAhead]
    | succ k =>
      rw [List.cons_append, readAhead, if_pos (h x (by simp))]
      simp only
      rw [ih k (fun r hr => h r (by simp [hr])) (by simp only [List.length_cons] at hk; omega)]
      simp

theorem ahead_past (m : ℕ) (xs ys : List (List (Option Str))) (h : ∀ r ∈ xs, full r = true) :
    readAhead (xs.length + m) (xs ++ ys) = (xs ++ (readAhead m ys).1, (readAhead m ys).2) := by
  induction xs with
  | nil => simp
  | cons x xs ih =>
    have : (x :: xs).length + m = (xs.length + m) + 1 := by simp only [List.length_cons]; omega
    rw [this, List.cons_append, readAhead, if_pos (h x (by simp))]
    simp only
    rw [ih (fun r hr => h r (by simp [hr]))]
    simp

theorem ahead_empty (m : ℕ) (xs ys : List (List (Option Str))) (h : ∀ r ∈ xs, full r = false) :
    readAhead (m + 1) (xs ++ ys) = readAhead (m + 1) ys := by
  induction xs with
  | nil => rfl
  | cons x xs ih =>
    rw [List.cons_append, readAhead, if_neg (by rw [h x (by simp)]; simp)]
    exact ih (fun r hr => h r (by simp [hr]))

theorem filter_full {xs : List (List (Option Str))} (h : ∀ r ∈ xs, full r = true) : xs.filter full = xs := List.filter_eq_self.2 h

theorem filter_none {xs : List (List (Option Str))} (h : ∀ r ∈ xs, full r = false) : xs.filter full = [] := by
  rw [List.filter_eq_nil_iff]
  intro r hr
  rw [h r hr]
  simp

/-- the rows read, of a table with an empty line before the header and at most one behind it -/
theorem rows_read (ahead : ℕ) (b b' t : List (Option Str)) (H B D post : List (List (Option Str))) (ha : 1 ≤ ahead) (ha2 : ahead ≤ H.length + D.length)
    (hb : full b = false) (hb' : full b' = false) (hB : ∀ r ∈ B, full r = false) (hB1 : B.length ≤ 1) (hH : ∀ r ∈ H, full r = true)
    (hD : ∀ r ∈ D, full r = true) (hD0 : D ≠ []) :
    let q := readAhead ahead (b :: (H ++ (B ++ (D ++ (b' :: t :: post)))))
    q.1 ≠ [] ∧ (if H.length + B.length + D.length ≤ q.1.length then q.1.take (H.length + B.length + D.length)
      else q.1 ++ (q.2.take (H.length + B.length + D.length - q.1.length)).filter full) = H ++ D := by
  have hDl : 0 < D.length := List.length_pos_iff.2 hD0
  obtain ⟨a, rfl⟩ : ∃ a, ahead = a + 1 := ⟨ahead - 1, by omega⟩
  have e0 : readAhead (a + 1) (b :: (H ++ (B ++ (D ++ (b' :: t :: post))))) = readAhead (a + 1) (H ++ (B ++ (D ++ (b' :: t :: post)))) :=
    ahead_empty a [b] _ (by simp [hb])
  simp only
  rw [e0]
  by_cases hk : a + 1 ≤ H.length
  · rw [ahead_full _ _ _ hH hk]
    simp only
    have hl : (H.take (a + 1)).length = a + 1 := by rw [List.length_take]; omega
    refine ⟨by intro h; rw [h] at hl; simp at hl, ?_⟩
    rw [hl, if_neg (by omega)]
    have e1 : H.drop (a + 1) ++ (B ++ (D ++ (b' :: t :: post))) = (H.drop (a + 1) ++ (B ++ D)) ++ (b' :: t :: post) := by simp
    have e2 : H.length + B.length + D.length - (a + 1) = (H.drop (a + 1) ++ (B ++ D)).length := by
      simp only [List.length_append, List.length_drop]; omega
    rw [e1, e2, List.take_left, List.filter_append, List.filter_append, filter_none hB, filter_full hD,
      filter_full (fun r hr => hH r (List.mem_of_mem_drop hr)), List.nil_append, ← List.append_assoc, List.take_append_drop]
  · obtain ⟨m, hm⟩ : ∃ m, a + 1 = H.length + (m + 1) := ⟨a - H.length, by omega⟩
    have hm2 : m + 1 ≤ D.length := by omega
    rw [hm, ahead_past _ _ _ hH, ahead_empty m B _ hB, ahead_full _ _ _ hD hm2]
    simp only
    have hl : (H ++ D.take (m + 1)).length = H.length + (m + 1) := by rw [List.length_append, List.length_take]; omega
    refine ⟨by intro h; rw [h] at hl; simp at hl, ?_⟩
    rw [hl]
    by_cases hn : H.length + B.length + D.length ≤ H.length + (m + 1)
    · rw [if_pos hn]
      have h1 : m + 1 = D.length := by omega
      rw [h1, List.take_length, List.take_of_length_le]
      rw [List.length_append]; omega
    · rw [if_neg hn]
      have h1 : H.length + B.length + D.length - (H.length + (m + 1)) = (D.drop (m + 1)).length + B.length := by
        rw [List.length_drop]; omega
      rw [h1, List.take_append, List.take_of_length_le (l := D.drop (m + 1)) (by omega), Nat.add_sub_cancel_left, List.filter_append,
        filter_full (fun r hr => hD r (List.mem_of_mem_drop hr))]
      have h2 : ((b' :: t :: post).take B.length).filter full = [] := by
        apply filter_none
        intro r hr
        have : B.length = 0 ∨ B.length = 1 := by omega
        rcases this with h0 | h0
        · rw [h0] at hr; simp at hr
        · rw [h0] at hr
          simp at hr
          rw [hr]; exact hb'
      rw [h2, List.append_nil, List.append_assoc, List.take_append_drop]

/-! ### header -/

theorem headLoop_go (n : ℕ) (d : List (Option Str)) (ds : List (List (Option Str))) (hd : (d.headD none).isSome = true) :
    ∀ (H : List (List (Option Str))) (k i : ℕ) (cols : List Str), (∀ r ∈ H, r.headD none = none ∧ r.length = n) → H.length < k → 1 ≤ i → cols.length = n →
    headLoop k i (H ++ d :: ds) cols =
      .ok (i + H.length, (List.range n).map (fun j => cols.getD j [] ++ (H.map (fun r => (r.getD j none).getD [])).flatMap (fun x => ' ' :: x))) := by
  intro H
  induction H with
  | nil =>
    intro k i cols _ hk hi hc
    obtain ⟨k, rfl⟩ : ∃ k', k = k' + 1 := ⟨k - 1, by simp only [List.length_nil] at hk; omega⟩
    rw [List.nil_append, headLoop, if_pos hd]
    simp only [List.length_nil, Nat.add_zero, List.map_nil, List.flatMap_nil, List.append_nil, Except.ok.injEq, Prod.mk.injEq, true_and]
    apply List.ext_getElem?
    intro j
    rw [List.getElem?_map]
    by_cases hj : j < n
    · rw [List.getElem?_range hj, List.getElem?_eq_getElem (by omega)]
      simp [List.getD_eq_getElem?_getD, List.getElem?_eq_getElem (show j < cols.length by omega)]
    · rw [List.getElem?_eq_none (by omega), List.getElem?_eq_none (by rw [List.length_range]; omega)]
      rfl
  | cons r H ih =>
    intro k i cols h hk hi hc
    obtain ⟨k, rfl⟩ : ∃ k', k = k' + 1 := ⟨k - 1, by omega⟩
    obtain ⟨h1, h2⟩ := h r (by simp)
    rw [List.cons_append, headLoop, if_neg (by rw [h1]; simp), if_neg (by omega)]
    rw [ih k (i + 1) _ (fun x hx => h x (by simp [hx])) (by simp only [List.length_cons] at hk; omega) (by omega) (by simp [hc, h2])]
    simp only [List.length_cons, Except.ok.injEq, Prod.mk.injEq]
    refine ⟨by omega, ?_⟩
    apply List.map_congr_left
    intro j hj
    have hj : j < n := List.mem_range.1 hj
    simp only [List.map_cons, List.flatMap_cons]
    rw [List.getD_eq_getElem?_getD, List.getElem?_zipWith, List.getElem?_eq_getElem (show j < cols.length by omega),
      List.getElem?_eq_getElem (show j < r.length by omega)]
    simp [List.getD_eq_getElem?_getD, List.getElem?_eq_getElem (show j < cols.length by omega), List.getElem?_eq_getElem (show j < r.length by omega)]

theorem headLoop_ok {W : List ℕ} {H : List Str} {d : List (Option Str)} {ds : List (List (Option Str))} (hd : (d.headD none).isSome = true)
    (hH : ∀ l ∈ H, (fields W l).headD none = none) (h0 : H ≠ []) (h9 : H.length ≤ 9) :
    headLoop 10 0 (H.map (fields W) ++ d :: ds) [] = .ok (H.length, titlesOf W H) := by
  cases H with
  | nil => exact absurd rfl h0
  | cons l H =>
    have h1 := hH l (by simp)
    rw [List.map_cons, List.cons_append, headLoop, if_neg (by rw [h1]; simp), if_pos rfl]
    rw [headLoop_go W.length d ds hd (H.map (fields W)) 9 (0 + 1) _ ?_ ?_ (Nat.le_refl 1) ?_]
    · simp only [List.length_map, List.length_cons, Except.ok.injEq, Prod.mk.injEq]
      refine ⟨by omega, ?_⟩
      unfold titlesOf
      apply List.map_congr_left
      intro j hj
      simp only [List.map_cons, joinB, List.map_map]
      congr 1
      unfold cellOf
      rw [List.getD_eq_getElem?_getD, List.getElem?_map, List.getD_eq_getElem?_getD]
      cases (fields W l)[j]? <;> rfl
    · intro r hr
      obtain ⟨x, hx, rfl⟩ := List.mem_map.1 hr
      exact ⟨hH x (by simp [hx]), fields_length _ _⟩
    · simp only [List.length_map, List.length_cons] at h9 ⊢; omega
    · rw [List.length_map, fields_length]

/-! ### C87 -/

/-- the position of a table that a user asks for: from the beginning, or negative from the end (specification) -/
def Asks (len : ℕ) (idx : ℤ) (k : ℕ) : Prop := k < len ∧ (idx = k ∨ idx = (k : ℤ) - len)

theorem pick_ok {α : Type} (l : List α) {idx : ℤ} {k : ℕ} (h : Asks l.length idx k) :
    (if 0 ≤ idx then l[idx.toNat]? else if (-idx).toNat ≤ l.length then l[l.length - (-idx).toNat]? else none) = l[k]? := by
  obtain ⟨h1, h2 | h2⟩ := h
  · rw [if_pos (by omega)]
    congr 1; omega
  · rw [if_neg (by omega), if_pos (by omega)]
    congr 1; omega

/-- `table_exact_partial` when the lines after the printings begin another one that is not finished -/
theorem table_exact_open {ahead n : ℕ} {segs : List Seg} {s t : Seg} {tail : List Str} (h : ∀ t ∈ segs ++ [s], t.Ok n) (ht : Open n tail)
    {rs : List Str} {r b : Str} (hr : s.rows = rs ++ [r, b]) {idx : ℤ} {k : ℕ} (hk : Asks (segs.length + 1) idx k) (hkt : (segs ++ [s])[k]? = some t)
    {H D : List Str} (hl : Layout (fwfWidths r) t.rows H D) (ha : 1 ≤ ahead) (ha2 : ahead ≤ H.length + D.length) :
    getTable ahead n idx (fileOf (segs ++ [s]) tail) =
      .ok (dropEmpty ⟨titlesOf (fwfWidths r) H, D.map (fields (fwfWidths r))⟩) := by
  obtain ⟨b0, B, b', hrows, hb, hb', hB, hB1, hH0, hH9, hD0, hH, hD⟩ := hl
  unfold getTable
  rw [loopW_file_open h ht hr]
  have hlen : (instsAt 0 (segs ++ [s])).length = segs.length + 1 := by rw [instsAt_length]; simp
  cases hi : instsAt 0 (segs ++ [s]) with
  | nil => rw [hi] at hlen; simp at hlen
  | cons i0 is =>
    simp only
    rw [← hi, pick_ok _ (by rw [hlen]; exact hk), instsAt_get, hkt]
    simp only [Option.map_some, Nat.zero_add]
    obtain ⟨post, hpost⟩ := drop_title (segs ++ [s]) tail hkt
    unfold readFwf
    have hn : (instAt ((((segs ++ [s]).take k).flatMap Seg.lines).length) t).nrows = ((H.length + B.length + D.length : ℕ) : ℤ) := by
      unfold instAt
      simp only [hrows, List.length_cons, List.length_append, List.length_nil]
      push_cast; omega
    rw [hn, hpost, if_neg (by omega), Int.toNat_natCast]
    have hmap : (t.rows ++ (t.total :: post)).map (fields (fwfWidths r)) =
        fields (fwfWidths r) b0 :: (H.map (fields (fwfWidths r)) ++ (B.map (fields (fwfWidths r)) ++ (D.map (fields (fwfWidths r)) ++
          (fields (fwfWidths r) b' :: fields (fwfWidths r) t.total :: post.map (fields (fwfWidths r)))))) := by
      rw [hrows]; simp
    rw [hmap]
    have key := rows_read ahead (fields (fwfWidths r) b0) (fields (fwfWidths r) b') (fields (fwfWidths r) t.total) (H.map (fields (fwfWidths r)))
      (B.map (fields (fwfWidths r))) (D.map (fields (fwfWidths r))) (post.map (fields (fwfWidths r))) ha (by simpa using ha2) (fields_blank _ hb)
      (fields_blank _ hb') (by intro x hx; obtain ⟨y, hy, rfl⟩ := List.mem_map.1 hx; exact fields_blank _ (hB y hy)) (by simpa using hB1)
      (by intro x hx; obtain ⟨y, hy, rfl⟩ := List.mem_map.1 hx; exact (hH y hy).2)
      (by intro x hx; obtain ⟨y, hy, rfl⟩ := List.mem_map.1 hx; exact full_of_head (hD y hy)) (by simpa using hD0)
    simp only [List.length_map] at key ⊢
    obtain ⟨key1, key2⟩ := key
    rw [if_neg key1]
    have hread : ∀ (q : List (List (Option Str)) × List (List (Option Str))) (N : ℕ) (X : List (List (Option Str))),
        (if N ≤ q.1.length then q.1.take N else q.1 ++ (q.2.take (N - q.1.length)).filter full) = X →
        (if N ≤ q.1.length then Except.ok (ε := PyErr) (q.1.take N) else .ok (q.1 ++ (q.2.take (N - q.1.length)).filter full)) = .ok X := by
      intro q N X hX
      by_cases hq : N ≤ q.1.length
      · rw [if_pos hq] at hX ⊢; rw [hX]
      · rw [if_neg hq] at hX ⊢; rw [hX]
    rw [hread _ _ _ key2]
    simp only
    unfold makeFrame
    cases D with
    | nil => exact absurd rfl hD0
    | cons d D =>
      rw [List.map_cons, headLoop_ok (hD d (by simp)) (fun l hl => (hH l hl).1) hH0 hH9]
      simp only
      rw [if_neg (by simp [titlesOf])]
      have : (H.map (fields (fwfWidths r)) ++ fields (fwfWidths r) d :: D.map (fields (fwfWidths r))).drop H.length =
          fields (fwfWidths r) d :: D.map (fields (fwfWidths r)) := by
        rw [show H.length = (H.map (fields (fwfWidths r))).length by simp, List.drop_left]
      rw [this]

/-- **C87.** In an output with any number of printings of table `n`, `get_table(n, idx)` gives the printing asked for, if it is laid out as MCNP
does: the columns have the texts of the header lines as titles, the rows are the rows of the table, cut at the widths `W`, columns without any text left
out. The widths are those of the last row of the LAST printing in the file. -/
theorem table_exact_partial {ahead n : ℕ} {segs : List Seg} {s t : Seg} {tail : List Str} (h : ∀ t ∈ segs ++ [s], t.Ok n) (ht : ∀ l ∈ tail, ¬ mark n <:+: l)
    {rs : List Str} {r b : Str} (hr : s.rows = rs ++ [r, b]) {idx : ℤ} {k : ℕ} (hk : Asks (segs.length + 1) idx k) (hkt : (segs ++ [s])[k]? = some t)
    {H D : List Str} (hl : Layout (fwfWidths r) t.rows H D) (ha : 1 ≤ ahead) (ha2 : ahead ≤ H.length + D.length) :
    getTable ahead n idx (fileOf (segs ++ [s]) tail) =
      .ok (dropEmpty ⟨titlesOf (fwfWidths r) H, D.map (fields (fwfWidths r))⟩) :=
  table_exact_open h (open_quiet ht) hr hk hkt hl ha ha2

/-- **C87 (refused).** A table that is not in the output is refused with `ValueError`, a printing that is not there with `IndexError`. -/
theorem table_refused {ahead n : ℕ} (idx : ℤ) :
    (∀ lines : List Str, (∀ l ∈ lines, ¬ mark n <:+: l) → getTable ahead n idx lines = .error .valueError) ∧
    (∀ (segs : List Seg) (s : Seg) (tail : List Str), (∀ t ∈ segs ++ [s], t.Ok n) → (∀ l ∈ tail, ¬ mark n <:+: l) → 2 ≤ s.rows.length →
      (∀ k, ¬ Asks (segs.length + 1) idx k) → getTable ahead n idx (fileOf (segs ++ [s]) tail) = .error .indexError) := by
  constructor
  · intro lines h
    have := loopW_quiet n lines 0 lines [] [] [] h
    rw [List.append_nil] at this
    unfold getTable
    rw [this, tableLoopW]
  · intro segs s tail h ht h2 hn
    obtain ⟨rs, r, b, hr⟩ : ∃ rs r b, s.rows = rs ++ [r, b] := by
      refine ⟨s.rows.take (s.rows.length - 2), s.rows[s.rows.length - 2], s.rows[s.rows.length - 1], ?_⟩
      conv_lhs => rw [← List.take_append_drop (s.rows.length - 2) s.rows]
      congr 1
      rw [List.drop_eq_getElem_cons (by omega), List.drop_eq_getElem_cons (by omega)]
      have e1 : s.rows.length - 2 + 1 = s.rows.length - 1 := by omega
      have e2 : s.rows.drop (s.rows.length - 2 + 1 + 1) = [] := List.drop_eq_nil_of_le (by omega)
      rw [e2]
      simp only [e1]
    unfold getTable
    rw [loopW_file h ht hr]
    have hlen : (instsAt 0 (segs ++ [s])).length = segs.length + 1 := by rw [instsAt_length]; simp
    cases hi : instsAt 0 (segs ++ [s]) with
    | nil => rw [hi] at hlen; simp at hlen
    | cons i0 is =>
      simp only
      rw [← hi, hlen]
      by_cases h0 : 0 ≤ idx
      · rw [if_pos h0, List.getElem?_eq_none]
        rw [hlen]
        by_contra hc
        exact hn idx.toNat ⟨by omega, Or.inl (by omega)⟩
      · rw [if_neg h0]
        by_cases h1 : (-idx).toNat ≤ segs.length + 1
        · exact absurd ⟨by omega, Or.inr (by omega)⟩ (hn (segs.length + 1 - (-idx).toNat))
        · rw [if_neg h1]

end F4Enix.Outp
