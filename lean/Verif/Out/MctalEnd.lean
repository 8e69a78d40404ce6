import Verif.Out.MctalRead
import Verif.Out.MctalFrameProps
/-!
# From the MCTAL file to the data frame (C103)

The theorems of C102 (what the reader returns) and C62 (what the frame shows) put together: every value of
the file is in the data frame under the labels of the file — except in radiographs.
-/
namespace F4Enix.Mctal
open F4Enix

/-- a section says the boundary of each of its bins; a total bin has none, and an axis without bins
(count 0) has one value -/
def Sec.Full (s : Sec) : Prop :=
  0 ≤ s.count ∧ (s.bins.length : ℤ) = (if s.mark = none then s.count else s.count - 1)

/-- the label of bin `i` of a section: the boundary in the file, NaN for an axis without bins (specification) -/
def Sec.labelOf (s : Sec) (i : Nat) : Val := .num (if s.bins = [] then none else s.bins.getD i none)

/-- a bin that is not the total of its section (specification) -/
def Sec.Plain (s : Sec) (i : Nat) : Prop :=
  if s.mark = none then i < bins1 s.count else i + 1 < bins1 s.count

theorem sec_label {s : Sec} (h : s.Full) {i : Nat} (hi : s.Plain i) :
    HasLabel (s.bins.map Val.num) i (s.labelOf i) := by
  obtain ⟨h0, h1⟩ := h
  unfold Sec.Plain bins1 at hi
  unfold HasLabel Sec.labelOf
  by_cases hb : s.bins = []
  · left
    rw [hb] at h1
    simp only [List.length_nil] at h1
    refine ⟨by rw [hb]; rfl, ?_, by rw [if_pos hb]⟩
    split_ifs at hi h1 <;> omega
  · right
    rw [if_neg hb]
    have hl : i < s.bins.length := by
      have := List.length_pos_of_ne_nil hb
      split_ifs at hi h1 <;> omega
    rw [List.getElem?_map, List.getD_eq_getElem?_getD, List.getElem?_eq_getElem hl]
    rfl

/-- the labels of the cells: their numbers, and `Input k` for a cell with number zero -/
theorem cellLabels_spec {cs : List Num} {ls : List Val} {k : Nat} (h : cellLabels k cs = .ok ls) :
    ls.length = cs.length ∧ ∀ (i : Nat) (q : ℚ), cs[i]? = some (some q) →
      ls[i]? = some (if truncQ q = 0 then Val.str ("Input ".toList ++ natStr (k + i + 1))
        else Val.num (some (truncQ q : ℚ))) := by
  induction cs generalizing k ls with
  | nil =>
    simp only [cellLabels, Except.ok.injEq] at h
    subst h
    simp
  | cons c cs ih =>
    cases c with
    | none => simp [cellLabels] at h
    | some q =>
      simp only [cellLabels] at h
      cases hr : cellLabels (k + 1) cs with
      | error e => rw [hr] at h; simp at h
      | ok r =>
        rw [hr] at h
        simp only [Except.ok.injEq] at h
        subst h
        obtain ⟨h1, h2⟩ := ih hr
        refine ⟨by simp [h1], ?_⟩
        intro i q' hi
        cases i with
        | zero =>
          rw [List.getElem?_cons_zero] at hi ⊢
          cases hi
          rfl
        | succ i =>
          rw [List.getElem?_cons_succ] at hi ⊢
          rw [h2 i q' hi, show k + 1 + i + 1 = k + (i + 1) + 1 by omega]

/-- `int` of an integer is the integer -/
theorem truncQ_int (z : ℤ) : truncQ (z : ℚ) = z := by
  simp [truncQ]

/-- the label of a cell of the file (specification) -/
def Doc.cellLabel (d : Doc) (i : Nat) : Val :=
  if d.detectorType ≤ -1 then (if d.number % 10 = 5 then .num (some 1) else .num none)
  else if d.nCells = 0 then .num none
  else if d.number % 10 = 5 then .num (some ((i : ℚ) + 1))
  else match d.cells.getD i none with
    | none => .num none
    | some q => if truncQ q = 0 then .str ("Input ".toList ++ natStr (i + 1)) else .num (some (truncQ q : ℚ))

theorem range_label (n : ℤ) (i : Nat) (h : i < bins1 n) :
    HasLabel (rangeLabels n) i (if n ≤ 0 then .num none else .num (some (i : ℚ))) := by
  unfold HasLabel rangeLabels
  unfold bins1 at h
  by_cases hn : n ≤ 0
  · left
    rw [if_pos hn]
    have : n.toNat = 0 := by omega
    rw [this]
    refine ⟨rfl, ?_, rfl⟩
    split_ifs at h <;> omega
  · right
    rw [if_neg hn]
    rw [if_neg (by omega)] at h
    rw [List.getElem?_map, List.getElem?_range h]
    rfl

/-- **C103.** For every tally that is not a radiograph and whose sections list the boundaries of their
bins: each bin of the file (other than a total) has a row in the data frame showing, in the columns present,
the cell, segment number, boundaries and the very pair of words at the position of the bin in the file. Partial: Proved for every tally that is no radiograph and lists its boundaries; the full claim is false: radiograph_columns_lost. -/
theorem frame_of_file_partial {num : ParseNum} {d : Doc} {t : Tally} (ht : Holds num d t) (hr : ¬ d.isRadio)
    (hu : d.usr.Full) (hc : d.cos.Full) (he : d.erg.Full) (hn : d.tim.Full)
    (hcells : ¬ d.isMesh → d.number % 10 ≠ 5 → (d.cells.length : ℤ) = d.nCells)
    {lk lk' : Leak} {fr : Frame} {tf : Option Frame} (hf : tallyFrame t lk = .ok (fr, tf, lk'))
    {f dd u s m c e n i j k : Nat} (hb : IsBin t.shape [f, dd, u, s, m, c, e, n, i, j, k])
    (pu : d.usr.Plain u) (pc : d.cos.Plain c) (pe : d.erg.Plain e) (pn : d.tim.Plain n)
    (ps : d.seg.mark = some 't' → (s : ℤ) + 1 < d.seg.count) :
    ∃ r ∈ fr.rows,
      (.cells ∈ fr.cols → r.2 .cells = d.cellLabel f) ∧ (.user ∈ fr.cols → r.2 .user = d.usr.labelOf u) ∧
      (.segments ∈ fr.cols → r.2 .segments = .num (some ((s : ℚ) + 1))) ∧
      (.cosine ∈ fr.cols → r.2 .cosine = d.cos.labelOf c) ∧ (.energy ∈ fr.cols → r.2 .energy = d.erg.labelOf e) ∧
      (.time ∈ fr.cols → r.2 .time = d.tim.labelOf n) ∧
      (.value ∈ fr.cols → r.2 .value =
        .num (pairNo num d.vals (position t.shape [f, dd, u, s, m, c, e, n, i, j, k])).1) ∧
      (.error ∈ fr.cols → r.2 .error =
        .num (pairNo num d.vals (position t.shape [f, dd, u, s, m, c, e, n, i, j, k])).2) := by
  obtain ⟨cs, _, hcs, _⟩ := tallyFrame_ok hf
  have hv := ht.vals _ hb
  have hsh := ht.shape
  have hr' : ¬ 3 ≤ d.detectorType := hr
  obtain ⟨_, hb'⟩ := hb
  rw [hsh] at hb'
  simp only [Doc.shape, List.forall₂_cons, List.forall₂_nil_left_iff, and_true] at hb'
  obtain ⟨b1, b2, b3, b4, b5, b6, b7, b8, b9, b10, b11⟩ := hb'
  obtain ⟨hlen, hlab⟩ := cellLabels_spec hcs
  -- the cell
  have hfl : HasLabel cs f (d.cellLabel f) := by
    unfold Doc.cellLabel
    by_cases hm : d.detectorType ≤ -1
    · rw [if_pos hm] at b1
      obtain rfl : f = 0 := by omega
      rw [if_pos hm]
      have hmc := ht.meshCells hm
      by_cases h5 : d.number % 10 = 5
      · rw [if_pos h5] at hmc ⊢
        right
        rw [hmc] at hlab
        have := hlab 0 1 rfl
        rw [this]
        decide +kernel
      · rw [if_neg h5] at hmc ⊢
        left
        rw [hmc] at hlen
        exact ⟨List.length_eq_zero_iff.1 hlen, rfl, rfl⟩
    · rw [if_neg hm] at b1 ⊢
      have htc := ht.cells hm
      unfold bins1 at b1
      by_cases h5 : d.number % 10 = 5
      · rw [if_pos h5] at htc
        by_cases h0 : d.nCells = 0
        · rw [if_pos h0] at b1 ⊢
          left
          rw [htc, h0] at hlen
          exact ⟨List.length_eq_zero_iff.1 (by simpa using hlen), by omega, rfl⟩
        · rw [if_neg h0] at b1 ⊢
          rw [if_pos h5]
          right
          have hq : t.cells[f]? = some (some ((f : ℚ) + 1)) := by
            rw [htc, List.getElem?_map, List.getElem?_range b1]; rfl
          rw [hlab f _ hq]
          have e1 : truncQ ((f : ℚ) + 1) = (f : ℤ) + 1 := by
            have := truncQ_int ((f : ℤ) + 1)
            rw [← this]; push_cast; rfl
          rw [e1, if_neg (by omega)]
          push_cast
          rfl
      · rw [if_neg h5] at htc
        have hcl := hcells hm h5
        by_cases h0 : d.nCells = 0
        · rw [if_pos h0] at b1 ⊢
          left
          rw [htc] at hlen
          exact ⟨List.length_eq_zero_iff.1 (by omega), by omega, rfl⟩
        · rw [if_neg h0] at b1 ⊢
          rw [if_neg h5]
          right
          have hlt : f < d.cells.length := by omega
          have hg : d.cells[f]? = some d.cells[f] := List.getElem?_eq_getElem hlt
          rw [List.getD_eq_getElem?_getD, hg]
          simp only [Option.getD_some]
          cases hq : d.cells[f] with
          | none =>
            exfalso
            -- a NaN cell makes the labels fail
            have key : ∀ (cs : List Num) (k : Nat) (ls : List Val), cellLabels k cs = .ok ls → none ∉ cs := by
              intro cs
              induction cs with
              | nil => intro k ls _; simp
              | cons c cs ih =>
                intro k ls h
                cases c with
                | none => simp [cellLabels] at h
                | some q =>
                  simp only [cellLabels] at h
                  cases hr : cellLabels (k + 1) cs with
                  | error e => rw [hr] at h; simp at h
                  | ok r => have := ih _ _ hr; simp [this]
            refine key _ _ _ hcs ?_
            rw [htc, ← hq]
            exact List.getElem_mem hlt
          | some q =>
            simp only
            rw [hlab f q (by rw [htc, hg, hq]), Nat.zero_add]
  have hcor : ∀ (l : List Num) (a : Nat), a < l.length ∨ (l = [] ∧ a = 0) →
      HasLabel (l.map Val.num) a (.num (if l = [] then none else l.getD a none)) := by
    intro l a h
    rcases h with h | ⟨rfl, rfl⟩
    · right
      rw [List.getElem?_map, List.getElem?_eq_getElem h, if_neg (by rintro rfl; simp at h),
        List.getD_eq_getElem?_getD, List.getElem?_eq_getElem h]
      rfl
    · left; exact ⟨rfl, rfl, rfl⟩
  have hijk : (i < t.cora.length ∨ (t.cora = [] ∧ i = 0)) ∧ (j < t.corb.length ∨ (t.corb = [] ∧ j = 0)) ∧
      (k < t.corc.length ∨ (t.corc = [] ∧ k = 0)) := by
    by_cases hm : d.detectorType ≤ -1
    · rw [if_pos hm] at b9 b10 b11
      obtain ⟨q1, q2, q3⟩ := ht.cora hm
      rw [q1, q2, q3]
      simp only [List.length_dropLast]
      exact ⟨Or.inl b9, Or.inl b10, Or.inl b11⟩
    · rw [if_neg hm] at b9 b10 b11
      obtain ⟨q1, q2, q3⟩ := ht.noCor hm
      exact ⟨Or.inr ⟨q1, by omega⟩, Or.inr ⟨q2, by omega⟩, Or.inr ⟨q3, by omega⟩⟩
  obtain ⟨x1, x2, x3⟩ := hijk
  obtain ⟨u1, u2, u3⟩ := ht.usr
  obtain ⟨c1, c2, _, c3⟩ := ht.cos
  obtain ⟨e1, e2, _, e3⟩ := ht.erg
  obtain ⟨n1, n2, _, n3⟩ := ht.tim
  obtain ⟨s1, s2, _⟩ := ht.seg
  obtain ⟨m1, m2⟩ := ht.mul
  rw [if_neg hr'] at c3
  let b : BinOf :=
    { f := f, d := dd, u := u, s := s, m := m, c := c, e := e, n := n, i := i, j := j, k := k
      fn := d.cellLabel f, dn := if t.nDir ≤ 0 then .num none else .num (some (dd : ℚ))
      un := d.usr.labelOf u, mn := if t.nMul ≤ 0 then .num none else .num (some (m : ℚ))
      cn := d.cos.labelOf c, en := d.erg.labelOf e, nn := d.tim.labelOf n
      an := .num (if t.cora = [] then none else t.cora.getD i none)
      bn := .num (if t.corb = [] then none else t.corb.getD j none)
      kn := .num (if t.corc = [] then none else t.corc.getD k none) }
  have hb : b.Ok t cs := by
    refine ⟨hfl, range_label t.nDir dd (by rw [ht.nDir]; exact b2), ?_, ?_, range_label t.nMul m (by rw [m1]; exact b5),
      ?_, ?_, ?_, hcor _ _ x1, hcor _ _ x2, hcor _ _ x3⟩
    · rw [u3]; exact sec_label hu pu
    · show (s : ℤ) < segCount t
      unfold segCount
      rw [s1, s2]
      unfold bins1 at b4
      by_cases hmk : d.seg.mark = some 't'
      · have := ps hmk
        rw [if_pos hmk]
        split_ifs at b4 ⊢ <;> omega
      · rw [if_neg hmk]
        split_ifs at b4 ⊢ <;> omega
    · rw [c3]; exact sec_label hc pc
    · rw [e3]; exact sec_label he pe
    · rw [n3]; exact sec_label hn pn
  obtain ⟨r, hr, h1, h2, h3⟩ := frame_complete hf hcs b hb
  refine ⟨r, hr, fun h => h1 _ h rfl, fun h => h1 _ h rfl, fun h => h1 _ h rfl, fun h => h1 _ h rfl,
    fun h => h1 _ h rfl, fun h => h1 _ h rfl, fun h => ?_, fun h => ?_⟩
  · rw [h2 h, show b.idx = [f, dd, u, s, m, c, e, n, i, j, k] from rfl, hv]
  · rw [h3 h, show b.idx = [f, dd, u, s, m, c, e, n, i, j, k] from rfl, hv]

/-- **C103 (false for radiographs).** A radiograph with `n ≥ 3` columns lists their `n + 1` boundaries. In its
data frame every row that is not a total row belongs to one of the first `n - 2` columns: the last two
columns of the image are in no row, although the file has their values. -/
theorem radiograph_columns_lost {num : ParseNum} {d : Doc} {t : Tally} (ht : Holds num d t) (hr : d.isRadio)
    {w : Nat} (hw : 3 ≤ w) (hcount : d.cos.count = w) (hlist : d.cos.bins.length = w + 1)
    {lk lk' : Leak} {fr : Frame} {tf : Option Frame} {cs : List Val} (hf : tallyFrame t lk = .ok (fr, tf, lk'))
    (hcs : cellLabels 0 t.cells = .ok cs) :
    t.shape[5]? = some w ∧
    ∀ r ∈ fr.rows, (∃ b : BinOf, b.Ok t cs ∧ b.c < w - 2 ∧ r.2 .cosine = .num (d.cos.bins.getD b.c none) ∧
        r.2 .value = .num (t.vals b.idx).1) ∨ ∃ c, totalCol t = some c ∧ r.2 c = totalVal := by
  have hr' : 3 ≤ d.detectorType := hr
  obtain ⟨_, _, _, hc⟩ := ht.cos
  rw [if_pos hr', hlist] at hc
  constructor
  · rw [ht.shape]
    show some (bins1 d.cos.count) = some w
    unfold bins1
    rw [hcount, if_neg (by omega)]
    simp
  · intro r hrow
    rcases (frame_sound hf hcs).1 r hrow with ⟨b, hb, h1, h2, _⟩ | ⟨c, f, fn, h1, _, h2, _⟩
    · left
      have hlen : t.cos.length = w - 2 := by rw [hc, List.length_take, hlist]; omega
      have hlab := hb.c
      unfold HasLabel at hlab
      rcases hlab with ⟨h0, _⟩ | h0
      · exfalso
        have : t.cos = [] := by simpa using h0
        rw [this] at hlen
        simp at hlen
        omega
      · rw [List.getElem?_map] at h0
        cases hg : t.cos[b.c]? with
        | none => rw [hg] at h0; simp at h0
        | some q =>
          rw [hg] at h0
          simp only [Option.map_some, Option.some.injEq] at h0
          have hlt : b.c < t.cos.length := by
            by_contra hcon
            rw [List.getElem?_eq_none (by omega)] at hg
            cases hg
          refine ⟨b, hb, by omega, ?_, h2⟩
          rw [h1 .cosine rfl]
          show b.cn = _
          rw [← h0]
          rw [hc, List.getElem?_take] at hg
          rw [if_pos (by rw [hlen] at hlt; omega)] at hg
          rw [List.getD_eq_getElem?_getD, hg]
          rfl
    · exact Or.inr ⟨c, h1, h2⟩

/-! ### examples -/

/-- the hypotheses of `frame_of_file_partial` are met by the cell tally of the example file, bin `e = 1` -/
example : (∃ t, Holds exFloat exDoc t ∧ ((tallyFrame t {}).toOption.isSome = true) ∧
    IsBin t.shape [0, 0, 0, 0, 0, 0, 1, 0, 0, 0, 0]) ∧
    ¬ exDoc.isRadio ∧ exDoc.usr.Full ∧ exDoc.cos.Full ∧ exDoc.erg.Full ∧ exDoc.tim.Full ∧
    exDoc.erg.Plain 1 ∧ exDoc.usr.Plain 0 := by
  refine ⟨⟨tally3 exDoc (fun i => pairNo exFloat exDoc.vals (position (tally2 exDoc).shape i)),
    holds (fun _ _ => rfl), by decide +kernel, ?_⟩, ?_⟩
  · exact ⟨by decide +kernel, by decide +kernel⟩
  · simp only [Doc.isRadio, Sec.Full, Sec.Plain]
    decide +kernel

/-- a radiograph of one row and three columns (example) -/
def exRadio : Doc :=
  { number := 5, typeNumber := -1, detectorType := 4, particles := [0, 1], comment := []
    nCells := 1, nDir := 1, usr := {}, seg := {}, mul := {}
    cos := { count := 3, bins := [some 0, some 1, some 2, some 3] }, erg := {}, tim := {}
    vals := ["5", "0", "6", "0", "7", "0"].map String.toList }

/-- the hypotheses of `radiograph_columns_lost` are met; the frame has one row instead of three -/
example : ∃ t, Holds exFloat exRadio t ∧ exRadio.isRadio ∧ exRadio.cos.count = (3 : ℕ) ∧
    exRadio.cos.bins.length = 3 + 1 ∧
    ((tallyFrame t {}).toOption.map (fun r => r.1.rows.map (fun q => q.2 .value))) = some [.num (some 5)] :=
  ⟨tally3 exRadio (fun i => pairNo exFloat exRadio.vals (position (tally2 exRadio).shape i)),
    holds (fun _ _ => rfl), by unfold Doc.isRadio; decide +kernel, by decide +kernel, by decide +kernel,
    by decide +kernel⟩

end F4Enix.Mctal
