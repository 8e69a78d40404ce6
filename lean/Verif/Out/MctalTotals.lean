import Verif.Out.MctalFrameProps
/-!
# Looking values up by labels, total frames and the error summary (C62-C65)
-/
namespace F4Enix.Mctal
open F4Enix

/-- labels of a list of bin boundaries: no NaN, no two equal (specification) -/
def CleanNums (l : List Num) : Prop := none ∉ l ∧ l.Nodup

/-- the bins of the tally are told apart by their labels (specification) -/
structure Clean (t : Tally) (cs : List Val) : Prop where
  cs : cs.Nodup
  usr : CleanNums t.usr
  cos : CleanNums t.cos
  erg : CleanNums t.erg
  tim : CleanNums t.tim
  cora : CleanNums t.cora
  corb : CleanNums t.corb
  corc : CleanNums t.corc
  /-- the axis that carries the total mark has labels -/
  mark : (t.timTC ≠ none → t.tim ≠ []) ∧ (t.ergTC ≠ none → t.erg ≠ []) ∧ (t.cosTC ≠ none → t.cos ≠ []) ∧
    (t.usrTC ≠ none → t.usr ≠ []) ∧ (t.mulTC ≠ none → 0 < t.nMul)

/-- the labels of the axis shown in a column (proof) -/
def labelsOf (t : Tally) (cs : List Val) : Col → List Val
  | .cells => cs
  | .dir => rangeLabels t.nDir
  | .user => t.usr.map Val.num
  | .segments => (segAxis t).map Prod.snd
  | .multiplier => rangeLabels t.nMul
  | .cosine => t.cos.map Val.num
  | .energy => t.erg.map Val.num
  | .time => t.tim.map Val.num
  | .corC => t.cora.map Val.num
  | .corB => t.corb.map Val.num
  | .corA => t.corc.map Val.num
  | .value => []
  | .error => []

/-- `posOf` (proof) -/
def posOf (b : BinOf) : Col → Nat
  | .cells => b.f
  | .dir => b.d
  | .user => b.u
  | .segments => b.s
  | .multiplier => b.m
  | .cosine => b.c
  | .energy => b.e
  | .time => b.n
  | .corC => b.i
  | .corB => b.j
  | .corA => b.k
  | .value => 0
  | .error => 0

/-- neither value nor error (specification) -/
def Col.isLabel (c : Col) : Prop := c ≠ .value ∧ c ≠ .error

theorem segAxis_get {t : Tally} {i : Nat} (h : (i : ℤ) < segCount t) :
    ((segAxis t).map Prod.snd)[i]? = some (.num (some ((i : ℚ) + 1))) := by
  have hi : i < ((if t.segTC = some 't' then atLeast1 t.nSeg - 1 else atLeast1 t.nSeg)).toNat := by
    unfold segCount at h
    unfold atLeast1
    split_ifs at h ⊢ <;> omega
  unfold segAxis
  rw [List.map_map, List.getElem?_map, List.getElem?_range hi]
  rfl

theorem row_hasLabel {t : Tally} {cs : List Val} {b : BinOf} (hb : b.Ok t cs) {c : Col} (hc : c.isLabel) :
    HasLabel (labelsOf t cs c) (posOf b c) (b.row t c) := by
  cases c with
  | cells => exact hb.f
  | dir => exact hb.d
  | user => exact hb.u
  | segments => exact Or.inr (segAxis_get hb.s)
  | multiplier => exact hb.m
  | cosine => exact hb.c
  | energy => exact hb.e
  | time => exact hb.n
  | corC => exact hb.i
  | corB => exact hb.j
  | corA => exact hb.k
  | value => exact absurd rfl hc.1
  | error => exact absurd rfl hc.2

theorem cellLabels_clean {i : Nat} {l : List Num} {cs : List Val} (h : cellLabels i l = .ok cs) :
    ∀ v ∈ cs, v.isNaN = false ∧ v ≠ totalVal := by
  induction l generalizing i cs with
  | nil => simp only [cellLabels, Except.ok.injEq] at h; rw [← h]; simp
  | cons x l ih =>
    cases x with
    | none => simp [cellLabels] at h
    | some q =>
      simp only [cellLabels] at h
      cases hl : cellLabels (i + 1) l with
      | error e => rw [hl] at h; simp at h
      | ok ls =>
        rw [hl] at h
        simp only [Except.ok.injEq] at h
        rw [← h]
        intro v hv
        rcases List.mem_cons.1 hv with hv | hv
        · subst hv
          split_ifs
          · refine ⟨rfl, ?_⟩
            unfold totalVal
            intro hh
            simp only [Val.str.injEq] at hh
            have := congrArg List.head? hh
            simp at this
          · exact ⟨rfl, by unfold totalVal; simp⟩
        · exact ih hl v hv

theorem labels_clean {t : Tally} {cs : List Val} (hcs : cellLabels 0 t.cells = .ok cs) (hcl : Clean t cs)
    (c : Col) : (labelsOf t cs c).Nodup ∧ ∀ v ∈ labelsOf t cs c, v.isNaN = false ∧ v ≠ totalVal := by
  have hnum : ∀ l : List Num, CleanNums l → (l.map Val.num).Nodup ∧
      ∀ v ∈ l.map Val.num, v.isNaN = false ∧ v ≠ totalVal := by
    intro l hl
    refine ⟨hl.2.map (fun a b h => Val.num.inj h), ?_⟩
    intro v hv
    obtain ⟨x, hx, rfl⟩ := List.mem_map.1 hv
    cases x with
    | none => exact absurd hx hl.1
    | some q => exact ⟨rfl, by unfold totalVal; simp⟩
  have hrange : ∀ n : ℤ, (rangeLabels n).Nodup ∧ ∀ v ∈ rangeLabels n, v.isNaN = false ∧ v ≠ totalVal := by
    intro n
    unfold rangeLabels
    refine ⟨List.nodup_range.map ?_, ?_⟩
    · intro a b h; simpa using h
    · intro v hv
      obtain ⟨x, hx, rfl⟩ := List.mem_map.1 hv
      exact ⟨rfl, by unfold totalVal; simp⟩
  cases c with
  | cells => exact ⟨hcl.cs, cellLabels_clean hcs⟩
  | dir => exact hrange _
  | user => exact hnum _ hcl.usr
  | segments =>
    unfold labelsOf segAxis
    rw [List.map_map]
    refine ⟨List.nodup_range.map ?_, ?_⟩
    · intro a b h; simpa using h
    · intro v hv
      obtain ⟨x, hx, rfl⟩ := List.mem_map.1 hv
      exact ⟨rfl, by unfold totalVal; simp⟩
  | multiplier => exact hrange _
  | cosine => exact hnum _ hcl.cos
  | energy => exact hnum _ hcl.erg
  | time => exact hnum _ hcl.tim
  | corC => exact hnum _ hcl.cora
  | corB => exact hnum _ hcl.corb
  | corA => exact hnum _ hcl.corc
  | value => simp [labelsOf]
  | error => simp [labelsOf]

theorem hasLabel_pos {ls : List Val} (hn : ls.Nodup) {i i' : Nat} {v : Val} (h : HasLabel ls i v)
    (h' : HasLabel ls i' v) : i = i' := by
  rcases h with ⟨h1, h2, h3⟩ | h <;> rcases h' with ⟨h1', h2', h3'⟩ | h'
  · omega
  · rw [h1] at h'; simp at h'
  · rw [h1'] at h; simp at h
  · have hi := (List.getElem?_eq_some_iff.1 h).1
    exact (List.getElem?_inj hi hn).1 (h.trans h'.symm)

theorem hasLabel_mem {ls : List Val} (hne : ls ≠ []) {i : Nat} {v : Val} (h : HasLabel ls i v) : v ∈ ls := by
  rcases h with ⟨h1, _⟩ | h
  · exact absurd h1 hne
  · exact List.mem_of_getElem? h

theorem lastLabel_enum (l : List Val) : lastLabel (enum (orNan l)) = .num none ∧ l = [] ∨ lastLabel (enum (orNan l)) ∈ l := by
  by_cases h : l = []
  · subst h; left; exact ⟨rfl, rfl⟩
  · right
    unfold orNan
    rw [if_neg h]
    unfold lastLabel enum
    obtain ⟨x, hx⟩ : ∃ x, l.zipIdx.getLast? = some x :=
      ⟨_, List.getLast?_eq_some_getLast (by simpa using h)⟩
    rw [List.getLast?_map, hx]
    exact List.fst_mem_of_mem_zipIdx (List.mem_of_getLast? hx)

/-- entries of a total row in the columns other than the total one -/
theorem total_entry {t : Tally} {lk : Leak} {cs : List Val} {f : Nat} {fn : Val} {r : Row}
    (hf : HasLabel cs f fn) (hseg : segAxis t ≠ []) (hr : TotalRowOf t (innerAxes t) lk (f, fn) r) (c : Col)
    (hc : c.isLabel) (hne : labelsOf t cs c ≠ []) :
    r c = totalVal ∨ r c ∈ labelsOf t cs c ∨ (r c).isNaN = false := by
  obtain ⟨d, x, h1, h2, h3⟩ := hr
  have hx : x = (lastLabel (segAxis t), lastIndex (enum (orNan (rangeLabels t.nMul))),
      lastLabel (enum (orNan (t.cos.map Val.num))), lastLabel (enum (orNan (t.erg.map Val.num))),
      lastLabel (enum (orNan (t.tim.map Val.num))), lastLabel (enum (orNan (t.cora.map Val.num))),
      lastLabel (enum (orNan (t.corb.map Val.num))), lastLabel (enum (orNan (t.corc.map Val.num)))) := by
    simp only [innerVars, innerAxes] at h2
    rw [if_neg hseg] at h2
    exact (Option.some.inj h2).symm
  rw [h3]
  unfold totalRow
  by_cases hcd : c = d
  · left; rw [if_pos hcd]
  · rw [if_neg hcd, hx]
    have hl : ∀ l : List Val, l ≠ [] → lastLabel (enum (orNan l)) ∈ l := by
      intro l hl
      rcases lastLabel_enum l with ⟨_, h⟩ | h
      · exact absurd h hl
      · exact h
    cases c with
    | cells => right; left; exact hasLabel_mem hne hf
    | dir => right; left; exact hl _ hne
    | user => right; left; exact hl _ hne
    | segments =>
      right; left
      show lastLabel (segAxis t) ∈ (segAxis t).map Prod.snd
      unfold lastLabel
      rw [List.getLast?_eq_some_getLast hseg]
      exact List.mem_map.2 ⟨_, List.getLast_mem hseg, rfl⟩
    | multiplier => right; right; rfl
    | cosine => right; left; exact hl _ hne
    | energy => right; left; exact hl _ hne
    | time => right; left; exact hl _ hne
    | corC => right; left; exact hl _ hne
    | corB => right; left; exact hl _ hne
    | corA => right; left; exact hl _ hne
    | value => exact absurd rfl hc.1
    | error => exact absurd rfl hc.2

theorem total_axis {t : Tally} {cs : List Val} (hcl : Clean t cs) (hseg : segAxis t ≠ []) {d : Col}
    (h : totalCol t = some d) : labelsOf t cs d ≠ [] ∧ d.isLabel := by
  obtain ⟨m1, m2, m3, m4, m5⟩ := hcl.mark
  unfold totalCol at h
  split_ifs at h with a1 a2 a3 a4 a5 a6 <;> cases h
  · exact ⟨by simpa [labelsOf] using m1 a1, by simp [Col.isLabel]⟩
  · exact ⟨by simpa [labelsOf] using m2 a2, by simp [Col.isLabel]⟩
  · exact ⟨by simpa [labelsOf] using hseg, by simp [Col.isLabel]⟩
  · exact ⟨by simpa [labelsOf] using m3 a4, by simp [Col.isLabel]⟩
  · exact ⟨by simpa [labelsOf] using m4 a5, by simp [Col.isLabel]⟩
  · refine ⟨?_, by simp [Col.isLabel]⟩
    have := m5 a6
    simp only [labelsOf, rangeLabels, ne_eq, List.map_eq_nil_iff, List.range_eq_nil]
    omega

/-- a label column with labels in which two rows differ is kept -/
theorem label_kept {t : Tally} {lk : Leak} {cs : List Val} {rs : List Row}
    (hcs : cellLabels 0 t.cells = .ok cs) (hcl : Clean t cs) (hseg : segAxis t ≠ [])
    (hrs : ∀ r, r ∈ rs ↔ (∃ b : BinOf, b.Ok t cs ∧ r = b.row t) ∨
        ∃ f fn, HasLabel cs f fn ∧ TotalRowOf t (innerAxes t) lk (f, fn) r)
    {c : Col} (hc : c.isLabel) (hne : labelsOf t cs c ≠ []) {r s : Row} (hr : r ∈ rs) (hs : s ∈ rs)
    (hd : r c ≠ s c) : c ∈ (reduced rs).cols := by
  rw [reduced_cols]
  refine ⟨?_, Or.inr (Or.inr (Or.inr ⟨r, hr, s, hs, hd⟩))⟩
  intro q hq
  have hclean := (labels_clean hcs hcl c).2
  rcases (hrs q).1 hq with ⟨b, hb, rfl⟩ | ⟨f, fn, hf, hq⟩
  · exact (hclean _ (hasLabel_mem hne (row_hasLabel hb hc))).1
  · rcases total_entry hf hseg hq c hc hne with h | h | h
    · rw [h]; rfl
    · exact (hclean _ h).1
    · exact h

theorem segAxis_ne {t : Tally} {cs : List Val} {b : BinOf} (hb : b.Ok t cs) : segAxis t ≠ [] := by
  intro h
  have := (mem_segAxis (t := t) (i := b.s)).2 ⟨hb.s, rfl⟩
  rw [h] at this
  simp at this

/-- **C62 (look-up).** If the labels tell the bins apart, then every row of the frame that shows the labels
of a bin in all label columns still present (see `coordinates_swapped` for the mesh coordinates) holds
the value and the error of that bin. -/
theorem lookup_exact {t : Tally} {lk lk' : Leak} {fr : Frame} {tf : Option Frame} {cs : List Val}
    (h : tallyFrame t lk = .ok (fr, tf, lk')) (hcs : cellLabels 0 t.cells = .ok cs) (hcl : Clean t cs)
    (b : BinOf) (hb : b.Ok t cs) (r : Nat × Row) (hr : r ∈ fr.rows)
    (hl : ∀ c ∈ fr.cols, c.plain = true → r.2 c = b.label c)
    (hA : .corA ∈ fr.cols → r.2 .corA = b.kn) (hC : .corC ∈ fr.cols → r.2 .corC = b.an) :
    r.2 .value = .num (t.vals b.idx).1 ∧ r.2 .error = .num (t.vals b.idx).2 := by
  obtain ⟨cs', rs, e1, rfl, _, _, hrs⟩ := tallyFrame_ok h
  rw [hcs] at e1
  cases e1
  have hseg := segAxis_ne hb
  have hrr := reduced_mem hr
  have hbr : b.row t ∈ rs := (hrs _).2 (Or.inl ⟨b, hb, rfl⟩)
  -- the row agrees with that of the bin on all label columns present
  have hag : ∀ c ∈ (reduced rs).cols, c.isLabel → r.2 c = b.row t c := by
    intro c hc hlab
    by_cases hp : c.plain = true
    · rw [hl c hc hp, row_plain b t c hp]
    · cases c <;> first | exact absurd rfl hp | skip
      · exact hC hc
      · exact hA hc
      · exact absurd rfl hlab.1
      · exact absurd rfl hlab.2
  -- hence on all label columns whose axis has labels
  have hag2 : ∀ c, c.isLabel → labelsOf t cs c ≠ [] → r.2 c = b.row t c := by
    intro c hlab hne
    by_contra hd
    exact hd (hag c (label_kept hcs hcl hseg hrs hlab hne hrr hbr hd) hlab)
  rcases (hrs r.2).1 hrr with ⟨a, ha, e⟩ | ⟨f, fn, hf, hq⟩
  · have hpos : ∀ c, c.isLabel → posOf a c = posOf b c := by
      intro c hc
      have h1 := row_hasLabel ha hc
      have h2 := row_hasLabel hb hc
      obtain ⟨n1, _⟩ := labels_clean hcs hcl c
      by_cases hne : labelsOf t cs c = []
      · rcases h1 with ⟨_, h1, _⟩ | h1
        · rcases h2 with ⟨_, h2, _⟩ | h2
          · omega
          · rw [hne] at h2; simp at h2
        · rw [hne] at h1; simp at h1
      · have := hag2 c hc hne
        rw [e] at this
        rw [this] at h1
        exact hasLabel_pos n1 h1 h2
    have hidx : a.idx = b.idx := by
      have q1 := hpos .cells (by simp [Col.isLabel])
      have q2 := hpos .dir (by simp [Col.isLabel])
      have q3 := hpos .user (by simp [Col.isLabel])
      have q4 := hpos .segments (by simp [Col.isLabel])
      have q5 := hpos .multiplier (by simp [Col.isLabel])
      have q6 := hpos .cosine (by simp [Col.isLabel])
      have q7 := hpos .energy (by simp [Col.isLabel])
      have q8 := hpos .time (by simp [Col.isLabel])
      have q9 := hpos .corC (by simp [Col.isLabel])
      have q10 := hpos .corB (by simp [Col.isLabel])
      have q11 := hpos .corA (by simp [Col.isLabel])
      simp only [posOf] at q1 q2 q3 q4 q5 q6 q7 q8 q9 q10 q11
      unfold BinOf.idx
      rw [q1, q2, q3, q4, q5, q6, q7, q8, q9, q10, q11]
    rw [e, ← hidx]
    exact ⟨rfl, rfl⟩
  · exfalso
    obtain ⟨d, x, h1, h2, h3⟩ := hq
    obtain ⟨n1, n2⟩ := total_axis hcl hseg h1
    have h4 : r.2 d = totalVal := by rw [h3]; simp [totalRow]
    have h5 := hag2 d n2 n1
    rw [h4] at h5
    exact ((labels_clean hcs hcl d).2 _ (hasLabel_mem n1 (row_hasLabel hb n2))).2 h5.symm

/-- **C62 (columns).** A column of labels is present whenever two bins have different labels in it; the
value and error columns are present whenever no value and no error is NaN. -/
theorem columns_kept {t : Tally} {lk lk' : Leak} {fr : Frame} {tf : Option Frame} {cs : List Val}
    (h : tallyFrame t lk = .ok (fr, tf, lk')) (hcs : cellLabels 0 t.cells = .ok cs) (hcl : Clean t cs) :
    (∀ a b : BinOf, a.Ok t cs → b.Ok t cs → ∀ c : Col, c.plain = true → a.label c ≠ b.label c → c ∈ fr.cols) ∧
    ((∀ idx, (t.vals idx).1 ≠ none) → .value ∈ fr.cols) ∧
    ((∀ idx, (t.vals idx).2 ≠ none) → .error ∈ fr.cols) := by
  obtain ⟨cs', rs, e1, rfl, _, _, hrs⟩ := tallyFrame_ok h
  rw [hcs] at e1
  cases e1
  have hnum : ∀ x : Num, x ≠ none → (Val.num x).isNaN = false := by
    intro x hx
    cases x with
    | none => exact absurd rfl hx
    | some q => rfl
  have hv : ∀ r ∈ rs, ∃ idx, r .value = .num (t.vals idx).1 ∧ r .error = .num (t.vals idx).2 := by
    intro r hr
    rcases (hrs r).1 hr with ⟨b, hb, e⟩ | ⟨f, fn, hf, c, x, h1, h2, h3⟩
    · exact ⟨b.idx, by rw [e]; rfl, by rw [e]; rfl⟩
    · have hne : ∀ k : Col, k = .value ∨ k = .error → k ≠ c := by
        intro k hk hkc
        subst hkc
        unfold totalCol at h1
        split_ifs at h1 <;> (rcases hk with hk | hk <;> subst hk <;> simp at h1)
      refine ⟨totalIdx t f, ?_, ?_⟩
      · rw [h3]; simp only [totalRow]; rw [if_neg (hne _ (Or.inl rfl))]; rfl
      · rw [h3]; simp only [totalRow]; rw [if_neg (hne _ (Or.inr rfl))]; rfl
  refine ⟨?_, ?_, ?_⟩
  · intro a b ha hb c hc hd
    have hlab : c.isLabel := by cases c <;> simp_all [Col.plain, Col.isLabel]
    rw [← row_plain a t c hc, ← row_plain b t c hc] at hd
    refine label_kept hcs hcl (segAxis_ne ha) hrs hlab ?_ ((hrs _).2 (Or.inl ⟨a, ha, rfl⟩))
      ((hrs _).2 (Or.inl ⟨b, hb, rfl⟩)) hd
    intro hnil
    have h1 := row_hasLabel ha hlab
    have h2 := row_hasLabel hb hlab
    rw [hnil] at h1 h2
    rcases h1 with ⟨_, _, h1⟩ | h1
    · rcases h2 with ⟨_, _, h2⟩ | h2
      · exact hd (h1.trans h2.symm)
      · simp at h2
    · simp at h1
  · intro hx
    rw [reduced_cols]
    refine ⟨?_, Or.inl rfl⟩
    intro r hr
    obtain ⟨idx, h1, _⟩ := hv r hr
    rw [h1]; exact hnum _ (hx idx)
  · intro hx
    rw [reduced_cols]
    refine ⟨?_, Or.inr (Or.inl rfl)⟩
    intro r hr
    obtain ⟨idx, _, h1⟩ := hv r hr
    rw [h1]; exact hnum _ (hx idx)

/-- **C63 (negation).** In every frame, of every tally, the column `Cor C` holds the coordinate of the
first mesh axis and the column `Cor A` that of the third. -/
theorem coordinates_swapped {t : Tally} {lk lk' : Leak} {fr : Frame} {tf : Option Frame} {cs : List Val}
    (h : tallyFrame t lk = .ok (fr, tf, lk')) (hcs : cellLabels 0 t.cells = .ok cs) (b : BinOf) (hb : b.Ok t cs) :
    ∃ r ∈ fr.rows, (∀ c ∈ fr.cols, c.plain = true → r.2 c = b.label c) ∧
      (.value ∈ fr.cols → r.2 .value = .num (t.vals b.idx).1) ∧
      (.corC ∈ fr.cols → r.2 .corC = b.an) ∧ (.corA ∈ fr.cols → r.2 .corA = b.kn) := by
  obtain ⟨cs', rs, e1, rfl, _, _, hrs⟩ := tallyFrame_ok h
  rw [hcs] at e1
  cases e1
  obtain ⟨s, hs, hsc⟩ := reduced_keeps ((hrs (b.row t)).2 (Or.inl ⟨b, hb, rfl⟩))
  refine ⟨s, hs, ?_, ?_, ?_, ?_⟩
  · intro c hc hp
    rw [hsc c hc, row_plain b t c hp]
  · intro hc; rw [hsc _ hc]; rfl
  · intro hc; rw [hsc _ hc]; rfl
  · intro hc; rw [hsc _ hc]; rfl

/-! ### C64: total frames -/

/-- **C64 (part that holds).** For a tally with a total mark on an axis with labels, the total frame
exists and consists of one total row per cell: it has, for every cell, a row with the last entry of the
value array of the cell, and nothing else. -/
theorem total_frame_partial {t : Tally} {lk lk' : Leak} {fr : Frame} {tf : Option Frame} {cs : List Val} {d : Col}
    (h : tallyFrame t lk = .ok (fr, tf, lk')) (hcs : cellLabels 0 t.cells = .ok cs) (hcl : Clean t cs)
    (hd : totalCol t = some d) (b : BinOf) (hb : b.Ok t cs) :
    ∃ g, tf = some g ∧ g.cols = fr.cols ∧
      (∀ f fn, HasLabel cs f fn → ∃ r ∈ g.rows, (.cells ∈ g.cols → r.2 .cells = fn) ∧
        (.value ∈ g.cols → r.2 .value = .num (t.vals (totalIdx t f)).1) ∧
        (.error ∈ g.cols → r.2 .error = .num (t.vals (totalIdx t f)).2)) ∧
      (∀ r ∈ g.rows, ∃ f fn, HasLabel cs f fn ∧ r.2 .cells = fn ∧ r.2 .value = .num (t.vals (totalIdx t f)).1 ∧
        r.2 .error = .num (t.vals (totalIdx t f)).2) := by
  obtain ⟨cs', rs, e1, rfl, htf, hlk, hrs⟩ := tallyFrame_ok h
  rw [hcs] at e1
  cases e1
  rw [hd] at hlk
  simp only at hlk
  have hseg := segAxis_ne hb
  obtain ⟨n1, n2⟩ := total_axis hcl hseg hd
  obtain ⟨x, hx⟩ : ∃ x, innerVars (innerAxes t) lk.inner = some x := by
    simp only [innerVars, innerAxes]
    rw [if_neg hseg]
    exact ⟨_, rfl⟩
  let tr : Nat → Val → Row := fun f fn =>
    totalRow fn (lastLabel ((innerAxes t).getD 0 [])) (lastLabel ((innerAxes t).getD 1 [])) x d
      (t.vals (totalIdx t f))
  have htr : ∀ f fn, HasLabel cs f fn → tr f fn ∈ rs := by
    intro f fn hf
    exact (hrs _).2 (Or.inr ⟨f, fn, hf, d, x, hd, hx, rfl⟩)
  have hkept : d ∈ (reduced rs).cols := by
    refine label_kept hcs hcl hseg hrs n2 n1 ((hrs _).2 (Or.inl ⟨b, hb, rfl⟩)) (htr b.f b.fn hb.f) ?_
    have e : tr b.f b.fn d = totalVal := by simp [tr, totalRow]
    rw [e]
    exact ((labels_clean hcs hcl d).2 _ (hasLabel_mem n1 (row_hasLabel hb n2))).2
  have hne : ∀ k : Col, k = .cells ∨ k = .value ∨ k = .error → k ≠ d := by
    intro k hk hkc
    subst hkc
    unfold totalCol at hd
    split_ifs at hd <;> (rcases hk with hk | hk | hk <;> subst hk <;> simp at hd)
  have hent : ∀ f fn, tr f fn .cells = fn ∧ tr f fn .value = .num (t.vals (totalIdx t f)).1 ∧
      tr f fn .error = .num (t.vals (totalIdx t f)).2 ∧ tr f fn d = totalVal := by
    intro f fn
    refine ⟨?_, ?_, ?_, ?_⟩
    · simp only [tr, totalRow]; rw [if_neg (hne _ (Or.inl rfl))]; rfl
    · simp only [tr, totalRow]; rw [if_neg (hne _ (Or.inr (Or.inl rfl)))]; rfl
    · simp only [tr, totalRow]; rw [if_neg (hne _ (Or.inr (Or.inr rfl)))]; rfl
    · simp [tr, totalRow]
  refine ⟨⟨(reduced rs).cols, (reduced rs).rows.filter (fun r => decide (r.2 d = totalVal))⟩, ?_, rfl, ?_, ?_⟩
  · rw [htf, hlk]
    simp only [totalFrame]
    rw [if_pos hkept]
  · intro f fn hf
    obtain ⟨s, hs, hsc⟩ := reduced_keeps (htr f fn hf)
    obtain ⟨q1, q2, q3, q4⟩ := hent f fn
    refine ⟨s, ?_, ?_, ?_, ?_⟩
    · rw [List.mem_filter]
      exact ⟨hs, by rw [hsc d hkept, q4]; simp⟩
    · intro hc; rw [hsc _ hc, q1]
    · intro hc; rw [hsc _ hc, q2]
    · intro hc; rw [hsc _ hc, q3]
  · intro r hr
    rw [List.mem_filter] at hr
    obtain ⟨hr1, hr2⟩ := hr
    rw [decide_eq_true_eq] at hr2
    rcases (hrs r.2).1 (reduced_mem hr1) with ⟨a, ha, e⟩ | ⟨f, fn, hf, c, y, h1, h2, h3⟩
    · exfalso
      rw [e] at hr2
      exact ((labels_clean hcs hcl d).2 _ (hasLabel_mem n1 (row_hasLabel ha n2))).2 hr2
    · rw [hd] at h1
      cases h1
      rw [hx] at h2
      cases h2
      obtain ⟨q1, q2, q3, _⟩ := hent f fn
      rw [h3]
      exact ⟨f, fn, hf, q1, q2, q3⟩

/-- **C64 (negation).** A tally without total mark that comes after a tally with one gets, instead of
`None`, a frame without rows, as soon as the column of the previous total is present in its own frame. -/
theorem total_leak {t : Tally} {lk lk' : Leak} {fr : Frame} {tf : Option Frame} {d : Col}
    (h : tallyFrame t lk = .ok (fr, tf, lk')) (hd : totalCol t = none) (hl : lk.total = some d)
    (hlab : d.isLabel) (hmem : d ∈ fr.cols) : ∃ g, tf = some g ∧ g.rows = [] := by
  obtain ⟨cs, rs, e1, rfl, htf, hlk, hrs⟩ := tallyFrame_ok h
  rw [hd] at hlk
  simp only at hlk
  rw [htf, hlk, hl]
  simp only [totalFrame]
  rw [if_pos hmem]
  refine ⟨_, rfl, ?_⟩
  simp only [List.filter_eq_nil_iff, decide_eq_true_eq]
  intro r hr
  have hnn := (reduced_cols.1 hmem).1 _ (reduced_mem hr)
  rcases (hrs r.2).1 (reduced_mem hr) with ⟨b, hb, e⟩ | ⟨f, fn, hf, c, x, h1, _⟩
  · rw [e] at hnn ⊢
    have hh := row_hasLabel hb hlab
    rcases hh with ⟨_, _, hh⟩ | hh
    · rw [hh]; unfold totalVal; simp
    · have hm := List.mem_of_getElem? hh
      cases d with
      | cells => exact (cellLabels_clean e1 _ hm).2
      | value => exact absurd rfl hlab.1
      | error => exact absurd rfl hlab.2
      | dir =>
        obtain ⟨x, _, hx⟩ := List.mem_map.1 hm
        rw [← hx]; unfold totalVal; simp
      | segments =>
        simp only [labelsOf, segAxis, List.map_map] at hm
        obtain ⟨x, _, hx⟩ := List.mem_map.1 hm
        rw [← hx]; unfold totalVal; simp
      | multiplier =>
        obtain ⟨x, _, hx⟩ := List.mem_map.1 hm
        rw [← hx]; unfold totalVal; simp
      | user | cosine | energy | time | corA | corB | corC =>
        obtain ⟨x, _, hx⟩ := List.mem_map.1 hm
        rw [← hx]; unfold totalVal; simp
  · rw [hd] at h1; simp at h1

/-- **C64.** The first tally with no total mark gets no total frame. -/
theorem total_none {t : Tally} {lk lk' : Leak} {fr : Frame} {tf : Option Frame}
    (h : tallyFrame t lk = .ok (fr, tf, lk')) (hd : totalCol t = none) (hl : lk.total = none) : tf = none := by
  obtain ⟨cs, rs, _, _, htf, hlk, _⟩ := tallyFrame_ok h
  rw [hd, hl] at hlk
  rw [htf, hlk]
  rfl

end F4Enix.Mctal
