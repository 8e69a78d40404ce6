import Verif.Base.Decimal
import Verif.WW.GvrFile
/-!
# Weight-window files with the numbers as Python prints and reads them (C03, C185, C191)

`WW/ParserProps` and `WW/File` prove the round trips for any way of printing numbers that prints short words. Here the printing is
that of ww_parser.py:320-367, `{:#.5g}` and `{:#.4E}`, and the reading is `float`, on exact numbers (`Base/Decimal`).
-/
namespace F4Enix.WW
open F4Enix

/-! ## Model -/

/-- `{:#.5g}`, `{:#.4E}` (ww_parser.py:320-367) and `float` (ww_parser.py:85-180) -/
def pyFmt : NumFmt where
  g := fmtGen 4
  e := fmtSci 'E' 4
  num := parseFloat

/-- five significant digits (specification) -/
def five (q : ℚ) : ℚ := roundSig 4 q

/-! ## Specification -/

/-- `q'` is `q` up to half a unit of the fifth digit (specification) -/
def Near (q q' : ℚ) : Prop := |q' - q| ≤ |q| / 20000

/-- an axis the file has room for: one point more than intervals, fine counts from 1 on, fewer than 100000 cells (specification) -/
structure AxisFits (a : Axis) : Prop where
  len : a.coarse.length = a.fine.length + 1
  pos : ∀ n ∈ a.fine, 1 ≤ n
  few : a.fine.sum < 100000
  range : ∀ q ∈ a.coarse, InRange q

/-- a window the file has room for (specification) -/
structure Fits (g : Geo) (s : Window) : Prop where
  i : AxisFits g.i
  j : AxisFits g.j
  k : AxisFits g.k
  origin : g.origin.length = 3 ∧ ∀ q ∈ g.origin, InRange q
  directors : ∀ d1 d2, g.directors = some (d1, d2) → d1.length = 3 ∧ d2.length = 3 ∧ ∀ q ∈ d1 ++ d2, InRange q
  numbers : ∀ p d, (p, d) ∈ s.values → d.length < 10 ^ 8 ∧ ∀ e a, (e, a) ∈ d → InRange e ∧ ∀ q ∈ a.data, InRange q

/-- data the file has room for: counts as `_build_header` makes them and below 100000, integers that fit their columns (specification) -/
structure FileFits (r : ParseResult) : Prop where
  ints : ∀ n ∈ [r.header.if_, r.header.iv, r.header.ni, r.header.nr] ++ r.header.ne, (intStr n).length < 10
  probid : ∃ ws, (∀ w ∈ ws, IsWord w) ∧ r.header.probid = unwords ws ∧ r.header.probid.length < 38
  counts : ∀ n ∈ [r.header.nfx, r.header.nfy, r.header.nfz, r.header.ncx, r.header.ncy, r.header.ncz], n.natAbs < 100000
  origin : r.header.origin.length = 3 ∧ ∀ q ∈ r.header.origin, InRange q
  kind : (r.header.nr = 10 ∧ r.header.directors = none) ∨
    (r.header.nr ≠ 10 ∧ ∃ d1 d2, r.header.directors = some (d1, d2) ∧ d1.length = 3 ∧ d2.length = 3 ∧ ∀ q ∈ d1 ++ d2, InRange q)
  b2i : (r.b2i.length : ℤ) = 3 * r.header.ncx + 1 ∧ ∀ q ∈ r.b2i, InRange q
  b2j : (r.b2j.length : ℤ) = 3 * r.header.ncy + 1 ∧ ∀ q ∈ r.b2j, InRange q
  b2k : (r.b2k.length : ℤ) = 3 * r.header.ncz + 1 ∧ ∀ q ∈ r.b2k, InRange q
  particles : r.header.ni = r.energies.length
  ne : r.header.ne = r.energies.map (fun es => (es.length : ℤ))
  nvals : r.values.map (fun vs => (vs.length : ℤ)) = r.energies.map (fun es => r.header.nfx * r.header.nfy * r.header.nfz * (es.length : ℤ))
  energies : ∀ es ∈ r.energies, ∀ q ∈ es, InRange q
  values : ∀ vs ∈ r.values, ∀ q ∈ vs, InRange q

/-- two axes with the same counts and points near to each other (specification) -/
def AxisNear (a b : Axis) : Prop := a.fine = b.fine ∧ List.Forall₂ Near a.coarse b.coarse

/-! ## Printing -/

theorem near_five (q : ℚ) : Near q (five q) := by
  have := roundSig_near 4 q
  unfold Near five
  norm_num at this
  exact this

theorem forall₂_five (l : List ℚ) : List.Forall₂ Near l (l.map five) := by
  induction l with
  | nil => exact .nil
  | cons q l ih => exact .cons (near_five q) ih

theorem py_g {q : ℚ} (h : InRange q) : NumOk pyFmt pyFmt.g five q :=
  ⟨fmtGen_word 4 q, lt_of_le_of_lt (fmtGen_length h) (by norm_num), fmtGen_read 4 q⟩

theorem py_e {q : ℚ} (h : InRange q) : NumOk pyFmt pyFmt.e five q :=
  ⟨fmtSci_word (Or.inr rfl) 4 q, lt_of_le_of_lt (fmtSci_length h) (by norm_num), fmtSci_read (Or.inr rfl) 4 q⟩

theorem inRange_int {n : ℤ} (h : n.natAbs < 10 ^ 5) : InRange (n : ℚ) := by
  by_cases h0 : n = 0
  · left; simp [h0]
  · right
    have h1 : (1 : ℚ) ≤ |(n : ℚ)| := by
      rw [← Int.cast_abs]
      have : (1 : ℤ) ≤ |n| := Int.one_le_abs h0
      exact_mod_cast this
    have h2 : |(n : ℚ)| < (10 : ℚ) ^ (5 : ℤ) := by
      rw [← Int.cast_abs, Int.abs_eq_natAbs]
      have : (n.natAbs : ℚ) < ((10 ^ 5 : ℕ) : ℚ) := by exact_mod_cast h
      norm_num at this ⊢
      exact this
    constructor
    · exact le_trans (zpow_le_one_of_nonpos₀ (by norm_num) (by norm_num)) h1
    · exact lt_of_lt_of_le h2 (zpow_le_zpow_right₀ (by norm_num) (by norm_num))

theorem py_count {n : ℤ} (h : n.natAbs < 10 ^ 5) : NumOk pyFmt pyFmt.g five n ∧ five n = n :=
  ⟨py_g (inRange_int h), roundSig_int 4 h⟩

theorem le_sum {l : List ℤ} (h : ∀ n ∈ l, (1 : ℤ) ≤ n) : (l.length : ℤ) ≤ l.sum ∧ ∀ n ∈ l, n ≤ l.sum := by
  induction l with
  | nil => simp
  | cons a l ih =>
    have ha := h a (by simp)
    obtain ⟨i1, i2⟩ := ih (fun n hn => h n (by simp [hn]))
    have hs := sum_nonneg (l := l) (fun n hn => h n (by simp [hn]))
    simp only [List.length_cons, List.sum_cons, List.mem_cons]
    push_cast
    refine ⟨by omega, ?_⟩
    rintro n (rfl | hn)
    · omega
    · have := i2 n hn; omega

theorem fits_axis {a : Axis} (h : AxisFits a) : AxisOk pyFmt five a := by
  obtain ⟨s1, s2⟩ := le_sum h.pos
  have s0 := sum_nonneg h.pos
  have hf := h.few
  refine ⟨h.len, h.pos, fun q hq => py_g (h.range q hq), fun n hn => ?_, py_count (by omega), ?_⟩
  · have := s2 n hn
    have := h.pos n hn
    exact py_count (by omega)
  · have := py_count (n := (a.fine.length : ℤ)) (by omega)
    exact this

/-- a window the file has room for can be printed by Python -/
theorem fits_printable {g : Geo} {s : Window} (h : Fits g s) : Printable pyFmt five five g s := by
  refine ⟨fits_axis h.i, fits_axis h.j, fits_axis h.k, ?_, ?_, ⟨h.origin.1, fun q hq => py_g (h.origin.2 q hq)⟩, ?_, ?_⟩
  · simpa using py_count (n := 1) (by norm_num)
  · simpa using (py_count (n := 2) (by norm_num)).1
  · intro d1 d2 hd
    obtain ⟨a, b, c⟩ := h.directors d1 d2 hd
    exact ⟨a, b, fun q hq => py_g (c q hq)⟩
  · intro p d hm
    obtain ⟨a, b⟩ := h.numbers p d hm
    exact ⟨a, fun e x hx => ⟨py_g (b e x hx).1, fun q hq => py_e ((b e x hx).2 q hq)⟩⟩

/-! ## The file written again -/

theorem printed_compose {a : Axis} {b2 : List ℚ} (h : AxisFits a) (hc : compose a.coarse a.fine = .ok b2) :
    compose (a.printed five).coarse (a.printed five).fine = .ok (b2.map five) := by
  obtain ⟨coarse, fine⟩ := a
  obtain ⟨hlen, hpos, hfew, -⟩ := h
  simp only [Axis.printed] at hlen hpos hfew hc ⊢
  cases coarse with
  | nil => simp at hlen
  | cons c0 cs =>
    have hl : fine.length = cs.length := by simpa using hlen.symm
    have e1 : (fine.zip cs).map Prod.snd = cs := List.map_snd_zip (by omega)
    have e2 : (fine.zip cs).map Prod.fst = fine := List.map_fst_zip (by omega)
    have hcomp := c01_compose_format c0 (fine.zip cs) []
    rw [e1, e2, List.append_nil, hc] at hcomp
    obtain rfl := Except.ok.inj hcomp
    have e1' : (fine.zip (cs.map five)).map Prod.snd = cs.map five := List.map_snd_zip (by simp; omega)
    have e2' : (fine.zip (cs.map five)).map Prod.fst = fine := List.map_fst_zip (by simp; omega)
    have hcomp' := c01_compose_format (five c0) (fine.zip (cs.map five)) []
    rw [e1', e2', List.append_nil] at hcomp'
    rw [List.map_cons, hcomp']
    congr 1
    obtain ⟨-, s2⟩ := le_sum hpos
    have hfix : ∀ n ∈ fine, five (n : ℤ) = n := fun n hn => by
      have := s2 n hn; have := hpos n hn
      exact (py_count (by omega)).2
    have h1 : five 1 = 1 := by simpa using (py_count (n := 1) (by norm_num)).2
    clear hcomp hcomp' e1' e2' hc e1 e2 hlen hfew s2
    unfold b2Of
    simp only [List.map_cons]
    congr 1
    induction fine generalizing cs with
    | nil => simp
    | cons n fine ih =>
      cases cs with
      | nil => simp at hl
      | cons c cs =>
        simp only [List.zip_cons_cons, List.map_cons, List.flatten_cons, List.map_append, List.map_nil]
        rw [ih (fun m hm => hpos m (by simp [hm])) cs (by simpa using hl) (fun m hm => hfix m (by simp [hm])),
          hfix n (by simp), h1]

/-! ## C03 -/

theorem fits_writable {r : ParseResult} (h : FileFits r) : Writable pyFmt five five r := by
  refine ⟨h.ints, h.probid, fun n hn => py_count (h.counts n hn), ⟨h.origin.1, fun q hq => py_g (h.origin.2 q hq)⟩, ?_, ?_,
    ⟨h.b2i.1, fun q hq => py_g (h.b2i.2 q hq)⟩, ⟨h.b2j.1, fun q hq => py_g (h.b2j.2 q hq)⟩, ⟨h.b2k.1, fun q hq => py_g (h.b2k.2 q hq)⟩,
    h.particles, h.ne, h.nvals, fun es hes q hq => py_g (h.energies es hes q hq), fun vs hvs q hq => py_e (h.values vs hvs q hq)⟩
  · rcases h.kind with h | ⟨h, d1, d2, a, b, c, d⟩
    · exact Or.inl h
    · exact Or.inr ⟨h, d1, d2, a, b, c, fun q hq => py_g (d q hq)⟩
  · exact ⟨by simpa using (py_count (n := 1) (by norm_num)).1, by simpa using (py_count (n := 2) (by norm_num)).1⟩

theorem forall₂_fives (l : List (List ℚ)) : List.Forall₂ (List.Forall₂ Near) l (l.map (List.map five)) := by
  induction l with
  | nil => exact .nil
  | cons q l ih => exact .cons (forall₂_five q) ih

/-- **C03**, with the numbers as Python prints them. Data the file has room for are written and read back: the same header integers
and counts, every vector, energy and value within half a unit of its fifth digit, for every particle, cartesian or cylindrical, however
many numbers there are; and writing what was read gives the same text again. -/
theorem python_roundtrip {r : ParseResult} (h : FileFits r) :
    ∃ text r', write pyFmt r = .ok text ∧ parse pyFmt text = .ok r' ∧ write pyFmt r' = .ok text ∧
      (r'.header.if_, r'.header.iv, r'.header.ni, r'.header.nr) = (r.header.if_, r.header.iv, r.header.ni, r.header.nr) ∧
      r'.header.probid = r.header.probid ∧ r'.header.ne = r.header.ne ∧
      (r'.header.nfx, r'.header.nfy, r'.header.nfz) = (r.header.nfx, r.header.nfy, r.header.nfz) ∧
      (r'.header.ncx, r'.header.ncy, r'.header.ncz) = (r.header.ncx, r.header.ncy, r.header.ncz) ∧
      List.Forall₂ Near r.header.origin r'.header.origin ∧
      r'.header.directors.isSome = r.header.directors.isSome ∧
      (∀ d1 d2, r.header.directors = some (d1, d2) → ∃ d1' d2', r'.header.directors = some (d1', d2') ∧ List.Forall₂ Near d1 d1' ∧ List.Forall₂ Near d2 d2') ∧
      List.Forall₂ Near r.b2i r'.b2i ∧ List.Forall₂ Near r.b2j r'.b2j ∧ List.Forall₂ Near r.b2k r'.b2k ∧
      List.Forall₂ (List.Forall₂ Near) r.energies r'.energies ∧ List.Forall₂ (List.Forall₂ Near) r.values r'.values := by
  obtain ⟨text, h1, h2, h3⟩ := c03_rewrite pyFmt five five r (fits_writable h) (fun q => fmtGen_again 4 q) (fun q => fmtSci_again 'E' 4 q)
  refine ⟨text, rounded five five r, h1, h2, h3, rfl, rfl, rfl, rfl, rfl, forall₂_five _, by simp [rounded], ?_, forall₂_five _, forall₂_five _,
    forall₂_five _, forall₂_fives _, forall₂_fives _⟩
  intro d1 d2 hd
  exact ⟨d1.map five, d2.map five, by simp [rounded, hd], forall₂_five _, forall₂_five _⟩

/-- the number read is near the number written, whole numbers below 100000 and numbers of five digits are unchanged, numbers in
order stay in order, rounding again changes nothing -/
theorem five_exact : (∀ q, Near q (five q)) ∧ (∀ (q : ℚ) (m : ℕ) (k : ℤ), m < 10 ^ 5 → |q| = (m : ℚ) * (10 : ℚ) ^ k → five q = q) ∧
    (∀ x y, x ≤ y → five x ≤ five y) ∧ (∀ q, five (five q) = five q) ∧
    ∀ q, parseFloat (fmtGen 4 q) = some (five q) ∧ parseFloat (fmtSci 'E' 4 q) = some (five q) :=
  ⟨near_five, fun _ _ _ hm hq => roundSig_exact 4 hm hq, fun _ _ h => roundSig_mono 4 h, roundSig_idem 4,
    fun q => ⟨fmtGen_read 4 q, fmtSci_read (Or.inr rfl) 4 q⟩⟩

/-! ## C185 -/

/-- **C185**, with the numbers as Python prints them. A window the file has room for, written after any history of operations and
loaded again, has the same counts, points, origin and directors near the old ones, the same particles, and at every voxel a value
near the old one at an energy near the old one; and writing it again gives the same text. -/
theorem window_file {g : Geo} (pw : ℚ → ℚ → ℚ) (hpw : ∀ x, pw x 1 = x) {s : Window} (hi : Inv g.shape s) (ops : List Op)
    (hf : Fits g (run pw s ops)) (hd : EnergiesDiffer five (run pw s ops).values) :
    ∃ text g' s', save pyFmt g (run pw s ops) = .ok text ∧ load pyFmt text = .ok (g', s') ∧
      AxisNear g.i g'.i ∧ AxisNear g.j g'.j ∧ AxisNear g.k g'.k ∧ List.Forall₂ Near g.origin g'.origin ∧
      g'.directors.isSome = g.directors.isSome ∧
      (∀ d1 d2, g.directors = some (d1, d2) → ∃ d1' d2', g'.directors = some (d1', d2') ∧ List.Forall₂ Near d1 d1' ∧ List.Forall₂ Near d2 d2') ∧
      present s' = present (run pw s ops) ∧
      (∀ p e k j i v, (look (run pw s ops).values p e).bind (fun a => a.get k j i) = some v →
        ∃ e' v', Near e e' ∧ Near v v' ∧ (look s'.values p e').bind (fun a => a.get k j i) = some v') ∧
      save pyFmt g' s' = .ok text := by
  have hinv := c07_history pw hpw s hi ops
  have hp := fits_printable hf
  obtain ⟨text, s', h1, h2, h3, h4⟩ := saved_and_loaded hinv hp hd
  obtain ⟨text', s'', k1, k2, k3, k4⟩ := history_saved_and_loaded pw hpw hi ops hp hd
  rw [h1] at k1
  obtain rfl := Except.ok.inj k1
  rw [h2] at k2
  simp only [Except.ok.injEq, Prod.mk.injEq, true_and] at k2
  subst k2
  generalize run pw s ops = w at *
  refine ⟨text, g.printed five, s', h1, h2, ⟨rfl, forall₂_five _⟩, ⟨rfl, forall₂_five _⟩, ⟨rfl, forall₂_five _⟩, forall₂_five _,
    by simp [Geo.printed], ?_, k3, ?_, ?_⟩
  · intro d1 d2 hd
    exact ⟨d1.map five, d2.map five, by simp [Geo.printed, hd], forall₂_five _, forall₂_five _⟩
  · intro p e k j i v hv
    exact ⟨five e, five v, near_five e, near_five v, k4 p e k j i v hv⟩
  · obtain ⟨bi, bj, bk, i1, j1, kk1, -, -, -, hw⟩ := save_writable hinv.good hp
    obtain ⟨t, t1, -, t3⟩ := c03_rewrite pyFmt five five _ hw (fun q => fmtGen_again 4 q) (fun q => fmtSci_again 'E' 4 q)
    have ht : t = text := by
      unfold save at h1
      rw [i1, j1, kk1] at h1
      simp only [t1] at h1
      exact Except.ok.inj h1
    subst ht
    obtain ⟨f1, f2, f3⟩ := format_good hinv.good
    have hgood' : Good g.shape s'.values := h4.good
    obtain ⟨g1, g2, g3⟩ := format_good hgood'
    unfold save
    have ei := printed_compose hf.i i1
    have ej := printed_compose hf.j j1
    have ek := printed_compose hf.k kk1
    have hpi : (g.printed five).i = g.i.printed five := rfl
    have hpj : (g.printed five).j = g.j.printed five := rfl
    have hpk : (g.printed five).k = g.k.printed five := rfl
    rw [hpi, hpj, hpk, ei, ej, ek]
    have hval : (formatNested s'.values) = ((formatNested w.values).1.map (List.map five), (formatNested w.values).2.map (List.map five)) := by
      rw [g1, f1, h3]
      simp only [printedValues, List.map_map, Prod.mk.injEq]
      constructor
      · apply List.map_congr_left; intro pd _; simp [Dict.keys, Function.comp_def]
      · apply List.map_congr_left; intro pd _
        simp only [Function.comp_def, List.map_map, List.map_flatten]
        rfl
    have hhead : buildHeader (g.printed five) s' = (rounded five five ⟨buildHeader g w, bi, bj, bk, (formatNested w.values).1, (formatNested w.values).2⟩).header := by
      have hlen : (s'.values.length : ℤ) = w.values.length := by rw [h3]; simp [printedValues]
      have hne : s'.values.map (fun pd => ((Dict.keys pd.2).length : ℤ)) = w.values.map (fun pd => ((Dict.keys pd.2).length : ℤ)) := by
        rw [h3]; simp only [printedValues, List.map_map]; apply List.map_congr_left; intro pd _; simp [Dict.keys]
      have hco : ∀ (a : Axis), coarseInts (a.printed five).coarse = coarseInts a.coarse := by
        intro a; simp [coarseInts, Axis.printed]
      unfold buildHeader
      simp only [rounded]
      rw [g3, f3, g2, f2, hlen, hne, hpi, hpj, hpk, hco, hco, hco]
      simp only [Geo.printed, Option.isSome_map, Axis.printed]
    show write pyFmt _ = _
    rw [hhead, hval]
    exact t3

/-! ## C191 -/

/-- **C191**, with the numbers as Python prints them: the window made from a tally, written and loaded, has bins near those of the
tally and, in the only energy 100, values near those of the tally. -/
theorem gvr_file {x1 x2 x3 : List ℚ} {x : ℕ → ℕ → ℕ → ℚ} {g : Geo} {w : Window} (h : IsWindow x1 x2 x3 x g w) (hf : Fits g w) :
    ∃ text g' w', save pyFmt g w = .ok text ∧ load pyFmt text = .ok (g', w') ∧ List.Forall₂ Near x1 g'.i.coarse ∧
      List.Forall₂ Near x2 g'.j.coarse ∧ List.Forall₂ Near x3 g'.k.coarse ∧
      ∃ a, look w'.values .neutron 100 = some a ∧
        ∀ k j i, k < x3.length - 1 → j < x2.length - 1 → i < x1.length - 1 → ∃ v, a.get k j i = some v ∧ Near (x k j i) v := by
  obtain ⟨text, w', h1, h2, h3, h4, h5, a, h6, h7⟩ := gvr_saved_and_loaded h (fits_printable hf)
  have h100 : five 100 = 100 := by simpa using (py_count (n := 100) (by norm_num)).2
  rw [h100] at h6
  refine ⟨text, g.printed five, w', h1, h2, by rw [h3]; exact forall₂_five _, by rw [h4]; exact forall₂_five _,
    by rw [h5]; exact forall₂_five _, a, h6, fun k j i hk hj hi => ⟨_, h7 k j i hk hj hi, near_five _⟩⟩

/-! ## A case -/

theorem inRange_simple {q : ℚ} (h : q = 0 ∨ ((1 : ℚ) / 10000 ≤ |q| ∧ |q| < 100000)) : InRange q := by
  rcases h with h | ⟨h1, h2⟩
  · exact Or.inl h
  · right
    constructor
    · refine le_trans ?_ h1
      have : (1 : ℚ) / 10000 = (10 : ℚ) ^ (-4 : ℤ) := by norm_num
      rw [this]
      exact zpow_le_zpow_right₀ (by norm_num) (by norm_num)
    · refine lt_of_lt_of_le h2 ?_
      have : (100000 : ℚ) = (10 : ℚ) ^ (5 : ℤ) := by norm_num
      rw [this]
      exact zpow_le_zpow_right₀ (by norm_num) (by norm_num)

theorem inRange_all {l : List ℚ} (h : l.all (fun q => decide (q = 0 ∨ ((1 : ℚ) / 10000 ≤ |q| ∧ |q| < 100000))) = true) : ∀ q ∈ l, InRange q := by
  intro q hq
  exact inRange_simple (by simpa using List.all_eq_true.mp h q hq)

/-- the cylindrical window of two particles of `WW/File`, with an energy that is rounded, fits -/
example : ∃ s, newWW true (sampleValues (1234567 / 1000000)) = .ok s ∧ Inv sampleGeo.shape s ∧ Fits sampleGeo s ∧ EnergiesDiffer five s.values := by
  obtain ⟨s, h1, h2, -, h4⟩ := inv_set { values := [], ratios := [], grid := [], cyl := true } (sample_good (1234567 / 1000000) (by norm_num))
  refine ⟨s, h1, h4, ⟨⟨rfl, by decide, by decide, inRange_all (by decide +kernel)⟩, ⟨rfl, by decide, by decide, inRange_all (by decide +kernel)⟩,
    ⟨rfl, by decide, by decide, inRange_all (by decide +kernel)⟩, ⟨rfl, inRange_all (by decide +kernel)⟩, ?_, ?_⟩, ?_⟩
  · intro d1 d2 hd
    simp only [sampleGeo, Option.some.injEq, Prod.mk.injEq] at hd
    obtain ⟨rfl, rfl⟩ := hd
    exact ⟨rfl, rfl, inRange_all (by decide +kernel)⟩
  · intro p d hm
    rw [h2] at hm
    simp only [sampleValues, List.mem_cons, List.not_mem_nil, or_false, Prod.mk.injEq] at hm
    rcases hm with ⟨rfl, rfl⟩ | ⟨rfl, rfl⟩
    · refine ⟨by norm_num, ?_⟩
      intro e' a hm
      simp only [List.mem_cons, List.not_mem_nil, or_false, Prod.mk.injEq] at hm
      rcases hm with ⟨rfl, rfl⟩ | ⟨rfl, rfl⟩
      · exact ⟨inRange_simple (by decide +kernel), inRange_all (by decide +kernel)⟩
      · exact ⟨inRange_simple (by decide +kernel), inRange_all (by decide +kernel)⟩
    · refine ⟨by norm_num, ?_⟩
      intro e' a hm
      simp only [List.mem_cons, List.not_mem_nil, or_false, Prod.mk.injEq] at hm
      obtain ⟨rfl, rfl⟩ := hm
      exact ⟨inRange_simple (by decide +kernel), inRange_all (by decide +kernel)⟩
  · intro p d hm
    rw [h2] at hm
    simp only [sampleValues, List.mem_cons, List.not_mem_nil, or_false, Prod.mk.injEq] at hm
    rcases hm with ⟨rfl, rfl⟩ | ⟨rfl, rfl⟩ <;> decide +kernel

/-- the window of `WW/ParserProps` with 7 energies and a value that is rounded fits -/
example : FileFits { toyWindow with values := [[1, 2, 3, 4, 5, 6, 7000.0001], [8]] } := by
  refine ⟨by decide, ⟨["Created".toList, "by".toList, "f4enix_ww".toList], by decide, by decide, by decide⟩, by decide, ⟨rfl, inRange_all (by decide +kernel)⟩,
    Or.inr ⟨by decide, _, _, rfl, rfl, rfl, inRange_all (by decide +kernel)⟩, ⟨rfl, inRange_all (by decide +kernel)⟩, ⟨rfl, inRange_all (by decide +kernel)⟩,
    ⟨rfl, inRange_all (by decide +kernel)⟩, rfl, by decide, by decide, ?_, ?_⟩
  · intro es hes
    simp only [toyWindow, List.mem_cons, List.not_mem_nil, or_false] at hes
    rcases hes with rfl | rfl <;> exact inRange_all (by decide +kernel)
  · intro es hes
    simp only [List.mem_cons, List.not_mem_nil, or_false] at hes
    rcases hes with rfl | rfl <;> exact inRange_all (by decide +kernel)

/-- the energy 1.234567 is written 1.2346 -/
example : fmtGen 4 (1234567 / 1000000) = "1.2346".toList ∧ five (1234567 / 1000000) = 12346 / 10000 := by decide +kernel

end F4Enix.WW
