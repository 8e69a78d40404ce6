import Verif.Base.DecimalDouble
import Verif.WW.Numbers
/-!
# Weight-window files when the numbers read become floats (C03, C185)

`WW/Numbers` proves the round trips with `float` giving the exact value of the text. Here it gives the nearest binary64 number (`Base/Binary64`).
-/
namespace F4Enix.WW
open F4Enix

/-! ## Model -/

/-- `{:#.5g}`, `{:#.4E}` (ww_parser.py:320-367) and `float` (ww_parser.py:85-180), with the number read rounded to a float. A number too large for a
float would become an infinity: not modelled, the theorems have `Ordinary` numbers. -/
def floatFmt : NumFmt where
  g := fmtGen 4
  e := fmtSci 'E' 4
  num s := (parseFloat s).map dbl

/-! ## Specification -/

/-- `q'` is `q` up to half a unit of the fifth digit and the rounding to a float (specification) -/
def NearF (q q' : ℚ) : Prop := |q' - q| ≤ |q| / 19999

/-- all numbers of the window, its mesh included, are ordinary (specification) -/
structure AllOrdinary (g : Geo) (s : Window) : Prop where
  axes : ∀ q ∈ g.i.coarse ++ g.j.coarse ++ g.k.coarse ++ g.origin, Ordinary q
  directors : ∀ d1 d2, g.directors = some (d1, d2) → ∀ q ∈ d1 ++ d2, Ordinary q
  values : ∀ p d, (p, d) ∈ s.values → ∀ e a, (e, a) ∈ d → Ordinary e ∧ ∀ q ∈ a.data, Ordinary q

/-- all numbers of the contents of a file are ordinary (specification) -/
structure FileOrdinary (r : ParseResult) : Prop where
  vectors : ∀ q ∈ r.header.origin ++ r.b2i ++ r.b2j ++ r.b2k, Ordinary q
  directors : ∀ d1 d2, r.header.directors = some (d1, d2) → ∀ q ∈ d1 ++ d2, Ordinary q
  energies : ∀ es ∈ r.energies, ∀ q ∈ es, Ordinary q
  values : ∀ vs ∈ r.values, ∀ q ∈ vs, Ordinary q

/-! ## Numbers -/

instance (q : ℚ) : Decidable (Ordinary q) := inferInstanceAs (Decidable (_ ∨ _))

/-- the float read for a number written (specification) -/
def fiveF (q : ℚ) : ℚ := if Ordinary q then dbl (five q) else q

theorem near_fiveF (q : ℚ) : NearF q (fiveF q) := by
  unfold NearF fiveF
  split
  · rename_i h
    by_cases h0 : q = 0
    · subst h0; simp [five, roundSig_zero, dbl_zero]
    have h1 : |five q - q| ≤ |q| / 20000 := near_five q
    have h2 : |dbl (five q) - five q| ≤ |five q| / 2 ^ 53 := dbl_near (ordinary_normal (roundSig_ordinary 4 h) (roundSig_sign 4 h0).2)
    have h3 : |five q| ≤ |q| + |q| / 20000 := by
      have := abs_add_le (five q - q) q
      rw [sub_add_cancel] at this
      linarith
    have h4 : |dbl (five q) - q| ≤ |dbl (five q) - five q| + |five q - q| := abs_sub_le _ _ _
    have hp := abs_pos.2 h0
    have h5 : |five q| / 2 ^ 53 ≤ (|q| + |q| / 20000) / 2 ^ 53 := div_le_div_of_nonneg_right h3 (by positivity)
    norm_num at h5 ⊢
    norm_num at h2
    linarith
  · simp only [sub_self, abs_zero]
    positivity

theorem forall₂_fiveF (l : List ℚ) : List.Forall₂ NearF l (l.map fiveF) := by
  induction l with
  | nil => exact .nil
  | cons q l ih => exact .cons (near_fiveF q) ih

theorem forall₂_fiveFs (l : List (List ℚ)) : List.Forall₂ (List.Forall₂ NearF) l (l.map (List.map fiveF)) := by
  induction l with
  | nil => exact .nil
  | cons q l ih => exact .cons (forall₂_fiveF q) ih

theorem ordinary_inRange {q : ℚ} (h : Ordinary q) : InRange q := by
  rcases h with h | ⟨h1, h2⟩
  · exact Or.inl h
  · exact Or.inr ⟨le_trans (zpow_le_zpow_right₀ (by norm_num) (by norm_num)) h1,
      lt_of_le_of_lt h2 (zpow_lt_zpow_right₀ (by norm_num) (by norm_num))⟩

theorem float_g {q : ℚ} (h : Ordinary q) : NumOk floatFmt floatFmt.g fiveF q :=
  ⟨fmtGen_word 4 q, lt_of_le_of_lt (fmtGen_length (ordinary_inRange h)) (by norm_num), by
    show (parseFloat (fmtGen 4 q)).map dbl = _
    rw [fmtGen_read]
    simp [fiveF, if_pos h, five]⟩

theorem float_e {q : ℚ} (h : Ordinary q) : NumOk floatFmt floatFmt.e fiveF q :=
  ⟨fmtSci_word (Or.inr rfl) 4 q, lt_of_le_of_lt (fmtSci_length (ordinary_inRange h)) (by norm_num), by
    show (parseFloat (fmtSci 'E' 4 q)).map dbl = _
    rw [fmtSci_read (Or.inr rfl)]
    simp [fiveF, if_pos h, five]⟩

theorem again_g (q : ℚ) : floatFmt.g (fiveF q) = floatFmt.g q := by
  unfold fiveF
  split
  · rename_i h
    exact (print_read_print (by norm_num) h).2.1
  · rfl

theorem again_e (q : ℚ) : floatFmt.e (fiveF q) = floatFmt.e q := by
  unfold fiveF
  split
  · rename_i h
    exact (print_read_print (by norm_num) h).1 'E'
  · rfl

theorem ordinary_int {n : ℤ} (h : n.natAbs < 10 ^ 5) : Ordinary (n : ℚ) := by
  rcases inRange_int h with h0 | -
  · exact Or.inl h0
  · by_cases h0 : n = 0
    · left; simp [h0]
    right
    have h1 : (1 : ℚ) ≤ |(n : ℚ)| := by
      rw [← Int.cast_abs]
      have : (1 : ℤ) ≤ |n| := Int.one_le_abs h0
      exact_mod_cast this
    have h2 : |(n : ℚ)| ≤ (10 : ℚ) ^ (5 : ℤ) := by
      rw [← Int.cast_abs, Int.abs_eq_natAbs]
      have : (n.natAbs : ℚ) ≤ ((10 ^ 5 : ℕ) : ℚ) := by exact_mod_cast h.le
      norm_num at this ⊢
      exact this
    exact ⟨le_trans (zpow_le_one_of_nonpos₀ (by norm_num) (by norm_num)) h1, le_trans h2 (zpow_le_zpow_right₀ (by norm_num) (by norm_num))⟩

theorem float_count {n : ℤ} (h : n.natAbs < 10 ^ 5) : NumOk floatFmt floatFmt.g fiveF n ∧ fiveF n = n := by
  refine ⟨float_g (ordinary_int h), ?_⟩
  unfold fiveF
  rw [if_pos (ordinary_int h), (py_count h).2]
  apply dbl_exact (m := n.natAbs) (k := 0) (lt_trans h (by norm_num)) (by norm_num)
  rw [zpow_zero, mul_one, Nat.cast_natAbs, Int.cast_abs]

theorem float_axis {a : Axis} (h : AxisFits a) (ho : ∀ q ∈ a.coarse, Ordinary q) : AxisOk floatFmt fiveF a := by
  obtain ⟨s1, s2⟩ := le_sum h.pos
  have s0 := sum_nonneg h.pos
  have hf := h.few
  refine ⟨h.len, h.pos, fun q hq => float_g (ho q hq), fun n hn => ?_, float_count (by omega), ?_⟩
  · have := s2 n hn
    have := h.pos n hn
    exact float_count (by omega)
  · have := float_count (n := (a.fine.length : ℤ)) (by omega)
    exact this

/-- a window the file has room for can be printed, and read as floats -/
theorem float_printable {g : Geo} {s : Window} (h : Fits g s) (ho : AllOrdinary g s) : Printable floatFmt fiveF fiveF g s := by
  refine ⟨float_axis h.i (fun q hq => ho.axes q (by simp [hq])), float_axis h.j (fun q hq => ho.axes q (by simp [hq])),
    float_axis h.k (fun q hq => ho.axes q (by simp [hq])), ?_, ?_, ⟨h.origin.1, fun q hq => float_g (ho.axes q (by simp [hq]))⟩, ?_, ?_⟩
  · simpa using float_count (n := 1) (by norm_num)
  · simpa using (float_count (n := 2) (by norm_num)).1
  · intro d1 d2 hd
    obtain ⟨a, b, -⟩ := h.directors d1 d2 hd
    exact ⟨a, b, fun q hq => float_g (ho.directors d1 d2 hd q hq)⟩
  · intro p d hm
    exact ⟨(h.numbers p d hm).1, fun e x hx => ⟨float_g (ho.values p d hm e x hx).1, fun q hq => float_e ((ho.values p d hm e x hx).2 q hq)⟩⟩

/-! ## Written again -/

theorem printed_compose' {f : NumFmt} {rg : ℚ → ℚ} {a : Axis} {b2 : List ℚ} (h : AxisOk f rg a) (h1 : rg 1 = 1) (hc : compose a.coarse a.fine = .ok b2) :
    compose (a.printed rg).coarse (a.printed rg).fine = .ok (b2.map rg) := by
  obtain ⟨coarse, fine⟩ := a
  obtain ⟨hlen, hpos, -, hfx, -, -⟩ := h
  simp only [Axis.printed] at hlen hpos hc hfx ⊢
  cases coarse with
  | nil => simp at hlen
  | cons c0 cs =>
    have hl : fine.length = cs.length := by simpa using hlen.symm
    have e1 : (fine.zip cs).map Prod.snd = cs := List.map_snd_zip (by omega)
    have e2 : (fine.zip cs).map Prod.fst = fine := List.map_fst_zip (by omega)
    have hcomp := c01_compose_format c0 (fine.zip cs) []
    rw [e1, e2, List.append_nil, hc] at hcomp
    obtain rfl := Except.ok.inj hcomp
    have e1' : (fine.zip (cs.map rg)).map Prod.snd = cs.map rg := List.map_snd_zip (by simp; omega)
    have e2' : (fine.zip (cs.map rg)).map Prod.fst = fine := List.map_fst_zip (by simp; omega)
    have hcomp' := c01_compose_format (rg c0) (fine.zip (cs.map rg)) []
    rw [e1', e2', List.append_nil] at hcomp'
    rw [List.map_cons, hcomp']
    congr 1
    have hfix : ∀ n ∈ fine, rg (n : ℤ) = n := fun n hn => (hfx n hn).2
    clear hcomp hcomp' e1' e2' hc e1 e2 hlen hfx
    unfold b2Of
    simp only [List.map_cons]
    congr 1
    induction fine generalizing cs with
    | nil => simp
    | cons n fine ih =>
      cases cs with
      | nil => simp at hl
      | cons c cs =>
        simp only [List.zip_cons_cons, List.map_cons, List.flatten_cons, List.map_append, List.map_nil]
        rw [ih (fun m hm => hpos m (by simp [hm])) cs (by simpa using hl) (fun m hm => hfix m (by simp [hm])),
          hfix n (by simp), h1]

/-- if a number read prints as the number written, the window loaded is written with the same text (proof) -/
theorem saved_again {f : NumFmt} {rg re : ℚ → ℚ} {g : Geo} {w s' : Window} {text : Str} (hinv : Inv g.shape w) (hp : Printable f rg re g w)
    (hg : ∀ q, f.g (rg q) = f.g q) (he : ∀ q, f.e (re q) = f.e q) (h1 : save f g w = .ok text) (h3 : s'.values = printedValues rg re w.values)
    (h4 : Inv g.shape s') : save f (g.printed rg) s' = .ok text := by
  obtain ⟨bi, bj, bk, i1, j1, kk1, -, -, -, hw⟩ := save_writable hinv.good hp
  obtain ⟨t, t1, -, t3⟩ := c03_rewrite f rg re _ hw hg he
  have ht : t = text := by
    unfold save at h1
    rw [i1, j1, kk1] at h1
    simp only [t1] at h1
    exact Except.ok.inj h1
  subst ht
  obtain ⟨f1, f2, f3⟩ := format_good hinv.good
  have hgood' : Good g.shape s'.values := h4.good
  obtain ⟨g1, g2, g3⟩ := format_good hgood'
  unfold save
  have ei := printed_compose' hp.i hp.one.2 i1
  have ej := printed_compose' hp.j hp.one.2 j1
  have ek := printed_compose' hp.k hp.one.2 kk1
  have hpi : (g.printed rg).i = g.i.printed rg := rfl
  have hpj : (g.printed rg).j = g.j.printed rg := rfl
  have hpk : (g.printed rg).k = g.k.printed rg := rfl
  rw [hpi, hpj, hpk, ei, ej, ek]
  have hval : (formatNested s'.values) = ((formatNested w.values).1.map (List.map rg), (formatNested w.values).2.map (List.map re)) := by
    rw [g1, f1, h3]
    simp only [printedValues, List.map_map, Prod.mk.injEq]
    constructor
    · apply List.map_congr_left; intro pd _; simp [Dict.keys, Function.comp_def]
    · apply List.map_congr_left; intro pd _
      simp only [Function.comp_def, List.map_map, List.map_flatten]
      rfl
  have hhead : buildHeader (g.printed rg) s' = (rounded rg re ⟨buildHeader g w, bi, bj, bk, (formatNested w.values).1, (formatNested w.values).2⟩).header := by
    have hlen : (s'.values.length : ℤ) = w.values.length := by rw [h3]; simp [printedValues]
    have hne : s'.values.map (fun pd => ((Dict.keys pd.2).length : ℤ)) = w.values.map (fun pd => ((Dict.keys pd.2).length : ℤ)) := by
      rw [h3]; simp only [printedValues, List.map_map]; apply List.map_congr_left; intro pd _; simp [Dict.keys]
    have hco : ∀ (a : Axis), coarseInts (a.printed rg).coarse = coarseInts a.coarse := by
      intro a; simp [coarseInts, Axis.printed]
    unfold buildHeader
    simp only [rounded]
    rw [g3, f3, g2, f2, hlen, hne, hpi, hpj, hpk, hco, hco, hco]
    simp only [Geo.printed, Option.isSome_map, Axis.printed]
  show write f _ = _
  rw [hhead, hval]
  exact t3

/-! ## The claims -/

/-- **C03, with floats.** Data the file has room for are written and read back as floats: the same integers and counts, every vector, energy and value
within half a unit of its fifth digit (and the rounding to a float); writing what was read gives the same text again. -/
theorem float_roundtrip {r : ParseResult} (h : FileFits r) (ho : FileOrdinary r) :
    ∃ text r', write floatFmt r = .ok text ∧ parse floatFmt text = .ok r' ∧ write floatFmt r' = .ok text ∧
      (r'.header.if_, r'.header.iv, r'.header.ni, r'.header.nr) = (r.header.if_, r.header.iv, r.header.ni, r.header.nr) ∧
      r'.header.probid = r.header.probid ∧ r'.header.ne = r.header.ne ∧
      (r'.header.nfx, r'.header.nfy, r'.header.nfz) = (r.header.nfx, r.header.nfy, r.header.nfz) ∧
      (r'.header.ncx, r'.header.ncy, r'.header.ncz) = (r.header.ncx, r.header.ncy, r.header.ncz) ∧
      List.Forall₂ NearF r.header.origin r'.header.origin ∧
      (∀ d1 d2, r.header.directors = some (d1, d2) → ∃ d1' d2', r'.header.directors = some (d1', d2') ∧ List.Forall₂ NearF d1 d1' ∧ List.Forall₂ NearF d2 d2') ∧
      List.Forall₂ NearF r.b2i r'.b2i ∧ List.Forall₂ NearF r.b2j r'.b2j ∧ List.Forall₂ NearF r.b2k r'.b2k ∧
      List.Forall₂ (List.Forall₂ NearF) r.energies r'.energies ∧ List.Forall₂ (List.Forall₂ NearF) r.values r'.values := by
  have hw : Writable floatFmt fiveF fiveF r := by
    refine ⟨h.ints, h.probid, fun n hn => float_count (h.counts n hn), ⟨h.origin.1, fun q hq => float_g (ho.vectors q (by simp [hq]))⟩, ?_, ?_,
      ⟨h.b2i.1, fun q hq => float_g (ho.vectors q (by simp [hq]))⟩, ⟨h.b2j.1, fun q hq => float_g (ho.vectors q (by simp [hq]))⟩,
      ⟨h.b2k.1, fun q hq => float_g (ho.vectors q (by simp [hq]))⟩,
      h.particles, h.ne, h.nvals, fun es hes q hq => float_g (ho.energies es hes q hq), fun vs hvs q hq => float_e (ho.values vs hvs q hq)⟩
    · rcases h.kind with h | ⟨h, d1, d2, a, b, c, d⟩
      · exact Or.inl h
      · exact Or.inr ⟨h, d1, d2, a, b, c, fun q hq => float_g (ho.directors d1 d2 a q hq)⟩
    · exact ⟨by simpa using (float_count (n := 1) (by norm_num)).1, by simpa using (float_count (n := 2) (by norm_num)).1⟩
  obtain ⟨text, h1, h2, h3⟩ := c03_rewrite floatFmt fiveF fiveF r hw again_g again_e
  refine ⟨text, rounded fiveF fiveF r, h1, h2, h3, rfl, rfl, rfl, rfl, rfl, forall₂_fiveF _, ?_, forall₂_fiveF _, forall₂_fiveF _,
    forall₂_fiveF _, forall₂_fiveFs _, forall₂_fiveFs _⟩
  intro d1 d2 hd
  exact ⟨d1.map fiveF, d2.map fiveF, by simp [rounded, hd], forall₂_fiveF _, forall₂_fiveF _⟩

/-- **C185, with floats.** A window the file has room for, written after any history of operations and loaded again as floats, has the same counts, the same
particles, points, origin, directors, energies and values near the old ones; and writing it again gives the same text. -/
theorem float_window_file {g : Geo} (pw : ℚ → ℚ → ℚ) (hpw : ∀ x, pw x 1 = x) {s : Window} (hi : Inv g.shape s) (ops : List Op)
    (hf : Fits g (run pw s ops)) (ho : AllOrdinary g (run pw s ops)) (hd : EnergiesDiffer five (run pw s ops).values) :
    ∃ text g' s', save floatFmt g (run pw s ops) = .ok text ∧ load floatFmt text = .ok (g', s') ∧
      (g'.i.fine, g'.j.fine, g'.k.fine) = (g.i.fine, g.j.fine, g.k.fine) ∧
      List.Forall₂ NearF g.i.coarse g'.i.coarse ∧ List.Forall₂ NearF g.j.coarse g'.j.coarse ∧ List.Forall₂ NearF g.k.coarse g'.k.coarse ∧
      List.Forall₂ NearF g.origin g'.origin ∧
      (∀ d1 d2, g.directors = some (d1, d2) → ∃ d1' d2', g'.directors = some (d1', d2') ∧ List.Forall₂ NearF d1 d1' ∧ List.Forall₂ NearF d2 d2') ∧
      present s' = present (run pw s ops) ∧
      (∀ p e k j i v, (look (run pw s ops).values p e).bind (fun a => a.get k j i) = some v →
        ∃ e' v', NearF e e' ∧ NearF v v' ∧ (look s'.values p e').bind (fun a => a.get k j i) = some v') ∧
      save floatFmt g' s' = .ok text := by
  have hinv := c07_history pw hpw s hi ops
  have hp := float_printable hf ho
  have hd' : EnergiesDiffer fiveF (run pw s ops).values := by
    intro p d hm
    have h := hd p d hm
    rw [List.nodup_iff_pairwise_ne, List.pairwise_map] at h ⊢
    refine List.Pairwise.imp_of_mem ?_ h
    intro a b ha hb hne heq
    apply hne
    have hall : ∀ x ∈ Dict.keys d, Ordinary x := by
      intro x hx
      obtain ⟨⟨x', a'⟩, hm', rfl⟩ := List.mem_map.mp hx
      exact (ho.values p d hm x' a' hm').1
    have oa := hall a ha
    have ob := hall b hb
    have key : ∀ x, Ordinary x → roundSig 4 (dbl (five x)) = five x := by
      intro x hx
      have hs : (if dbl (five x) < 0 then (-1 : ℚ) else 1) = if x < 0 then -1 else 1 := by
        have h1 := (dbl_sign (roundSig_ordinary 4 hx)).1
        by_cases h0 : x = 0
        · subst h0; simp [five, roundSig_zero, dbl_zero]
        · have h2 := (roundSig_sign 4 h0).1
          unfold five
          simp only [h1, h2]
      unfold roundSig
      rw [show five x = roundSig 4 x from rfl] at hs ⊢
      rw [hs, sciParts_dbl (by norm_num) hx]
      rfl
    unfold fiveF at heq
    rw [if_pos oa, if_pos ob] at heq
    rw [← key a oa, ← key b ob, heq]
  obtain ⟨text, s', h1, h2, h3, h4⟩ := saved_and_loaded hinv hp hd'
  obtain ⟨text', s'', k1, k2, k3, k4⟩ := history_saved_and_loaded pw hpw hi ops hp hd'
  rw [h1] at k1
  obtain rfl := Except.ok.inj k1
  rw [h2] at k2
  simp only [Except.ok.injEq, Prod.mk.injEq, true_and] at k2
  subst k2
  refine ⟨text, g.printed fiveF, s', h1, h2, rfl, forall₂_fiveF _, forall₂_fiveF _, forall₂_fiveF _, forall₂_fiveF _, ?_, k3, ?_,
    saved_again hinv hp again_g again_e h1 h3 h4⟩
  · intro d1 d2 hd
    exact ⟨d1.map fiveF, d2.map fiveF, by simp [Geo.printed, hd], forall₂_fiveF _, forall₂_fiveF _⟩
  · intro p e k j i v hv
    exact ⟨fiveF e, fiveF v, near_fiveF e, near_fiveF v, k4 p e k j i v hv⟩

/-! ## A case -/

theorem ordinary_simple {q : ℚ} (h : q = 0 ∨ ((1 : ℚ) / 10000 ≤ |q| ∧ |q| < 100000)) : Ordinary q := by
  rcases h with h | ⟨h1, h2⟩
  · exact Or.inl h
  · right
    constructor
    · refine le_trans ?_ h1
      have : (1 : ℚ) / 10000 = (10 : ℚ) ^ (-4 : ℤ) := by norm_num
      rw [this]
      exact zpow_le_zpow_right₀ (by norm_num) (by norm_num)
    · refine le_trans h2.le ?_
      have : (100000 : ℚ) = (10 : ℚ) ^ (5 : ℤ) := by norm_num
      rw [this]
      exact zpow_le_zpow_right₀ (by norm_num) (by norm_num)

theorem ordinary_all {l : List ℚ} (h : l.all (fun q => decide (q = 0 ∨ ((1 : ℚ) / 10000 ≤ |q| ∧ |q| < 100000))) = true) : ∀ q ∈ l, Ordinary q := by
  intro q hq
  exact ordinary_simple (by simpa using List.all_eq_true.mp h q hq)

/-- the cylindrical window of two particles of `WW/File`, with an energy that is rounded -/
example {s : Window} (h : s.values = sampleValues (1234567 / 1000000)) : AllOrdinary sampleGeo s := by
  refine ⟨ordinary_all (by decide +kernel), ?_, ?_⟩
  · intro d1 d2 hd
    simp only [sampleGeo, Option.some.injEq, Prod.mk.injEq] at hd
    obtain ⟨rfl, rfl⟩ := hd
    exact ordinary_all (by decide +kernel)
  · intro p d hm
    rw [h] at hm
    simp only [sampleValues, List.mem_cons, List.not_mem_nil, or_false, Prod.mk.injEq] at hm
    rcases hm with ⟨rfl, rfl⟩ | ⟨rfl, rfl⟩
    · intro e' a hm
      simp only [List.mem_cons, List.not_mem_nil, or_false, Prod.mk.injEq] at hm
      rcases hm with ⟨rfl, rfl⟩ | ⟨rfl, rfl⟩
      · exact ⟨ordinary_simple (by decide +kernel), ordinary_all (by decide +kernel)⟩
      · exact ⟨ordinary_simple (by decide +kernel), ordinary_all (by decide +kernel)⟩
    · intro e' a hm
      simp only [List.mem_cons, List.not_mem_nil, or_false, Prod.mk.injEq] at hm
      obtain ⟨rfl, rfl⟩ := hm
      exact ⟨ordinary_simple (by decide +kernel), ordinary_all (by decide +kernel)⟩

/-- the data of `WW/ParserProps` with 7 energies and a value that is rounded -/
example : FileOrdinary { toyWindow with values := [[1, 2, 3, 4, 5, 6, 7000.0001], [8]] } := by
  refine ⟨ordinary_all (by decide +kernel), ?_, ?_, ?_⟩
  · intro d1 d2 hd
    simp only [toyWindow, Option.some.injEq, Prod.mk.injEq] at hd
    obtain ⟨rfl, rfl⟩ := hd
    exact ordinary_all (by decide +kernel)
  · intro es hes
    simp only [toyWindow, List.mem_cons, List.not_mem_nil, or_false] at hes
    rcases hes with rfl | rfl <;> exact ordinary_all (by decide +kernel)
  · intro es hes
    simp only [List.mem_cons, List.not_mem_nil, or_false] at hes
    rcases hes with rfl | rfl <;> exact ordinary_all (by decide +kernel)

end F4Enix.WW
