import Verif.Out.GridSingle
import Verif.Base.Binary64
import Mathlib.Tactic.Linarith
/-!
# Pages and pictures of an atlas

`Atlas.__init__`, `_change_orientation` and `_insert_img` of `src/f4enix/output/plotter.py`. Lengths of a document are whole EMU (36000 to the
millimetre); a document keeps sizes and margins as whole twips (635 EMU). Sums and products are those of doubles.
-/
namespace F4Enix.Plot
open F4Enix

/-! ## Model -/

/-- size and margins of a section, in EMU (docx) -/
structure Sect where
  width : ℤ
  height : ℤ
  left : ℤ
  right : ℤ
  top : ℤ
  bottom : ℤ
  deriving DecidableEq, Repr

/-- a length as the document gives it back: whole twips (docx, `ST_TwipsMeasure`) -/
def twips (x : ℕ) : ℤ := (roundEven (dbl ((x : ℚ) / 635)) : ℤ) * 635

/-- `int(x)`: towards zero (Python) -/
def truncZ (x : ℚ) : ℤ := if x < 0 then ⌈x⌉ else ⌊x⌋

/-- `Mm(x)` (docx) -/
def mmLen (x : ℚ) : ℤ := truncZ (dbl (x * 36000))

/-- `_change_orientation()`: a new section with the size of the last one turned; the sections before stay (plotter.py:682-692) -/
def changeOrientation (l : List Sect) : List Sect :=
  match l.getLast? with
  | none => l
  | some s => l ++ [{ s with width := s.height, height := s.width }]

/-- the margins of the last section, 10 mm each (plotter.py:577-583) -/
def setMargins (l : List Sect) : List Sect :=
  match l.getLast? with
  | none => l
  | some s =>
    let m := twips (mmLen 10).toNat
    l.dropLast ++ [{ s with left := m, right := m, top := m, bottom := m }]

/-- `page_width - left_margin - right_margin` (plotter.py:585) -/
def textWidth (s : Sect) : ℤ := s.width - s.left - s.right

/-- `Atlas(name, landscape)`: the sections and the default width; `doc.sections[-1]` needs a section (plotter.py:570-589) -/
def initAtlas (template : List Sect) (landscape : Bool) : Except PyErr (List Sect × ℤ) :=
  let l := setMargins (if landscape then changeOrientation template else template)
  match l.getLast? with
  | none => .error .indexError
  | some s => .ok (l, mmLen (dbl (dbl ((textWidth s : ℚ) / 36000) * dbl (9 / 10))))

/-- width and height of a picture in the document: the height follows the width; the picture itself has `nw` by `nh` EMU (plotter.py:592-595; docx, `scaled_dimensions`) -/
def insertImg (default : ℤ) (width : Option ℤ) (nw nh : ℕ) : Except PyErr (ℤ × ℤ) :=
  let w := width.getD default
  if nw = 0 then .error .zeroDivision
  else
    let h := dbl ((nh : ℚ) * dbl ((w : ℚ) / nw))
    .ok (w, if h < 0 then -(roundEven (-h) : ℤ) else roundEven h)

/-- the template of python-docx: one section, letter paper upright (docx, `default.docx`) -/
def letter : List Sect := [⟨7772400, 10058400, 1143000, 1143000, 914400, 914400⟩]

/-! ## Specification -/

/-- a picture between the margins of a page (specification) -/
def Fits (s : Sect) (p : ℤ × ℤ) : Prop := p.1 ≤ textWidth s ∧ p.2 ≤ s.height - s.top - s.bottom

instance (s : Sect) (p : ℤ × ℤ) : Decidable (Fits s p) := inferInstanceAs (Decidable (_ ∧ _))

/-! ## Proofs -/

theorem tiny_pow : (2 : ℚ) ^ (-1075 : ℤ) ≤ 1 / 2 ^ 60 := by
  rw [show (1 : ℚ) / 2 ^ 60 = (2 : ℚ) ^ (-60 : ℤ) by rw [zpow_neg]; norm_cast; simp]
  exact zpow_le_zpow_right₀ (by norm_num) (by norm_num)

theorem dbl_le_all {x : ℚ} (h : 0 ≤ x) : dbl x ≤ x + x / 2 ^ 53 + 1 / 2 ^ 60 ∧ x - x / 2 ^ 53 - 1 / 2 ^ 60 ≤ dbl x := by
  have := Mesh.dbl_near_all x
  rw [abs_of_nonneg h] at this
  have := abs_le.mp this
  have := tiny_pow
  constructor <;> linarith

theorem mm_ten : mmLen 10 = 360000 := by decide +kernel

theorem twips_ten : twips 360000 = 360045 := by decide +kernel

theorem nine_tenths : 0 ≤ dbl (9 / 10) ∧ dbl (9 / 10) ≤ 91 / 100 ∧ 89 / 100 ≤ dbl (9 / 10) := by decide +kernel

/-- the default width is nine tenths of the text, whatever the page -/
theorem width_nine_tenths {T : ℤ} (h : 1 ≤ T) :
    ∃ W : ℤ, mmLen (dbl (dbl ((T : ℚ) / 36000) * dbl (9 / 10))) = W ∧ 0 ≤ W ∧ W ≤ T ∧
      (9 / 10 : ℚ) * T - T / 2 ^ 50 - 2 ≤ W ∧ (W : ℚ) ≤ (9 / 10 : ℚ) * T + T / 2 ^ 50 + 1 / 2 ^ 40 := by
  have hT : (1 : ℚ) ≤ T := by exact_mod_cast h
  refine ⟨_, rfl, ?_⟩
  have h0 : (0 : ℚ) ≤ (T : ℚ) / 36000 := by positivity
  have a := dbl_le_all h0
  have a0 := dbl_nonneg h0
  have n := nine_tenths
  have n2 := dbl_le_all (x := 9 / 10) (by norm_num)
  have h1 : 0 ≤ dbl ((T : ℚ) / 36000) * dbl (9 / 10) := mul_nonneg a0 n.1
  have b := dbl_le_all h1
  have b0 := dbl_nonneg h1
  have h2 : 0 ≤ dbl (dbl ((T : ℚ) / 36000) * dbl (9 / 10)) * 36000 := by positivity
  have c := dbl_le_all h2
  have c0 := dbl_nonneg h2
  unfold mmLen truncZ
  rw [if_neg (not_lt.mpr c0)]
  generalize dbl ((T : ℚ) / 36000) = d1 at *
  have u1 : d1 * dbl (9 / 10) ≤ d1 * (9 / 10 + 9 / 10 / 2 ^ 53 + 1 / 2 ^ 60) := mul_le_mul_of_nonneg_left n2.1 a0
  have u2 : d1 * (9 / 10 - 9 / 10 / 2 ^ 53 - 1 / 2 ^ 60) ≤ d1 * dbl (9 / 10) := mul_le_mul_of_nonneg_left n2.2 a0
  generalize d1 * dbl (9 / 10) = p at *
  generalize dbl p = d2 at *
  generalize dbl (d2 * 36000) = d3 at *
  have f1 := Int.floor_le d3
  have f2 := Int.lt_floor_add_one d3
  have f0 : 0 ≤ ⌊d3⌋ := Int.floor_nonneg.mpr c0
  norm_num at a b c u1 u2 ⊢
  have up : d3 ≤ (9 / 10 : ℚ) * T + T / 1125899906842624 + 1 / 1099511627776 := by linarith
  refine ⟨f0, ?_, by linarith, by linarith⟩
  have : (⌊d3⌋ : ℚ) < (T : ℚ) + 1 := by linarith
  have : ⌊d3⌋ < T + 1 := by exact_mod_cast this
  omega

/-- the last section of a new atlas -/
theorem last_section (tmpl : List Sect) (s : Sect) (landscape : Bool) (h : tmpl.getLast? = some s) :
    ∃ l W, initAtlas tmpl landscape = .ok (l, W) ∧
      l.getLast? = some ⟨if landscape then s.height else s.width, if landscape then s.width else s.height, 360045, 360045, 360045, 360045⟩ ∧
      (∀ t, l.getLast? = some t → W = mmLen (dbl (dbl ((textWidth t : ℚ) / 36000) * dbl (9 / 10)))) := by
  unfold initAtlas setMargins changeOrientation
  rw [mm_ten, show ((360000 : ℤ).toNat) = 360000 by decide, twips_ten, h]
  cases landscape <;> simp [h]

/-- pictures of the default width are between the left and the right margin, on every paper that is wider than its margins -/
theorem width_fits (tmpl : List Sect) (s : Sect) (landscape : Bool) (h : tmpl.getLast? = some s)
    (hw : 720090 < (if landscape then s.height else s.width)) :
    ∃ l W t, initAtlas tmpl landscape = .ok (l, W) ∧ l.getLast? = some t ∧ 0 ≤ W ∧ W ≤ textWidth t := by
  obtain ⟨l, W, he, hl, hW⟩ := last_section tmpl s landscape h
  obtain ⟨V, hV, h0, hle, -⟩ := width_nine_tenths (T := textWidth ⟨if landscape then s.height else s.width, if landscape then s.width else s.height, 360045, 360045, 360045, 360045⟩)
    (by cases landscape <;> simp [textWidth] at hw ⊢ <;> omega)
  refine ⟨l, W, _, he, hl, ?_⟩
  rw [hW _ hl, hV]
  exact ⟨h0, hle⟩

/-- on letter paper (docx) -/
theorem letter_widths : initAtlas letter true =
      .ok ([⟨7772400, 10058400, 1143000, 1143000, 914400, 914400⟩, ⟨10058400, 7772400, 360045, 360045, 360045, 360045⟩], 8404479) ∧
    initAtlas letter false = .ok ([⟨7772400, 10058400, 360045, 360045, 360045, 360045⟩], 6347079) := by
  decide +kernel

/-- the sections of the template stay as they are: the title of a landscape atlas is on a page that is not turned and has the margins of the template -/
theorem title_not_turned (tmpl : List Sect) (s : Sect) (h : tmpl.getLast? = some s) :
    ∃ l W t, initAtlas tmpl true = .ok (l, W) ∧ l = tmpl ++ [t] ∧ t.width = s.height ∧ t.height = s.width := by
  unfold initAtlas setMargins changeOrientation
  rw [h]
  simp

/-- pictures keep their proportions to within half an EMU and the rounding of doubles -/
theorem proportions {W : ℤ} {nw nh : ℕ} (hw : 0 ≤ W) (hn : 0 < nw) (hnh : nh ≤ 2 ^ 40) :
    ∃ H : ℤ, insertImg W none nw nh = .ok (W, H) ∧ 0 ≤ H ∧
      |(H : ℚ) - nh * W / nw| ≤ 1 / 2 + nh * W / nw / 2 ^ 50 + 1 / 2 ^ 10 := by
  have hn' : (0 : ℚ) < nw := by exact_mod_cast hn
  have hW : (0 : ℚ) ≤ W := by exact_mod_cast hw
  have hh : (0 : ℚ) ≤ nh := by positivity
  have hb : (nh : ℚ) ≤ 2 ^ 40 := by exact_mod_cast hnh
  have q0 : 0 ≤ (W : ℚ) / nw := by positivity
  have a := dbl_le_all q0
  have a0 := dbl_nonneg q0
  have h1 : 0 ≤ (nh : ℚ) * dbl ((W : ℚ) / nw) := mul_nonneg hh a0
  have b := dbl_le_all h1
  have b0 := dbl_nonneg h1
  have hneg : ¬ dbl ((nh : ℚ) * dbl ((W : ℚ) / nw)) < 0 := not_lt.mpr b0
  refine ⟨(roundEven (dbl ((nh : ℚ) * dbl ((W : ℚ) / nw))) : ℕ), ?_, by positivity, ?_⟩
  · unfold insertImg
    simp only [Option.getD_none, if_neg (Nat.pos_iff_ne_zero.mp hn), if_neg hneg]
  · have r : |(roundEven (dbl ((nh : ℚ) * dbl ((W : ℚ) / nw))) : ℚ) - dbl ((nh : ℚ) * dbl ((W : ℚ) / nw))| ≤ 1 / 2 := by
      have hz := b0
      generalize dbl ((nh : ℚ) * dbl ((W : ℚ) / nw)) = z at *
      by_contra hc
      rw [not_le] at hc
      have k1 := roundEven_nearest hz ⌊z⌋
      have k2 := roundEven_nearest hz (⌊z⌋ + 1)
      have f1 := Int.floor_le z
      have f2 := Int.lt_floor_add_one z
      push_cast at k2
      rw [abs_of_nonpos (a := (⌊z⌋ : ℚ) - z) (by linarith)] at k1
      rw [abs_of_nonneg (a := (⌊z⌋ : ℚ) + 1 - z) (by linarith)] at k2
      linarith
    have u1 : (nh : ℚ) * dbl ((W : ℚ) / nw) ≤ nh * ((W : ℚ) / nw + (W : ℚ) / nw / 2 ^ 53 + 1 / 2 ^ 60) := mul_le_mul_of_nonneg_left a.1 hh
    have u2 : nh * ((W : ℚ) / nw - (W : ℚ) / nw / 2 ^ 53 - 1 / 2 ^ 60) ≤ (nh : ℚ) * dbl ((W : ℚ) / nw) := mul_le_mul_of_nonneg_left a.2 hh
    have e : (nh : ℚ) * W / nw = nh * ((W : ℚ) / nw) := by ring
    rw [e]
    have qq : 0 ≤ (nh : ℚ) * ((W : ℚ) / nw) := mul_nonneg hh q0
    have e1 : nh * ((W : ℚ) / nw + (W : ℚ) / nw / 2 ^ 53 + 1 / 2 ^ 60) = nh * ((W : ℚ) / nw) + nh * ((W : ℚ) / nw) / 2 ^ 53 + nh / 2 ^ 60 := by ring
    have e2 : nh * ((W : ℚ) / nw - (W : ℚ) / nw / 2 ^ 53 - 1 / 2 ^ 60) = nh * ((W : ℚ) / nw) - nh * ((W : ℚ) / nw) / 2 ^ 53 - nh / 2 ^ 60 := by ring
    rw [e1] at u1
    rw [e2] at u2
    push_cast at r ⊢
    generalize (roundEven (dbl ((nh : ℚ) * dbl ((W : ℚ) / nw))) : ℚ) = H at *
    generalize (nh : ℚ) * ((W : ℚ) / nw) = q at *
    generalize (nh : ℚ) * dbl ((W : ℚ) / nw) = p at *
    generalize dbl p = z at *
    obtain ⟨r1, r2⟩ := abs_le.mp r
    rw [abs_le]
    have hb' : (nh : ℚ) ≤ 1099511627776 := hb.trans (by norm_num)
    norm_num at a b u1 u2 ⊢
    constructor <;> linarith

/-- a picture with at most 0.83 times its width as height fits on a turned letter page -/
theorem flat_fits {nw nh : ℕ} (hn : 0 < nw) (hnh : nh ≤ 2 ^ 40) (hf : 100 * nh ≤ 83 * nw) :
    ∃ p, insertImg 8404479 none nw nh = .ok p ∧ Fits ⟨10058400, 7772400, 360045, 360045, 360045, 360045⟩ p := by
  obtain ⟨H, he, h0, hb⟩ := proportions (W := 8404479) (by norm_num) hn hnh
  refine ⟨_, he, by show (8404479 : ℤ) ≤ 10058400 - 360045 - 360045; norm_num, ?_⟩
  show H ≤ 7772400 - 360045 - 360045
  have hn' : (0 : ℚ) < nw := by exact_mod_cast hn
  have hf' : (100 : ℚ) * nh ≤ 83 * nw := by exact_mod_cast hf
  have q : (nh : ℚ) * (8404479 : ℤ) / nw ≤ 83 / 100 * 8404479 := by
    rw [div_le_iff₀ hn']
    push_cast
    linarith
  have := (abs_le.mp hb).2
  generalize (nh : ℚ) * (8404479 : ℤ) / nw = x at *
  have : (H : ℚ) ≤ 7052310 := by norm_num at *; linarith
  exact_mod_cast this

/-- False of the code: a square picture is higher than the turned page -/
theorem square_overflows : ∃ l W t, initAtlas letter true = .ok (l, W) ∧ l.getLast? = some t ∧
    ∀ n : ℕ, 0 < n → n ≤ 2 ^ 40 → ∃ p, insertImg W none n n = .ok p ∧ ¬ Fits t p := by
  refine ⟨_, _, _, letter_widths.1, rfl, fun n hn hb => ?_⟩
  obtain ⟨H, he, h0, hc⟩ := proportions (W := 8404479) (by norm_num) hn hb
  refine ⟨_, he, fun hf => ?_⟩
  have h2 : H ≤ 7772400 - 360045 - 360045 := hf.2
  have hn' : (n : ℚ) ≠ 0 := by exact_mod_cast hn.ne'
  rw [mul_div_assoc, mul_comm, div_mul_cancel₀ _ hn'] at hc
  have := (abs_le.mp hc).1
  have h3 : (H : ℚ) ≤ 7052310 := by exact_mod_cast h2
  norm_num at *
  linarith

end F4Enix.Plot
