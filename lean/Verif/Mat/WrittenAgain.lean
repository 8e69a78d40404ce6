import Verif.Base.DecimalDouble
import Verif.Mat.Numbers
import Verif.Mat.CollapseProps
/-!
# Materials written, read and written again (C110)

`Mat/Numbers` gives what is read from the text of a material. Here: writing what was read gives the same text, also when the numbers read become
64-bit floats (`Base/Binary64`).
-/
namespace F4Enix.Mat
open F4Enix F4Enix.Write

/-! ## Model -/

/-- `float(word)` (materials.py:145-167), the number rounded to a float; a number too large for a float would become an infinity: not modelled, the
theorems have `Ordinary` numbers -/
def floatNum (s : Str) : Option ℚ := (parseFloat s).map dbl

/-! ## Specification -/

/-- a part as the program makes it: its elements are those of its zaids, grouped (specification) -/
def Grouped (s : SubMat) : Prop := s.elements = collapse s.zaids ∧ ∀ z ∈ s.zaids, Canon z

/-- the float read for a fraction written (specification) -/
def sevenF (q : ℚ) : ℚ := dbl (seven q)

/-- what is written behind a zaid does not depend on its fraction (specification) -/
def InfoNames (info : Zaid → Str) : Prop := ∀ z f, info { z with fraction := f } = info z

/-! ## Grouping of grouped zaids -/

theorem set_absent {κ ν : Type} [DecidableEq κ] {d : Dict κ ν} {k : κ} (h : k ∉ Dict.keys d) (v : ν) : Dict.set d k v = d ++ [(k, v)] := by
  induction d with
  | nil => rfl
  | cons p d ih =>
    obtain ⟨k', v'⟩ := p
    simp only [Dict.keys, List.map_cons, List.mem_cons, not_or] at h
    simp only [Dict.set]
    rw [if_neg (Ne.symm h.1), ih h.2]
    rfl

theorem set_last {κ ν : Type} [DecidableEq κ] {d : Dict κ ν} {k : κ} (h : k ∉ Dict.keys d) (v v' : ν) :
    Dict.set (d ++ [(k, v)]) k v' = d ++ [(k, v')] := by
  induction d with
  | nil => simp [Dict.set]
  | cons p d ih =>
    obtain ⟨k', w⟩ := p
    simp only [Dict.keys, List.map_cons, List.mem_cons, not_or] at h
    simp only [List.cons_append, Dict.set]
    rw [if_neg (Ne.symm h.1), ih h.2]

theorem get_last {κ ν : Type} [DecidableEq κ] {d : Dict κ ν} {k : κ} (h : k ∉ Dict.keys d) (v : ν) : Dict.get? (d ++ [(k, v)]) k = some v := by
  rw [← set_absent h v, Dict.get?_set, if_pos rfl]

theorem sumNames_nodup (zs : List Zaid) (d : Dict Str ℚ) (hn : (zs.map Zaid.name).Nodup) (hd : ∀ z ∈ zs, z.name ∉ Dict.keys d) :
    sumNames d zs = d ++ zs.map (fun z => (z.name, z.fraction)) := by
  induction zs generalizing d with
  | nil => simp [sumNames]
  | cons z zs ih =>
    have h0 := hd z (by simp)
    rw [List.map_cons, List.nodup_cons] at hn
    rw [sumNames, (Dict.get?_eq_none_iff _ _).2 h0]
    simp only
    rw [ih _ hn.2]
    · rw [set_absent h0]; simp
    · intro y hy hk
      rw [Dict.mem_keys_set] at hk
      rcases hk with hk | hk
      · exact hn.1 (hk ▸ List.mem_map.2 ⟨y, hy, rfl⟩)
      · exact hd y (by simp [hy]) hk

theorem mkElement_nodup {e : Element} (hne : e.zaids ≠ []) (he : ∀ y ∈ e.zaids, y.element = e.z) (hc : ∀ y ∈ e.zaids, Canon y)
    (hn : (e.zaids.map Zaid.name).Nodup) : mkElement e.zaids = e := by
  obtain ⟨z, zs⟩ := e
  unfold mkElement
  rw [lastElement_const hne he, sumNames_nodup _ _ hn (by simp [Dict.keys]), List.nil_append, List.map_map]
  congr 1
  conv_rhs => rw [← List.map_id zs]
  exact List.map_congr_left (fun y hy => by
    show fromString y.name y.fraction = y
    rw [fromString_name (hc y hy)])

theorem group_append (d : Dict Str (List Zaid)) (xs ys : List Zaid) : groupByElement d (xs ++ ys) = groupByElement (groupByElement d xs) ys := by
  induction xs generalizing d with
  | nil => rfl
  | cons z zs ih =>
    simp only [List.cons_append, groupByElement]
    split <;> exact ih _

theorem group_more {k : Str} {d : Dict Str (List Zaid)} (hk : k ∉ Dict.keys d) (l : List Zaid) (zs : List Zaid) (h : ∀ z ∈ zs, z.element = k) :
    groupByElement (d ++ [(k, l)]) zs = d ++ [(k, l ++ zs)] := by
  induction zs generalizing l with
  | nil => simp [groupByElement]
  | cons z zs ih =>
    have hz := h z (by simp)
    rw [groupByElement, hz, get_last hk]
    simp only
    rw [set_last hk, ih _ (fun y hy => h y (by simp [hy]))]
    simp

theorem group_block {k : Str} {d : Dict Str (List Zaid)} (hk : k ∉ Dict.keys d) {zs : List Zaid} (hne : zs ≠ []) (h : ∀ z ∈ zs, z.element = k) :
    groupByElement d zs = d ++ [(k, zs)] := by
  cases zs with
  | nil => exact absurd rfl hne
  | cons z zs =>
    have hz := h z (by simp)
    rw [groupByElement, hz, (Dict.get?_eq_none_iff _ _).2 hk]
    simp only
    rw [set_absent hk, group_more hk _ _ (fun y hy => h y (by simp [hy]))]
    simp

theorem group_flat (es : List Element) (d : Dict Str (List Zaid)) (hd : ∀ e ∈ es, e.z ∉ Dict.keys d) (hz : (es.map Element.z).Nodup)
    (hne : ∀ e ∈ es, e.zaids ≠ []) (he : ∀ e ∈ es, ∀ y ∈ e.zaids, y.element = e.z) :
    groupByElement d (es.flatMap Element.zaids) = d ++ es.map (fun e => (e.z, e.zaids)) := by
  induction es generalizing d with
  | nil => simp [groupByElement]
  | cons e es ih =>
    rw [List.map_cons, List.nodup_cons] at hz
    rw [List.flatMap_cons, group_append, group_block (hd e (by simp)) (hne e (by simp)) (he e (by simp)), ih _ _ hz.2
      (fun x hx => hne x (by simp [hx])) (fun x hx => he x (by simp [hx]))]
    · simp
    · intro x hx hk
      simp only [Dict.keys, List.map_append, List.map_cons, List.map_nil, List.mem_append, List.mem_singleton] at hk
      rcases hk with hk | hk
      · exact hd x (by simp [hx]) hk
      · exact hz.1 (hk ▸ List.mem_map.2 ⟨x, hx, rfl⟩)

/-- zaids that are grouped already are grouped as they are -/
theorem collapse_flat {es : List Element} (hz : (es.map Element.z).Nodup) (hne : ∀ e ∈ es, e.zaids ≠ [])
    (he : ∀ e ∈ es, ∀ y ∈ e.zaids, y.element = e.z ∧ Canon y) (hn : ∀ e ∈ es, (e.zaids.map Zaid.name).Nodup) :
    collapse (es.flatMap Element.zaids) = es := by
  unfold collapse
  rw [group_flat es [] (by simp [Dict.keys]) hz hne (fun e h y hy => (he e h y hy).1), List.nil_append, List.map_map]
  conv_rhs => rw [← List.map_id es]
  exact List.map_congr_left (fun e h => mkElement_nodup (hne e h) (fun y hy => (he e h y hy).1) (fun y hy => (he e h y hy).2) (hn e h))

/-- the fractions changed, the grouping as it was (proof) -/
def recalc (g : ℚ → ℚ) (e : Element) : Element := ⟨e.z, e.zaids.map (fun z => { z with fraction := g z.fraction })⟩

/-- **C110 (grouping).** The zaids that were written, with their fractions rounded, are written by the material read in the same order. -/
theorem rounded_written {s : SubMat} (h : Grouped s) (g : ℚ → ℚ) :
    (rounded g s).written = s.written.map (fun z => { z with fraction := g z.fraction }) := by
  obtain ⟨h1, hc⟩ := h
  have hflat : s.written.map (fun z => { z with fraction := g z.fraction }) = ((collapse s.zaids).map (recalc g)).flatMap Element.zaids := by
    unfold SubMat.written
    rw [h1, List.flatMap_map, List.map_flatMap]
    rfl
  show (collapse (s.written.map (fun z => { z with fraction := g z.fraction }))).flatMap Element.zaids = _
  rw [hflat, collapse_flat]
  · rw [List.map_map]
    exact collapse_elements_nodup s.zaids
  · intro e he
    obtain ⟨e0, h0, rfl⟩ := List.mem_map.1 he
    simp only [collapse, List.mem_map] at h0
    obtain ⟨p, hp, rfl⟩ := h0
    have hinv := mem_groups.2 p hp
    intro hnil
    have h3 : (mkElement p.2).zaids = [] := by
      simpa [recalc] using hnil
    have h4 := mkElement_names (zs := p.2) (fun z hz => hc z (hinv.2 z hz).2)
    rw [h3] at h4
    obtain ⟨z, hz⟩ := List.exists_mem_of_ne_nil _ hinv.1
    have h5 : z.name ∈ Dict.keys (sumNames [] p.2) := by
      rw [mem_keys_sumNames]
      exact Or.inr ⟨z, hz, rfl⟩
    rw [← h4] at h5
    simp at h5
  · intro e he y hy
    obtain ⟨e0, h0, rfl⟩ := List.mem_map.1 he
    obtain ⟨y0, hy0, rfl⟩ := List.mem_map.1 hy
    refine ⟨(collapse_groups hc e0 h0 y0 hy0).1, ?_⟩
    exact canon_of_same (collapse_canon hc y0 (List.mem_flatMap.2 ⟨e0, h0, hy0⟩)) rfl rfl rfl
  · intro e he
    obtain ⟨e0, h0, rfl⟩ := List.mem_map.1 he
    have hn := collapse_names_nodup hc
    rw [List.map_flatMap, List.nodup_flatMap] at hn
    have := hn.1 e0 h0
    simp only [recalc, List.map_map]
    exact this

/-! ## Text again -/

theorem upper_upper (s : Str) : Inp.upper (Inp.upper s) = Inp.upper s := by
  unfold Inp.upper
  rw [List.map_map]
  apply List.map_congr_left
  intro c _
  simp only [Function.comp]
  by_cases h : 97 ≤ c.toNat ∧ c.toNat ≤ 122
  · have key : ∀ k < 26, Inp.upperC (Char.ofNat (65 + k)) = Char.ofNat (65 + k) := by decide
    have e : Inp.upperC c = Char.ofNat (c.toNat - 32) := by unfold Inp.upperC; rw [if_pos h]
    have := key (c.toNat - 97) (by omega)
    rw [show 65 + (c.toNat - 97) = c.toNat - 32 by omega] at this
    rw [e, this]
  · have e : Inp.upperC c = c := by unfold Inp.upperC; rw [if_neg h]
    rw [e, e]

/-- **C110 (text).** If printing what was read for a number gives the text of the number again, the material that is read is written as the material was. -/
theorem written_again {fmt : ℚ → Str} {info : Zaid → Str} {g : ℚ → ℚ} (hi : InfoNames info) {m : TMat} (hm : m.mx = [])
    (hg : ∀ s ∈ m.subs, Grouped s) (hf : ∀ s ∈ m.subs, ∀ z ∈ s.written, fmt (g z.fraction) = fmt z.fraction) :
    (⟨Inp.upper m.name, m.header, m.subs.map (rounded g), []⟩ : TMat).toText fmt info = m.toText fmt info := by
  have hs : (m.subs.map (rounded g)).flatMap (fun s => '\n' :: s.toText fmt info) = m.subs.flatMap (fun s => '\n' :: s.toText fmt info) := by
    rw [List.flatMap_map]
    apply List.flatMap_congr
    intro s hs
    congr 1
    unfold SubMat.toText
    have e1 : (rounded g s).header = s.header := rfl
    have e2 : (rounded g s).keys = s.keys := rfl
    have e3 : (rounded g s).written.flatMap (fun z => zaidLine fmt info z ++ ['\n']) = s.written.flatMap (fun z => zaidLine fmt info z ++ ['\n']) := by
      rw [rounded_written (hg s hs), List.flatMap_map]
      apply List.flatMap_congr
      intro z hz
      congr 1
      unfold zaidLine
      rw [hi, name_withFraction]
      simp only [hf s hs z hz]
    rw [e1, e2, e3]
  unfold TMat.toText
  simp only [hs, hm, upper_upper]

theorem seven_again (q : ℚ) : fmtDecimal 6 (seven q) = fmtDecimal 6 q := by
  have hs : sciParts 6 (roundSig 6 q) = sciParts 6 q := sciParts_roundSig 6 q
  have hz : roundSig 6 q = 0 ↔ q = 0 := by
    constructor
    · intro hc; by_contra h0; exact (roundSig_sign 6 h0).2 hc
    · rintro rfl; exact roundSig_zero 6
  unfold seven
  simp only [fmtDecimal, hs, signStr_roundSig, hz]

/-- **C110**, a material written, read and written again: the text is the same, the fractions being exact numbers. Partial: as
`material_numbers_partial`. -/
theorem material_text_again_partial {info : Zaid → Str} (hi : InfoOk info) (hin : InfoNames info) {m : TMat} {hs : List Str} {css : List (List Str)}
    (h : TMatOk m hs css) (hg : ∀ s ∈ m.subs, Grouped s) :
    ∃ m', matFromText parseFloat (fileLines (m.toText (fmtDecimal 6) info ++ ['\n'])) = .ok m' ∧
      m'.toText (fmtDecimal 6) info = m.toText (fmtDecimal 6) info :=
  ⟨_, material_numbers_partial hi h, written_again hin h.mx hg (fun _ _ z _ => seven_again z.fraction)⟩

theorem decimal_float_ok : FmtOk floatNum (fmtDecimal 6) sevenF :=
  ⟨decimal_ok.word, fun q => by unfold floatNum; rw [decimal_ok.back]; rfl⟩

/-- **C110**, the numbers read being 64-bit floats: the material read has the fractions of the one written, rounded to seven digits and to the nearest
float, of the same sign and within a relative error of `1 / 1999999`; written again it gives the same text. Partial: as `material_numbers_partial`. -/
theorem material_floats_partial {info : Zaid → Str} (hi : InfoOk info) (hin : InfoNames info) {m : TMat} {hs : List Str} {css : List (List Str)}
    (h : TMatOk m hs css) (hg : ∀ s ∈ m.subs, Grouped s) (ho : ∀ s ∈ m.subs, ∀ z ∈ s.written, Ordinary z.fraction) :
    ∃ m', matFromText floatNum (fileLines (m.toText (fmtDecimal 6) info ++ ['\n'])) = .ok m' ∧
      m'.toText (fmtDecimal 6) info = m.toText (fmtDecimal 6) info ∧ m'.name = Inp.upper m.name ∧ m'.header = m.header ∧
      List.Forall₂ (fun s s' => s'.header = s.header ∧ s'.keys = s.keys ∧
        List.Forall₂ (fun z z' => z'.name = z.name ∧ |z'.fraction - z.fraction| ≤ |z.fraction| / 1999999 ∧
          (z'.fraction < 0 ↔ z.fraction < 0) ∧ (z'.fraction = 0 ↔ z.fraction = 0)) s.written s'.written) m.subs m'.subs := by
  refine ⟨_, material_round_trip_partial decimal_float_ok hi h, written_again hin h.mx hg (fun s hs z hz => ?_), rfl, rfl, ?_⟩
  · exact (print_read_print (p := 6) (by norm_num) (ho s hs z hz)).2.2
  · rw [List.forall₂_map_right_iff, List.forall₂_same]
    intro s hs
    refine ⟨rfl, rfl, ?_⟩
    rw [rounded_written (hg s hs), List.forall₂_map_right_iff, List.forall₂_same]
    intro z hz
    have hz' := ho s hs z hz
    have hr : Ordinary (seven z.fraction) := roundSig_ordinary 6 hz'
    obtain ⟨s1, -, -, -, s2⟩ := seven_exact
    obtain ⟨d1, d2⟩ := dbl_sign hr
    refine ⟨name_withFraction z _, ?_, d1.trans (s2 _).1, d2.trans (s2 _).2⟩
    show |sevenF z.fraction - z.fraction| ≤ _
    generalize z.fraction = q at *
    by_cases h0 : q = 0
    · subst h0; simp [sevenF, seven, roundSig_zero, dbl_zero]
    have h1 := s1 q
    have h2 : |dbl (seven q) - seven q| ≤ |seven q| / 2 ^ 53 := dbl_near (ordinary_normal hr (fun hc => h0 ((s2 q).2.1 hc)))
    have h3 : |seven q| ≤ |q| + |q| / 2000000 := by
      have := abs_add_le (seven q - q) q
      rw [sub_add_cancel] at this
      linarith
    have h4 : |dbl (seven q) - q| ≤ |dbl (seven q) - seven q| + |seven q - q| := abs_sub_le _ _ _
    have hp := abs_pos.2 h0
    have h5 : |seven q| / 2 ^ 53 ≤ (|q| + |q| / 2000000) / 2 ^ 53 := div_le_div_of_nonneg_right h3 (by positivity)
    unfold sevenF
    norm_num at h5 ⊢
    linarith

/-- the material of `Mat/TextRound` meets the hypotheses -/
example : ∃ m', matFromText floatNum (fileLines (exMat.toText (fmtDecimal 6) (fun _ => []) ++ ['\n'])) = .ok m' ∧
    m'.toText (fmtDecimal 6) (fun _ => []) = exMat.toText (fmtDecimal 6) (fun _ => []) := by
  have hg : ∀ s ∈ exMat.subs, Grouped s := by
    intro s hs
    have hh : ∀ s ∈ exMat.subs, s.elements = collapse s.zaids := by decide +kernel
    refine ⟨hh s hs, fun z hz => ?_⟩
    have hc : ∀ s ∈ exMat.subs, ∀ z ∈ s.zaids, ('.' ∉ z.element ∧ '.' ∉ z.isotope ∧ (∀ l ∈ z.library, '.' ∉ l) ∧ z.isotope.length = 3) := by decide +kernel
    obtain ⟨a, b, c, d⟩ := hc s hs z hz
    exact ⟨a, b, fun l hl => c l hl, Or.inl d⟩
  obtain ⟨m', h1, h2, -⟩ := material_floats_partial (info := fun _ => []) (fun _ _ h => by cases h) (fun _ _ => rfl) ex_mat hg (by
    intro s hs z hz
    have : ∀ s ∈ exMat.subs, ∀ z ∈ s.written, z.fraction = 0 ∨ (1 / 100 ≤ |z.fraction| ∧ |z.fraction| ≤ 100) := by decide +kernel
    rcases this s hs z hz with h | ⟨h1, h2⟩
    · exact Or.inl h
    · refine Or.inr ⟨le_trans ?_ h1, le_trans h2 ?_⟩
      · refine le_trans (zpow_le_zpow_right₀ (a := (10 : ℚ)) (by norm_num) (by norm_num : (-307 : ℤ) ≤ -2)) (by norm_num)
      · refine le_trans ?_ (zpow_le_zpow_right₀ (a := (10 : ℚ)) (by norm_num) (by norm_num : (2 : ℤ) ≤ 308))
        norm_num)
  exact ⟨m', h1, h2⟩

end F4Enix.Mat
