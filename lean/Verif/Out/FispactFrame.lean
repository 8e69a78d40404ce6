import Verif.Out.FispactProps
import Verif.Out.PathwaysGet
/-!
# Model of `PathwayCollection.to_dataframe`

`src/f4enix/output/fispact_legacy_out.py:230-273`. The frame is a list of rows with its index (daughter, contribution) as the first two fields. Among
rows with equal numbers `sort_values` states no order (the model keeps one). `get_zaidnum` is `LibMan.zaidNum` of `Mat/Names.lean`.
-/
namespace F4Enix.FispFrame
open F4Enix F4Enix.Fispact F4Enix.Mat
open F4Enix.Path (lexLe lexLe_total lexLe_trans lexLe_digits zaidNum_nuclide digitsVal_append)

/-- a row of the frame (fispact_legacy_out.py:230-273) -/
structure FrameRow where
  daughter : Str
  perc : ℚ
  parent : Str
  intermediates : List Str
  reactions : List Str
  deriving DecidableEq, Repr

/-- the row of a pathway (fispact_legacy_out.py:245-259) -/
def rowOf (p : Pathway) : FrameRow :=
  { daughter := p.daughter.str, perc := p.perc, parent := p.parent.str,
    intermediates := match p.intermediates with
      | none => []
      | some l => l.map Fispact.Zaid.str,
    reactions := p.reactions }

/-- the column `isotope_sort` (fispact_legacy_out.py:257) -/
def withNumber (lm : LibMan) : List Pathway → Except PyErr (List (Str × FrameRow))
  | [] => .ok []
  | p :: ps =>
    match lm.zaidNum p.daughter.str with
    | .error e => .error e
    | .ok z =>
      match withNumber lm ps with
      | .error e => .error e
      | .ok zs => .ok ((z, rowOf p) :: zs)

/-- `to_dataframe` (fispact_legacy_out.py:230-273): without pathways the six titles do not fit the columns (`ValueError`) -/
def toDataframe (lm : LibMan) (ps : List Pathway) : Except PyErr (List FrameRow) :=
  match withNumber lm ps with
  | .error e => .error e
  | .ok zs => if zs = [] then .error .valueError else .ok ((zs.insertionSort (fun a b => lexLe a.1 b.1 = true)).map Prod.snd)

/-! ### lemmas -/

theorem withNumber_spec {lm : LibMan} {ps : List Pathway} {zs : List (Str × FrameRow)} (h : withNumber lm ps = .ok zs) :
    zs.map Prod.snd = ps.map rowOf ∧ ∀ z ∈ zs, lm.zaidNum z.2.daughter = .ok z.1 := by
  induction ps generalizing zs with
  | nil => simp only [withNumber, Except.ok.injEq] at h; subst h; exact ⟨rfl, by simp⟩
  | cons p ps ih =>
    rw [withNumber] at h
    split at h
    · cases h
    · rename_i z hz
      split at h
      · cases h
      · rename_i zs' hzs
        simp only [Except.ok.injEq] at h
        subst h
        obtain ⟨i1, i2⟩ := ih hzs
        refine ⟨by rw [List.map_cons, i1, List.map_cons], ?_⟩
        intro x hx
        rcases List.mem_cons.1 hx with rfl | hx
        · exact hz
        · exact i2 x hx

theorem withNumber_ok {lm : LibMan} {ps : List Pathway} (h : ∀ p ∈ ps, ∃ z, lm.zaidNum p.daughter.str = .ok z) : ∃ zs, withNumber lm ps = .ok zs := by
  induction ps with
  | nil => exact ⟨_, rfl⟩
  | cons p ps ih =>
    obtain ⟨z, hz⟩ := h p (by simp)
    obtain ⟨zs, hzs⟩ := ih (fun q hq => h q (by simp [hq]))
    exact ⟨(z, rowOf p) :: zs, by rw [withNumber, hz]; simp only; rw [hzs]⟩

theorem withNumber_err {lm : LibMan} {pre ps : List Pathway} {p : Pathway} {e : PyErr} (h : ∀ q ∈ pre, ∃ z, lm.zaidNum q.daughter.str = .ok z)
    (he : lm.zaidNum p.daughter.str = .error e) : withNumber lm (pre ++ p :: ps) = .error e := by
  induction pre with
  | nil => rw [List.nil_append, withNumber, he]
  | cons q pre ih =>
    obtain ⟨z, hz⟩ := h q (by simp)
    rw [List.cons_append, withNumber, hz]
    simp only
    rw [ih (fun x hx => h x (by simp [hx]))]

theorem perm_map {α β : Type} {f : α → β} {l : List β} {ps : List α} (h : l.Perm (ps.map f)) : ∃ qs : List α, qs.Perm ps ∧ l = qs.map f := by
  induction l generalizing ps with
  | nil =>
    have := h.nil_eq
    refine ⟨[], ?_, rfl⟩
    cases ps with
    | nil => exact .refl _
    | cons p ps => simp at this
  | cons a l ih =>
    obtain ⟨p, hp, rfl⟩ := List.mem_map.1 (h.mem_iff.1 (List.mem_cons_self ..))
    obtain ⟨s, t, rfl⟩ := List.append_of_mem hp
    have h2 : l.Perm ((s ++ t).map f) := by
      have : ((s ++ p :: t).map f).Perm (f p :: (s ++ t).map f) := by
        rw [List.map_append, List.map_cons, List.map_append]
        exact List.perm_middle
      exact (List.perm_cons _).1 (h.trans this)
    obtain ⟨qs, q1, rfl⟩ := ih h2
    exact ⟨p :: qs, (q1.cons p).trans List.perm_middle.symm, rfl⟩

/-! ### claims -/

/-- the daughter of the row is a nuclide: symbol of element `z`, mass number `a` below 1000, an `m` for a metastable state (specification) -/
structure Daughter (lm : LibMan) (d : Fispact.Zaid) (z a : ℕ) : Prop where
  symbol : d.element ≠ [] ∧ (∀ c ∈ d.element, Mat.isLetter c = true) ∧ lm.numberOf d.element = some z
  isotope : d.isotope = natStr a
  mass : a < 1000

theorem daughter_num {lm : LibMan} {d : Fispact.Zaid} {z a : ℕ} (h : Daughter lm d z a) : lm.zaidNum d.str = .ok (natStr z ++ pad3 a) := by
  unfold Fispact.Zaid.str
  rw [h.isotope, List.append_assoc]
  refine zaidNum_nuclide lm h.symbol.1 h.symbol.2.1 h.symbol.2.2 ?_
  cases d.metastable <;> decide

/-- what a row shows of a pathway (specification) -/
def RowShows (r : FrameRow) (p : Pathway) : Prop :=
  r.parent = p.parent.str ∧ r.daughter = p.daughter.str ∧ r.perc = p.perc ∧ r.reactions = p.reactions ∧
  r.intermediates = (p.intermediates.getD []).map Fispact.Zaid.str

theorem rowOf_shows (p : Pathway) : RowShows (rowOf p) p := by
  refine ⟨rfl, rfl, rfl, rfl, ?_⟩
  unfold rowOf
  cases p.intermediates <;> rfl

/-- **C177.** If the daughters are nuclides of the table of elements, the frame has exactly one row for each pathway, with its parent, intermediates,
reactions, daughter and contribution; between daughters whose element numbers have equally many digits the rows are ordered by element number, then mass
number. Partial: Rows proved, order proved for numbers of the same number of digits; false for light elements, whose numbers are compared as texts. An empty collection is refused. -/
theorem frame_rows_partial {lm : LibMan} {ps : List Pathway} (h0 : ps ≠ []) (h : ∀ p ∈ ps, ∃ z a, Daughter lm p.daughter z a) :
    ∃ rows, toDataframe lm ps = .ok rows ∧
    (∃ qs : List Pathway, qs.Perm ps ∧ List.Forall₂ RowShows rows qs ∧
      qs.Pairwise (fun p q => ∀ z a z' a', Daughter lm p.daughter z a → Daughter lm q.daughter z' a' →
        (natStr z).length = (natStr z').length → z < z' ∨ (z = z' ∧ a ≤ a'))) := by
  obtain ⟨zs, hzs⟩ := withNumber_ok (lm := lm) (ps := ps) (fun p hp => by
    obtain ⟨z, a, hd⟩ := h p hp
    exact ⟨_, daughter_num hd⟩)
  obtain ⟨h1, h2⟩ := withNumber_spec hzs
  have hz0 : zs ≠ [] := by
    rintro rfl
    cases ps with
    | nil => exact h0 rfl
    | cons p ps => simp at h1
  unfold toDataframe
  rw [hzs]
  simp only
  rw [if_neg hz0]
  refine ⟨_, rfl, ?_⟩
  have hperm := List.perm_insertionSort (fun a b : Str × FrameRow => lexLe a.1 b.1 = true) zs
  have : Std.Total (fun a b : Str × FrameRow => lexLe a.1 b.1 = true) := ⟨fun a b => lexLe_total _ _⟩
  have : IsTrans _ (fun a b : Str × FrameRow => lexLe a.1 b.1 = true) := ⟨fun a b c => lexLe_trans⟩
  have hsort := List.pairwise_insertionSort (fun a b : Str × FrameRow => lexLe a.1 b.1 = true) zs
  generalize zs.insertionSort (fun a b => lexLe a.1 b.1 = true) = ws at hperm hsort
  have hp2 : (ws.map Prod.snd).Perm (ps.map rowOf) := by rw [← h1]; exact hperm.map _
  obtain ⟨qs, hq1, hq2⟩ := perm_map hp2
  refine ⟨qs, hq1, ?_, ?_⟩
  · rw [hq2]
    clear hq1 hq2
    induction qs with
    | nil => exact .nil
    | cons q qs ih => exact .cons (rowOf_shows q) ih
  · have hpair : (ws.map Prod.snd).Pairwise (fun r r' => ∀ s s', lm.zaidNum r.daughter = .ok s → lm.zaidNum r'.daughter = .ok s' → lexLe s s' = true) := by
      rw [List.pairwise_map]
      refine List.Pairwise.imp_of_mem ?_ hsort
      intro a b ha hb hab s s' hs hs'
      rw [h2 a (hperm.mem_iff.1 ha)] at hs
      rw [h2 b (hperm.mem_iff.1 hb)] at hs'
      simp only [Except.ok.injEq] at hs hs'
      rw [← hs, ← hs']; exact hab
    rw [hq2, List.pairwise_map] at hpair
    refine hpair.imp ?_
    intro p q hle z a z' a' n n' hl
    have hle := hle _ _ (daughter_num n) (daughter_num n')
    have hd : ∀ z a, ∀ c ∈ natStr z ++ pad3 a, isDigit c = true := by
      intro z a c hc
      rcases List.mem_append.1 hc with hc | hc
      · exact natStr_all_digit z c hc
      · exact pad3_digits a c hc
    have := lexLe_digits (hd z a) (hd z' a') (by
      rw [List.length_append, List.length_append, hl, pad3_length n.mass, pad3_length n'.mass]) hle
    rw [digitsVal_append, digitsVal_append, digitsVal_natStr, digitsVal_natStr, digitsVal_pad3, digitsVal_pad3,
      pad3_length n.mass, pad3_length n'.mass] at this
    have h1 := n.mass
    have h2 := n'.mass
    omega

/-- **C177 is false of the code for light daughters**: numbers are compared as texts, so carbon (6) stands behind iron (26); no frame of a pathway to an
element below 10 and one to an element from 10 to 99 with a smaller first digit has them in the right order. -/
theorem frame_light {lm : LibMan} {p q : Pathway} {z a z' a' : ℕ} (h : Daughter lm p.daughter z a) (h' : Daughter lm q.daughter z' a') (hz : z < 10)
    (hz' : 10 ≤ z' ∧ z' < 100) (hd : z' / 10 < z) : toDataframe lm [p, q] = .ok [rowOf q, rowOf p] := by
  unfold toDataframe withNumber
  rw [daughter_num h]
  simp only
  unfold withNumber
  rw [daughter_num h']
  simp only [withNumber]
  rw [if_neg (by simp)]
  have hn : natStr z = [digitChar z] := by interval_cases z <;> decide
  have hn' : natStr z' = [digitChar (z' / 10), digitChar (z' % 10)] := by
    obtain ⟨h1, h2⟩ := hz'
    interval_cases z' <;> decide
  have hlt : (digitChar (z' / 10)).toNat < (digitChar z).toNat := by
    rw [digitChar_toNat (by omega), digitChar_toNat hz]; omega
  have hne : digitChar z ≠ digitChar (z' / 10) := by intro e; rw [e] at hlt; omega
  have hle : lexLe (natStr z ++ pad3 a) (natStr z' ++ pad3 a') = false := by
    rw [hn, hn']
    simp only [List.cons_append, lexLe, if_neg hne, decide_eq_false_iff_not]
    omega
  simp [List.insertionSort, List.orderedInsert, hle]

/-- **C177 (refusals).** Without pathways there is no frame but a `ValueError`; an element that is not in the table is a `KeyError`. -/
theorem frame_refused (lm : LibMan) : toDataframe lm [] = .error .valueError ∧
    ∀ (pre ps : List Pathway) (p : Pathway), (∀ q ∈ pre, ∃ z a, Daughter lm q.daughter z a) → p.daughter.element ≠ [] →
      (∀ c ∈ p.daughter.element, Mat.isLetter c = true) → (∀ c ∈ p.daughter.isotope, isDigit c = true) → p.daughter.isotope ≠ [] →
      lm.numberOf p.daughter.element = none → toDataframe lm (pre ++ p :: ps) = .error .keyError := by
  refine ⟨rfl, ?_⟩
  intro pre ps p hpre h1 h2 h3 h4 h5
  have he : lm.zaidNum p.daughter.str = .error .keyError := by
    unfold Fispact.Zaid.str
    rw [List.append_assoc]
    have e1 := searchLetters_prefix (rest := p.daughter.isotope ++ (if p.daughter.metastable then ['m'] else [])) h1 h2 (by
      intro c hc
      apply isDigit_not_letter
      cases hn : p.daughter.isotope with
      | nil => exact absurd hn h4
      | cons d ds =>
        rw [hn] at hc
        simp only [List.cons_append, List.head?_cons, Option.some.injEq] at hc
        subst hc
        exact h3 d (by rw [hn]; simp))
    simp only [LibMan.zaidNum, e1, h5]
  unfold toDataframe
  rw [withNumber_err (fun q hq => by
    obtain ⟨z, a, hd⟩ := hpre q hq
    exact ⟨_, daughter_num hd⟩) he]

/-! ### concrete cases -/

/-- `exMan` (example) -/
def exMan : LibMan := ⟨[], fun _ _ => false, [⟨"C12".toList, 6, "C".toList, 1, 12⟩, ⟨"Fe56".toList, 26, "Fe".toList, 1, 56⟩], [], []⟩
/-- `exCarbon` (example) -/
def exCarbon : Pathway := ⟨⟨"Fe".toList, "56".toList, false⟩, ⟨"C".toList, "14".toList, false⟩, 40, ["(n,x)".toList], none⟩
/-- `exIron` (example) -/
def exIron : Pathway := ⟨⟨"Fe".toList, "56".toList, false⟩, ⟨"Fe".toList, "53".toList, true⟩, 60, ["(n,x)".toList, "(b-)".toList], some [⟨"C".toList, "12".toList, false⟩]⟩

theorem ex_daughters : Daughter exMan exCarbon.daughter 6 14 ∧ Daughter exMan exIron.daughter 26 53 :=
  ⟨⟨by decide, by decide +kernel, by decide⟩, ⟨by decide, by decide +kernel, by decide⟩⟩

example : toDataframe exMan [exCarbon, exIron] = .ok [rowOf exIron, rowOf exCarbon] :=
  frame_light ex_daughters.1 ex_daughters.2 (by decide) (by decide) (by decide)

end F4Enix.FispFrame
