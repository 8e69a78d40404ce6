import Verif.Mat.InfoNotes
/-!
# `Material.from_zaids` (C174), the xml for OpenMC (C175) and examples for C170-C175
-/
namespace F4Enix.MatInfo
open F4Enix F4Enix.Mat

/-! ### from_zaids -/

theorem dropWhile_nil_iff {p : Char → Bool} {l : Str} : l.dropWhile p = [] ↔ ∀ c ∈ l, p c = true := by
  induction l with
  | nil => simp
  | cons c l ih =>
    by_cases h : p c = true
    · rw [List.dropWhile_cons_of_pos h, ih]
      simp [h]
    · rw [List.dropWhile_cons_of_neg h]
      simp [h]

/-- what a couple of a list given to `from_zaids` stands for: with letters in it the number of the formula, else the number that is given (specification) -/
def Means (lm : LibMan) (p : Str × ℚ) (z : Zaid) : Prop :=
  ∃ n : Str, ((searchLetters p.1 = none ∧ n = p.1) ∨ (searchLetters p.1 ≠ none ∧ lm.zaidNum p.1 = .ok n)) ∧
    z = ⟨p.2, dropLast3 n, last3 n, none⟩

theorem zaidNum_valueError (lm : LibMan) (t : Str) : lm.zaidNum t = .error .valueError ↔ searchLetters t = none := by
  unfold LibMan.zaidNum
  cases hs : searchLetters t with
  | none => simp
  | some name =>
    simp only
    cases hn : lm.numberOf name with
    | none => simp
    | some z => cases hd : searchDigits t <;> simp

theorem given_means {lm : LibMan} {p : Str × ℚ} {z : Zaid} (h : givenZaid lm p = .ok z) : Means lm p z := by
  unfold givenZaid at h
  cases hn : lm.zaidNum p.1 with
  | ok n =>
    simp only [hn, Except.ok.injEq] at h
    refine ⟨n, Or.inr ⟨?_, hn⟩, h.symm⟩
    intro hs
    rw [(zaidNum_valueError lm p.1).2 hs] at hn
    cases hn
  | error e =>
    cases e <;> simp only [hn] at h <;> cases h
    exact ⟨p.1, Or.inl ⟨(zaidNum_valueError lm p.1).1 hn, rfl⟩, rfl⟩

/-- **C174.** `from_zaids`: one submaterial with what the translation of the given zaids gives, the name, the header; the zaids of it are those
of the given zaids that can be translated. Partial: False: zaids that cannot be translated are dropped without a failure. -/
theorem fromZaids_ok_partial {lm : LibMan} {zs : List (Str × ℚ)} {lib name : Str} {id : ℕ} {m : Material} {hd : Str}
    (h : fromZaids lm zs lib name id = .ok (m, hd)) :
    m.name = 'M' :: natStr id ∧ hd = "C ".toList ++ name ∧ ∃ given s, List.Forall₂ (Means lm) zs given ∧ m.subs = [s] ∧
      s.zaids = (given.filter (kept (.one lib) lm)).flatMap (contrib (.one lib) lm) ∧ s.zaids ≠ [] ∧ s.elements = collapse s.zaids := by
  unfold fromZaids at h
  cases hg : mapE (givenZaid lm) zs with
  | error e => simp [hg] at h
  | ok given =>
    simp only [hg] at h
    cases ht : (mkSub given none []).translate (.one lib) lm with
    | error e => simp [ht] at h
    | ok s =>
      simp only [ht] at h
      have hparts := translate_parts ht
      by_cases hne : s.zaids = []
      · rw [if_pos hne] at h
        have : notes ⟨'M' :: natStr id, []⟩ lm = .error .valueError := by
          unfold notes
          have ht0 : (⟨'M' :: natStr id, []⟩ : Material).tot = 0 := rfl
          rw [(switch_noop _ lm).1 (le_of_eq ht0.symm)]
          simp only
          rw [(switch_noop _ lm).2 (le_of_eq ht0)]
          rfl
        rw [this] at h
        cases h
      · rw [if_neg hne] at h
        cases hn : notes ⟨'M' :: natStr id, [s]⟩ lm with
        | error e => simp [hn] at h
        | ok ns =>
          simp only [hn, Except.ok.injEq, Prod.mk.injEq] at h
          obtain ⟨rfl, rfl⟩ := h
          refine ⟨rfl, rfl, given, s, ?_, rfl, ?_, hne, hparts.2.1⟩
          · exact (mapE_ok hg).imp (fun _ _ h => given_means h)
          · obtain ⟨e1, e2⟩ := translateZaids_eq hparts.1
            rw [e1]
            have hz : (mkSub given none []).zaids = given := rfl
            rw [hz] at e2 ⊢
            clear e1 hg hn hne hparts ht hz
            induction given with
            | nil => rfl
            | cons z zs ih =>
              have ih' := ih (fun z hz => e2 z (List.mem_cons_of_mem _ hz))
              rw [List.flatMap_cons]
              by_cases hk : kept (.one lib) lm z = true
              · rw [List.filter_cons_of_pos hk, List.flatMap_cons, ih']
              · rw [List.filter_cons_of_neg hk, ← ih']
                have hnil : contrib (.one lib) lm z = [] := by
                  unfold kept at hk
                  unfold contrib
                  simp only [newTag, Bool.or_eq_true, not_or] at hk ⊢
                  unfold LibMan.translation
                  rw [if_neg hk.1]
                  cases hcv : lm.convert z.num lib with
                  | ok t => simp [hcv] at hk
                  | error e => cases e <;> rfl
                rw [hnil, List.nil_append]

theorem given_dropLast {n a : ℕ} (ha : a < 1000) : dropLast3 (natStr n ++ pad3 a) = natStr n ∧ last3 (natStr n ++ pad3 a) = pad3 a := by
  constructor
  · simp [dropLast3, pad3_length ha]
  · simp [last3, pad3_length ha]

/-- **C174.** A formula (`Fe-56`, `Fe56`) stands for that nuclide, a symbol alone for the natural element. -/
theorem given_formula (lm : LibMan) {sym : Str} {n a : ℕ} (h2 : sym ≠ []) (h3 : ∀ c ∈ sym, isLetter c = true) (h4 : lm.numberOf sym = some n)
    (ha : a < 1000) (f : ℚ) :
    givenZaid lm (sym ++ '-' :: natStr a, f) = .ok ⟨f, natStr n, pad3 a, none⟩ ∧
    givenZaid lm (sym ++ natStr a, f) = .ok ⟨f, natStr n, pad3 a, none⟩ ∧
    givenZaid lm (sym, f) = .ok ⟨f, natStr n, "000".toList, none⟩ := by
  have hnd : ∀ c ∈ sym, isDigit c = false := fun c hc => isLetter_not_digit (h3 c hc)
  refine ⟨?_, ?_, ?_⟩
  · have e1 : searchLetters (sym ++ '-' :: natStr a) = some sym :=
      searchLetters_prefix h2 h3 (by intro c hc; simp at hc; subst hc; decide)
    have e2 : searchDigits (sym ++ '-' :: natStr a) = some (natStr a) := by
      have := searchDigits_natStr (sym ++ ['-']) [] a (by
        intro c hc
        simp only [List.mem_append, List.mem_singleton] at hc
        rcases hc with hc | rfl
        · exact hnd c hc
        · decide) (by simp)
      simpa using this
    have : lm.zaidNum (sym ++ '-' :: natStr a) = .ok (natStr n ++ pad3 a) := by simp only [LibMan.zaidNum, e1, h4, e2, digitsVal_natStr]
    unfold givenZaid
    rw [this]
    simp only [(given_dropLast ha).1, (given_dropLast ha).2]
  · have e1 : searchLetters (sym ++ natStr a) = some sym := by
      apply searchLetters_prefix h2 h3
      intro c hc
      exact isDigit_not_letter (natStr_all_digit a c (List.mem_of_mem_head? hc))
    have e2 : searchDigits (sym ++ natStr a) = some (natStr a) := by
      have := searchDigits_natStr sym [] a hnd (by simp)
      simpa using this
    have : lm.zaidNum (sym ++ natStr a) = .ok (natStr n ++ pad3 a) := by simp only [LibMan.zaidNum, e1, h4, e2, digitsVal_natStr]
    unfold givenZaid
    rw [this]
    simp only [(given_dropLast ha).1, (given_dropLast ha).2]
  · have e1 : searchLetters sym = some sym := by
      have := searchLetters_prefix (rest := []) h2 h3 (by simp)
      simpa using this
    have e2 : searchDigits sym = none := by
      unfold searchDigits
      have : sym.dropWhile (fun c => !isDigit c) = [] := by
        rw [dropWhile_nil_iff]
        intro c hc
        simp [hnd c hc]
      rw [this]; rfl
    have : lm.zaidNum sym = .ok (natStr n ++ pad3 0) := by simp only [LibMan.zaidNum, e1, h4, e2]
    unfold givenZaid
    rw [this]
    simp only [(given_dropLast (show 0 < 1000 by norm_num)).1, (given_dropLast (show 0 < 1000 by norm_num)).2]
    rfl

/-- **C174.** A number (no letters in it) is taken as it is; an unknown symbol makes the call fail. -/
theorem given_number (lm : LibMan) {t : Str} (f : ℚ) :
    ((∀ c ∈ t, isLetter c = false) → givenZaid lm (t, f) = .ok ⟨f, dropLast3 t, last3 t, none⟩) ∧
    (∀ w, searchLetters t = some w → lm.numberOf w = none → givenZaid lm (t, f) = .error .keyError) := by
  constructor
  · intro h
    have : searchLetters t = none := by
      unfold searchLetters
      have : t.dropWhile (fun c => !isLetter c) = [] := by
        rw [dropWhile_nil_iff]
        intro c hc
        simp [h c hc]
      rw [this]; rfl
    unfold givenZaid
    rw [(zaidNum_valueError lm t).2 this]
  · intro w hw hn
    unfold givenZaid
    have : lm.zaidNum t = .error .keyError := by
      unfold LibMan.zaidNum
      rw [hw]
      simp only [hn]
    rw [this]

/-- **C174.** If none of the given zaids can be translated the call fails. -/
theorem fromZaids_none {lm : LibMan} {zs : List (Str × ℚ)} {lib name : Str} {id : ℕ} {given : List Zaid}
    (hg : mapE (givenZaid lm) zs = .ok given) (hk : ∀ z ∈ given, kept (.one lib) lm z = false) (p : Material × Str) :
    fromZaids lm zs lib name id ≠ .ok p := by
  intro h
  obtain ⟨m, hd⟩ := p
  obtain ⟨-, -, given', s, hf, -, hz, hne, -⟩ := fromZaids_ok_partial h
  have : given' = given := by
    have h2 := (mapE_ok hg).imp (fun _ _ h => given_means h)
    clear hg hk h hz hne
    induction hf generalizing given with
    | nil => cases h2; rfl
    | @cons p z ps zs' h1 _ ih =>
      cases h2 with
      | @cons _ z' _ zs'' h3 h4 =>
        rw [ih h4]
        obtain ⟨n, hn, rfl⟩ := h1
        obtain ⟨n', hn', rfl⟩ := h3
        have : n = n' := by
          rcases hn with ⟨a1, rfl⟩ | ⟨a1, a2⟩ <;> rcases hn' with ⟨b1, rfl⟩ | ⟨b1, b2⟩
          · rfl
          · exact absurd a1 b1
          · exact absurd b1 a1
          · rw [a2] at b2; cases b2; rfl
        rw [this]
  subst this
  have : given'.filter (kept (.one lib) lm) = [] := by
    rw [List.filter_eq_nil_iff]
    intro z hz
    rw [hk z hz]
    simp
  rw [this] at hz
  exact hne hz

/-- **C174.** By mass: of every element the amount that was given, of the zaids that could be translated. -/
theorem fromZaids_mass {lm : LibMan} (htab : TableOk lm) {zs : List (Str × ℚ)} {lib name : Str} {id : ℕ} {m : Material} {hd : Str} {given : List Zaid}
    (h : fromZaids lm zs lib name id = .ok (m, hd)) (hg : mapE (givenZaid lm) zs = .ok given) (hc : ∀ z ∈ given, Canon z)
    (hel : ∀ z ∈ given, ∃ n, lm.IsElement z n) (hneg : ∀ z ∈ given, z.fraction < 0) (e : Str) :
    elementAmount e m.zaids = elementAmount e (given.filter (kept (.one lib) lm)) := by
  unfold fromZaids at h
  simp only [hg] at h
  cases ht : (mkSub given none []).translate (.one lib) lm with
  | error e => simp [ht] at h
  | ok s =>
    simp only [ht] at h
    have hm : m.zaids = s.zaids := by
      cases hn : notes ⟨'M' :: natStr id, if s.zaids = [] then [] else [s]⟩ lm with
      | error e => simp [hn] at h
      | ok ns =>
        simp only [hn, Except.ok.injEq, Prod.mk.injEq] at h
        rw [← h.1]
        unfold Material.zaids
        by_cases h0 : s.zaids = []
        · simp [h0]
        · simp [h0]
    rw [hm]
    exact translate_mass_element lm htab ht hc hel hneg e

/-! ### xml -/

/-- **C175.** A material without density (every one that is read from an input) cannot be written as xml, and no list with one of them. -/
theorem xml_needs_density (lm : LibMan) (m : Material) (ms : List (Material × Option ℚ)) :
    matXml lm m none = .error .typeError ∧ ((∃ p ∈ ms, p.2 = none) → ∀ x, listXml lm ms ≠ .ok x) := by
  refine ⟨rfl, ?_⟩
  rintro ⟨p, hp, hn⟩ x hx
  unfold listXml at hx
  have hf := mapE_ok hx
  clear hx
  induction hf with
  | nil => simp at hp
  | @cons q y ps ys h1 _ ih =>
    rcases List.mem_cons.1 hp with rfl | hp
    · rw [hn] at h1
      cases h1
    · exact ih hp

/-- **C175.** What is written: the digits of the name, the name, the absolute value of the density with the units of its sign, and of each written
zaid, in order, its name without dash and its absolute amount, by mass if it is negative. -/
theorem xml_ok {lm : LibMan} {m : Material} {d : ℚ} {x : XMat} (h : matXml lm m (some d) = .ok x) :
    x.id = m.name.filter isDigit ∧ x.name = m.name ∧ x.density = |d| ∧
    (d < 0 → x.units = "g/cc".toList) ∧ (0 ≤ d → x.units = "atom/b-cm".toList) ∧
    List.Forall₂ (fun (z : Zaid) n => (∃ t, fullName lm z = .ok t ∧ n.name = t.filter (fun c => c != '-')) ∧ n.amount = |z.fraction| ∧
      (n.byMass = true ↔ z.fraction < 0)) (m.subs.flatMap SubMat.written) x.nuclides := by
  unfold matXml at h
  simp only at h
  cases hn : mapE (zaidXml lm) (m.subs.flatMap SubMat.written) with
  | error e => simp [hn] at h
  | ok ns =>
    simp only [hn, Except.ok.injEq] at h
    subst h
    refine ⟨rfl, rfl, rfl, ?_, ?_, ?_⟩
    · intro hd
      simp only
      rw [if_pos hd]
    · intro hd
      simp only
      rw [if_neg (not_lt.2 hd)]
    · refine (mapE_ok hn).imp ?_
      intro z n hz
      unfold zaidXml at hz
      cases hf : fullName lm z with
      | error e => simp [hf] at hz
      | ok t =>
        simp only [hf, Except.ok.injEq] at hz
        subst hz
        exact ⟨⟨t, rfl, rfl⟩, rfl, by simp⟩

/-- **C175.** The name of a nuclide is its symbol and its mass number without leading zeros (none for a natural element). For the zaids of
metastable nuclides (mass number above 300, e.g. 95642) this is not the name of the nuclide. -/
theorem xml_name_partial (lm : LibMan) {n a : ℕ} (ha : a < 1000) {sym : Str} (hs : lm.symbolOf n = some sym) (hd : '-' ∉ sym) (f : ℚ) (lib : Option Str) :
    zaidXml lm ⟨f, natStr n, pad3 a, lib⟩ = .ok ⟨sym ++ (if a = 0 then [] else natStr a), decide (f < 0), |f|⟩ := by
  have hpa : parseInt (pad3 a) = some (a : ℤ) := by
    rw [parseInt_digits (pad3_ne a) (pad3_digits a), digitsVal_pad3]
  have hfilter : ∀ s : Str, '-' ∉ s → s.filter (fun c => c != '-') = s := by
    intro s h
    rw [List.filter_eq_self]
    intro c hc
    simp only [bne_iff_ne, ne_eq]
    rintro rfl
    exact h hc
  have hnat : '-' ∉ natStr a := by
    intro h
    have := natStr_all_digit a _ h
    revert this; decide
  unfold zaidXml fullName
  simp only [parseInt_natStr, hs, hpa]
  by_cases h0 : a = 0
  · subst h0
    simp only [Nat.cast_zero, lt_irrefl, if_false, if_true]
    rw [hfilter sym hd, List.append_nil]
  · rw [if_pos (by omega : (0 : ℤ) < a), if_neg h0]
    simp only
    rw [List.filter_append, hfilter sym hd]
    have : ('-' :: intStr (a : ℤ)).filter (fun c => c != '-') = natStr a := by
      rw [List.filter_cons_of_neg (by simp)]
      exact hfilter _ hnat
    rw [this]

/-! ### examples -/

/-- by mass, two submaterials, an element with two nuclides (example) -/
def exInfoMat : Material := ⟨"M7".toList,
  [mkSub [⟨-2, "1".toList, "001".toList, some "31c".toList⟩, ⟨-6, "8".toList, "016".toList, some "31c".toList⟩] none [],
   mkSub [⟨-2, "3".toList, "006".toList, some "31c".toList⟩, ⟨-1, "3".toList, "007".toList, some "31c".toList⟩,
     ⟨-4, "3".toList, "006".toList, some "31c".toList⟩] none []]⟩

theorem exInfo_canon : ∀ z ∈ exInfoMat.zaids, Canon z := by
  intro z hz
  have : z.element.length = 1 ∧ z.isotope.length = 3 ∧ '.' ∉ z.element ∧ '.' ∉ z.isotope ∧ z.library = some "31c".toList := by
    revert z
    decide +kernel
  exact ⟨this.2.2.1, this.2.2.2.1, by intro l hl; rw [this.2.2.2.2] at hl; cases hl; decide, Or.inl this.2.1⟩

example : exInfoMat.tot < 0 := by decide +kernel

theorem exInfo_ok : (getInfo exInfoMat sampleLib true).map (fun p => p.2) =
    .ok [⟨"M7".toList, 1, "H".toList, -2, some (1 / 4), some (2 / 15)⟩, ⟨"M7".toList, 1, "O".toList, -6, some (3 / 4), some (2 / 5)⟩,
      ⟨"M7".toList, 2, "Li".toList, -7, some 1, some (7 / 15)⟩] := by
  decide +kernel

example : (notes exInfoMat sampleLib).map (fun ns => ns.map (fun l => l.flatten.map (fun n => (n.name, n.ab, n.weight)))) =
    .ok [[("H-1".toList, 100, some (1 / 4)), ("O-16".toList, 100, some (3 / 4))],
     [("Li-6".toList, 600 / 7, some 1), ("Li-7".toList, 100 / 7, some 1)]] := by
  decide +kernel

/-- **C171.** The column of the atom fractions of a material by atoms is not made of shares: it adds up to what was given. -/
theorem atom_column_not_normalised : (getInfo sampleMat sampleLib true).map (fun p => ((p.1.map (fun r => r.atom.getD 0)).sum,
    (p.1.map (fun r => r.mass.getD 0)).sum)) = .ok (3, -1) := by
  decide +kernel

example : (fromZaids sampleLib [("H1".toList, -1), ("O-16".toList, -3), ("3000".toList, -2)] "31c".toList "a name".toList 4).map
    (fun m => (m.1.zaids.map (fun z => (z.name, z.fraction)), m.2)) = .ok ([("1001.31c".toList, -1), ("8016.31c".toList, -3),
      ("3006.31c".toList, -4 / 23), ("3007.81c".toList, -42 / 23)], "C a name".toList) := by
  decide +kernel

/-- **C174.** What goes wrong: a given zaid that cannot be translated is left out, with a warning only; the amounts that are left do not add up to
what was given. -/
theorem fromZaids_loses : (fromZaids sampleLib [("H1".toList, -1), ("H3".toList, -3)] "31c".toList [] 1).map
    (fun m => m.1.zaids.map (fun z => (z.name, z.fraction))) = .ok [("1001.31c".toList, -1)] := by
  decide +kernel

example : (matXml sampleLib exInfoMat (some (-7))).map (fun x => (x.id, x.units, x.nuclides)) = .ok ("7".toList, "g/cc".toList,
    [⟨"H1".toList, true, 2⟩, ⟨"O16".toList, true, 6⟩, ⟨"Li6".toList, true, 6⟩, ⟨"Li7".toList, true, 1⟩]) := by
  decide +kernel

/-- **C175.** The metastable 95642 is written as `Am642`. -/
example (lm : LibMan) (h : lm.symbolOf 95 = some "Am".toList) :
    zaidXml lm ⟨-1, "95".toList, "642".toList, none⟩ = .ok ⟨"Am642".toList, true, 1⟩ := by
  have := xml_name_partial lm (n := 95) (a := 642) (by norm_num) h (by decide) (-1) none
  have e1 : natStr 95 = "95".toList := by decide +kernel
  have e2 : pad3 642 = "642".toList := by decide +kernel
  have e3 : natStr 642 = "642".toList := by decide +kernel
  rw [e1, e2, e3] at this
  rw [this]
  decide +kernel

end F4Enix.MatInfo
