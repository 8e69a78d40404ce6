import Verif.Mat.Isotopes
/-!
# C45: zaid numbers and formulas (`src/f4enix/input/libmanager.py`)
-/
namespace F4Enix.Mat
open F4Enix

/-- letters `[a-zA-Z]` (Python, libmanager.py:545-584) -/
def isLetter (c : Char) : Bool :=
  (97 ≤ c.toNat && c.toNat ≤ 122) || (65 ≤ c.toNat && c.toNat ≤ 90)

/-- `re.compile(r"[a-zA-Z]+").search(s)` (Python, libmanager.py:545-584) -/
def searchLetters (s : Str) : Option Str :=
  match (s.dropWhile (fun c => !isLetter c)).takeWhile isLetter with
  | [] => none
  | w => some w

/-- `"{:03d}".format(n)` (also `"{0:0>3}"` for the text of a number) (Python, libmanager.py:505-584) -/
def pad3 (n : ℕ) : Str := List.replicate (3 - (natStr n).length) '0' ++ natStr n

/-- `self._newiso_byZ["E"].loc[i]`: symbol of the first row of that element number
(src/f4enix/input/libmanager.py:294-297, 539) -/
def LibMan.symbolOf (lm : LibMan) (i : ℤ) : Option Str :=
  (lm.isos.find? (fun r => decide ((r.z : ℤ) = i))).map Iso.sym

/-- `self._newiso_byE.loc[name, "Z"]`: element number of the first row with that symbol
(src/f4enix/input/libmanager.py:290-293, 572) -/
def LibMan.numberOf (lm : LibMan) (sym : Str) : Option ℕ :=
  (lm.isos.find? (fun r => decide (r.sym = sym))).map Iso.z

/-- `LibManager.get_zaidname` for a text: the formula (src/f4enix/input/libmanager.py:505-543). The
element name (first result) is not modelled. -/
def LibMan.zaidName (lm : LibMan) (zaid : Str) : Except PyErr Str :=
  match splitDot zaid with
  | [] => .error .indexError
  | p :: _ =>
    match parseInt (dropLast3 p) with
    | none => .error .valueError
    | some i =>
      match lm.symbolOf i with
      | none => .error .keyError
      | some sym =>
        match parseInt (last3 p) with
        | none => .error .valueError
        | some a => if 0 < a then .ok (sym ++ '-' :: intStr a) else .ok sym

/-- `LibManager.get_zaidnum` (src/f4enix/input/libmanager.py:545-586) -/
def LibMan.zaidNum (lm : LibMan) (formula : Str) : Except PyErr Str :=
  match searchLetters formula with
  | none => .error .valueError
  | some name =>
    match lm.numberOf name with
    | none => .error .keyError
    | some z =>
      match searchDigits formula with
      | none => .ok (natStr z ++ pad3 0)
      | some ds => .ok (natStr z ++ pad3 (digitsVal ds))

/-- `IsotopeDataParser.get_formulazaid` (src/f4enix/input/libmanager.py:58-78): letters followed by
digits at the start of the text -/
def LibMan.formulaZaid (lm : LibMan) (formula : Str) : Except PyErr Str :=
  match formula.takeWhile isLetter, (formula.dropWhile isLetter).takeWhile isDigit with
  | [], _ => .error .attributeError
  | _, [] => .error .attributeError
  | sym, ds =>
    match lm.numberOf sym with
    | none => .error .indexError
    | some z => .ok (natStr z ++ pad3 (digitsVal ds))

/-! ### lemmas -/

theorem isDigit_not_letter {c : Char} (h : isDigit c = true) : isLetter c = false := by
  simp only [isDigit, Bool.and_eq_true, decide_eq_true_eq] at h
  simp only [isLetter, Bool.or_eq_false_iff, Bool.and_eq_false_iff, decide_eq_false_iff_not]
  omega

theorem isLetter_not_digit {c : Char} (h : isLetter c = true) : isDigit c = false := by
  cases hd : isDigit c with
  | false => rfl
  | true => rw [isDigit_not_letter hd] at h; cases h

theorem digitsVal_zeros (k : ℕ) (s : Str) : digitsVal (List.replicate k '0' ++ s) = digitsVal s := by
  induction k with
  | zero => simp
  | succ k ih =>
    rw [List.replicate_succ, List.cons_append]
    unfold digitsVal at ih ⊢
    simpa using ih

theorem pad3_digits (n : ℕ) : ∀ c ∈ pad3 n, isDigit c = true := by
  intro c hc
  simp only [pad3, List.mem_append, List.mem_replicate] at hc
  rcases hc with ⟨_, rfl⟩ | hc
  · decide
  · exact natStr_all_digit n c hc

theorem pad3_ne (n : ℕ) : pad3 n ≠ [] := by
  simp only [pad3, ne_eq, List.append_eq_nil_iff, not_and]
  intro _; exact natStr_ne_nil n

theorem digitsVal_pad3 (n : ℕ) : digitsVal (pad3 n) = n := by
  rw [pad3, digitsVal_zeros, digitsVal_natStr]

theorem pad3_length_fin : ∀ a : Fin 1000, (pad3 a.val).length = 3 := by decide +kernel

/-- numbers below 1000 are written with exactly three digits -/
theorem pad3_length {a : ℕ} (h : a < 1000) : (pad3 a).length = 3 := pad3_length_fin ⟨a, h⟩

theorem parseInt_digits {s : Str} (hne : s ≠ []) (hd : ∀ c ∈ s, isDigit c = true) :
    parseInt s = some (digitsVal s : ℤ) := by
  have hw : IsWord s := ⟨hne, fun c hc => isSpace_of_isDigit (hd c hc)⟩
  unfold parseInt
  rw [strip_word hw]
  cases s with
  | nil => exact absurd rfl hne
  | cons c cs =>
    have hc := hd c (by simp)
    have h1 : c ≠ '-' := by rintro rfl; revert hc; decide
    have h2 : c ≠ '+' := by rintro rfl; revert hc; decide
    have h3 : (c :: cs).all isDigit = true := List.all_eq_true.mpr hd
    simp only [if_neg h1, if_neg h2, h3, if_true]

theorem digits_noDot {s : Str} (h : ∀ c ∈ s, isDigit c = true) : '.' ∉ s := by
  intro hm
  have := h _ hm
  revert this; decide

theorem searchLetters_prefix {sym rest : Str} (hne : sym ≠ []) (hl : ∀ c ∈ sym, isLetter c = true)
    (hr : ∀ c, rest.head? = some c → isLetter c = false) : searchLetters (sym ++ rest) = some sym := by
  have h1 : (sym ++ rest).dropWhile (fun c => !isLetter c) = sym ++ rest := by
    cases sym with
    | nil => exact absurd rfl hne
    | cons c cs =>
      rw [List.cons_append, List.dropWhile_cons_of_neg]
      simp [hl c (by simp)]
  have h2 : (sym ++ rest).takeWhile isLetter = sym := by
    rw [List.takeWhile_append_of_pos hl]
    have : rest.takeWhile isLetter = [] := by
      cases rest with
      | nil => rfl
      | cons c cs => rw [List.takeWhile_cons_of_neg]; simp [hr c rfl]
    rw [this]; simp
  unfold searchLetters
  rw [h1, h2]
  cases sym with
  | nil => exact absurd rfl hne
  | cons c cs => rfl

/-- The symbol of element `z` is made of letters, and looking the symbol up gives `z` back. (specification) -/
def LibMan.SymOk (lm : LibMan) (z : ℕ) : Prop :=
  ∃ sym, lm.symbolOf z = some sym ∧ sym ≠ [] ∧ (∀ c ∈ sym, isLetter c = true) ∧
    lm.numberOf sym = some z

/-- **C45.** Number → formula → number gives the zaid back, natural zaids (`a = 0`) included, with or
without a library suffix, for every element whose symbol is unambiguous in the table. -/
theorem zaid_roundtrip_partial (lm : LibMan) {z a : ℕ} (h : lm.SymOk z) (ha : a < 1000) (suffix : Str)
    (hs : suffix = [] ∨ ∃ l, suffix = '.' :: l) :
    ∃ f, lm.zaidName (natStr z ++ pad3 a ++ suffix) = .ok f ∧
      lm.zaidNum f = .ok (natStr z ++ pad3 a) := by
  obtain ⟨sym, h1, h2, h3, h4⟩ := h
  have hdig : ∀ c ∈ natStr z ++ pad3 a, isDigit c = true := by
    intro c hc
    rw [List.mem_append] at hc
    rcases hc with hc | hc
    · exact natStr_all_digit z c hc
    · exact pad3_digits a c hc
  have hdot := digits_noDot hdig
  have hfirst : ∃ r, splitDot (natStr z ++ pad3 a ++ suffix) = (natStr z ++ pad3 a) :: r := by
    rcases hs with rfl | ⟨l, rfl⟩
    · exact ⟨[], by rw [List.append_nil]; exact splitDot_no hdot⟩
    · exact ⟨splitDot l, splitDot_append hdot⟩
  obtain ⟨r, hr⟩ := hfirst
  have hd3 : dropLast3 (natStr z ++ pad3 a) = natStr z := by
    simp [dropLast3, pad3_length ha]
  have hl3 : last3 (natStr z ++ pad3 a) = pad3 a := by
    simp [last3, pad3_length ha]
  have hpa : parseInt (pad3 a) = some (a : ℤ) := by
    rw [parseInt_digits (pad3_ne a) (pad3_digits a), digitsVal_pad3]
  have hname : lm.zaidName (natStr z ++ pad3 a ++ suffix) =
      if (0 : ℤ) < a then .ok (sym ++ '-' :: intStr a) else .ok sym := by
    simp only [LibMan.zaidName, hr, hd3, hl3, parseInt_natStr, h1, hpa]
  by_cases hpos : (0 : ℤ) < a
  · rw [if_pos hpos] at hname
    refine ⟨_, hname, ?_⟩
    have e1 : searchLetters (sym ++ '-' :: intStr a) = some sym :=
      searchLetters_prefix h2 h3 (by intro c hc; simp at hc; subst hc; decide)
    have e2 : searchDigits (sym ++ '-' :: intStr a) = some (natStr a) := by
      have := searchDigits_natStr (sym ++ ['-']) [] a (by
        intro c hc
        simp only [List.mem_append, List.mem_singleton] at hc
        rcases hc with hc | rfl
        · exact isLetter_not_digit (h3 c hc)
        · decide) (by simp)
      simpa [intStr] using this
    simp only [LibMan.zaidNum, e1, h4, e2, digitsVal_natStr]
  · rw [if_neg hpos] at hname
    refine ⟨_, hname, ?_⟩
    have ha0 : a = 0 := by omega
    subst ha0
    have e1 : searchLetters sym = some sym := by
      have := searchLetters_prefix (rest := []) h2 h3 (by simp)
      simpa using this
    have e2 : searchDigits sym = none := by
      unfold searchDigits
      have : sym.dropWhile (fun c => !isDigit c) = [] := by
        have hnd : ∀ c ∈ sym, isDigit c = false := fun c hc => isLetter_not_digit (h3 c hc)
        clear h1 h2 h3 h4 hname e1
        induction sym with
        | nil => rfl
        | cons c cs ih =>
          rw [List.dropWhile_cons_of_pos (by simp [hnd c (by simp)])]
          exact ih (fun d hd => hnd d (List.mem_cons_of_mem _ hd))
      rw [this]; rfl
    simp only [LibMan.zaidNum, e1, h4, e2]

/-- **C45.** `get_formulazaid` and `get_zaidnum` agree on isotope formulas. -/
theorem formulaZaid_eq (lm : LibMan) {z : ℕ} (a : ℕ) {sym : Str} (h2 : sym ≠ [])
    (h3 : ∀ c ∈ sym, isLetter c = true) (h4 : lm.numberOf sym = some z) :
    lm.formulaZaid (sym ++ natStr a) = .ok (natStr z ++ pad3 a) ∧
    lm.zaidNum (sym ++ natStr a) = .ok (natStr z ++ pad3 a) := by
  have hhead : ∀ c, (natStr a).head? = some c → isLetter c = false := by
    intro c hc
    exact isDigit_not_letter (natStr_all_digit a c (List.mem_of_head? hc))
  have t1 : (sym ++ natStr a).takeWhile isLetter = sym := by
    rw [List.takeWhile_append_of_pos h3]
    have : (natStr a).takeWhile isLetter = [] := by
      cases hn : natStr a with
      | nil => rfl
      | cons c cs => rw [List.takeWhile_cons_of_neg]; simp [hhead c (by rw [hn]; rfl)]
    rw [this]; simp
  have t2 : (sym ++ natStr a).dropWhile isLetter = natStr a := by
    rw [List.dropWhile_append_of_pos h3]
    cases hn : natStr a with
    | nil => rfl
    | cons c cs => rw [List.dropWhile_cons_of_neg]; simp [hhead c (by rw [hn]; rfl)]
  have t3 : (natStr a).takeWhile isDigit = natStr a := by
    have := List.takeWhile_append_of_pos (p := isDigit) (l₂ := []) (natStr_all_digit a)
    simpa using this
  constructor
  · unfold LibMan.formulaZaid
    rw [t1, t2, t3]
    cases hsym : sym with
    | nil => exact absurd hsym h2
    | cons c cs =>
      cases hn : natStr a with
      | nil => exact absurd hn (natStr_ne_nil a)
      | cons d ds =>
        simp only
        rw [← hsym, h4, ← hn, digitsVal_natStr]
  · have e1 := searchLetters_prefix (rest := natStr a) h2 h3 hhead
    have e2 : searchDigits (sym ++ natStr a) = some (natStr a) := by
      have := searchDigits_natStr sym [] a (fun c hc => isLetter_not_digit (h3 c hc)) (by simp)
      simpa using this
    simp only [LibMan.zaidNum, e1, h4, e2, digitsVal_natStr]

/-! ### the shipped table -/

/-- computable form of `SymOk` over the shipped table (proof) -/
def shippedSymOk (z : ℕ) : Bool :=
  match (shippedIsotopes.find? (fun r => decide ((r.z : ℤ) = (z : ℤ)))).map Iso.sym with
  | none => false
  | some sym => decide (sym ≠ []) && sym.all isLetter &&
    decide ((shippedIsotopes.find? (fun r => decide (r.sym = sym))).map Iso.z = some z)

theorem shipped_symOk_rows : ∀ r ∈ shippedIsotopes, r.z ≠ 102 → shippedSymOk r.z = true := by
  decide +kernel

/-- **C45 (shipped table).** The round trip holds for every element of the shipped table except number
102. -/
theorem shipped_symOk (lm : LibMan) (h : lm.isos = shippedIsotopes) {z : ℕ}
    (hz : ∃ r ∈ shippedIsotopes, r.z = z) (hne : z ≠ 102) : lm.SymOk z := by
  obtain ⟨r, hr, rfl⟩ := hz
  have := shipped_symOk_rows r hr hne
  unfold shippedSymOk at this
  unfold LibMan.SymOk LibMan.symbolOf LibMan.numberOf
  rw [h]
  cases hf : (shippedIsotopes.find? (fun q => decide ((q.z : ℤ) = (r.z : ℤ)))).map Iso.sym with
  | none => rw [hf] at this; cases this
  | some sym =>
    rw [hf] at this
    simp only [Bool.and_eq_true, decide_eq_true_eq, List.all_eq_true] at this
    exact ⟨sym, rfl, this.1.1, this.1.2, this.2⟩

/-- **C45 (defect).** Nobelium is listed with the symbol of niobium: the zaid 102259 gets the formula
`Nb-259`, which is read back as 41259. -/
theorem shipped_nobelium (lm : LibMan) (h : lm.isos = shippedIsotopes) :
    lm.zaidName "102259".toList = .ok "Nb-259".toList ∧
    lm.zaidNum "Nb-259".toList = .ok "41259".toList := by
  have h1 : lm.symbolOf 102 = some "Nb".toList := by
    rw [LibMan.symbolOf, h]; decide +kernel
  have h2 : lm.numberOf "Nb".toList = some 41 := by
    rw [LibMan.numberOf, h]; decide +kernel
  constructor
  · have e1 : splitDot "102259".toList = ["102259".toList] := by decide
    have e2 : parseInt (dropLast3 "102259".toList) = some 102 := by decide +kernel
    have e3 : parseInt (last3 "102259".toList) = some 259 := by decide +kernel
    simp only [LibMan.zaidName, e1, e2, h1, e3]
    decide +kernel
  · have e1 : searchLetters "Nb-259".toList = some "Nb".toList := by decide +kernel
    have e2 : searchDigits "Nb-259".toList = some "259".toList := by decide +kernel
    simp only [LibMan.zaidNum, e1, h2, e2]
    decide +kernel

end F4Enix.Mat
