import Verif.D1S.InputTight
/-!
# A D1S case from its files to its files

`D1S_Input.from_input` (src/f4enix/input/MCNPinput.py:1821-1886) and what the files written by a case
hold when they are read again.
-/
namespace F4Enix.D1S
open F4Enix F4Enix.Mat

/-- `D1S_Input.from_input(inputfile, irrad_file, reac_file)` (MCNPinput.py:1821-1886): the two files are
read if they are named; the irradiation file is read first. The reading of the MCNP input itself is
modelled elsewhere (`Inp/Reading`, `Mat/Deck`); here it gives the materials and the data cards. -/
def fromFiles (materials : List Material) (data : Dict Str (List Str)) (irrad reac : Option Str) :
    Except PyErr DInput :=
  match (match irrad with
    | none => Except.ok none
    | some t => (match readFile t with
      | .error e => .error e
      | .ok f => .ok (some f))) with
  | .error e => .error e
  | .ok f =>
    match (match reac with
      | none => Except.ok none
      | some t => (match readReactions t with
        | .error e => .error e
        | .ok rs => .ok (some rs))) with
    | .error e => .error e
    | .ok rs => .ok ⟨materials, f, rs, data⟩

/-! ### specification -/

/-- **Specification**: what is asked of the names in a case: the numbers of the nuclides and the name of the library
are words and together shorter than the column of the parents, the symbols of the elements are words
of at most ten characters, the activation sheet has MT numbers of at most six characters and daughters of
at most eleven. -/
structure NamesFit (ms : List Material) (lm : LibMan) (tab : ActTable) (lib : Str) : Prop where
  nums : ∀ m ∈ ms, ∀ z ∈ m.zaids, IsWord z.num ∧ z.num.length + 1 + lib.length < 13
  libWord : ∀ c ∈ lib, isSpace c = false
  syms : ∀ r ∈ lm.isos, IsWord r.sym ∧ r.sym.length ≤ 10
  rows : ∀ rows, Dict.get? tab lib = some rows → ∀ row ∈ rows,
    (intStr row.mt).length < 7 ∧ ∀ d, daughterNum lm row.daughter = .ok d → d.length < 12

/-! ### lemmas -/

theorem value_lt (l : Str) (acc : ℕ) (h : ∀ c ∈ l, isDigit c = true) :
    l.foldl (fun a c => a * 10 + (c.toNat - 48)) acc < (acc + 1) * 10 ^ l.length := by
  induction l generalizing acc with
  | nil => simp
  | cons c l ih =>
    have hc : c.toNat - 48 ≤ 9 := by
      have := h c (by simp)
      simp only [isDigit, Bool.and_eq_true, decide_eq_true_eq] at this
      omega
    have := ih (acc * 10 + (c.toNat - 48)) (fun x hx => h x (by simp [hx]))
    simp only [List.foldl_cons, List.length_cons, pow_succ]
    calc _ < (acc * 10 + (c.toNat - 48) + 1) * 10 ^ l.length := this
      _ ≤ ((acc + 1) * 10) * 10 ^ l.length := Nat.mul_le_mul_right _ (by omega)
      _ = _ := by ring

theorem natStrFuel_length (f n k : ℕ) (h : n < 10 ^ (k + 1)) : (natStrFuel f n).length ≤ k + 1 := by
  induction f generalizing n k with
  | zero => simp [natStrFuel]
  | succ f ih =>
    rw [natStrFuel]
    split
    · simp
    · cases k with
      | zero => simp at h; omega
      | succ k =>
        have : n / 10 < 10 ^ (k + 1) := by
          rw [Nat.div_lt_iff_lt_mul (by norm_num)]
          rw [pow_succ] at h; omega
        have := ih (n / 10) k this
        simp; omega

theorem strip_length (s : Str) : (strip s).length ≤ s.length := by
  have h : ∀ p : Char → Bool, ∀ l : Str, (l.dropWhile p).length ≤ l.length := fun p l =>
    (List.dropWhile_sublist p).length_le
  unfold strip lstrip rstrip
  simp only [List.length_reverse]
  exact (h _ _).trans (by simpa using h _ _)

/-- a positive number read from at most three characters is printed with at most three -/
theorem small_number {s : Str} {a : ℤ} (hs : s.length ≤ 3) (h : parseInt s = some a) (h0 : 0 < a) :
    (intStr a).length ≤ 3 := by
  have hl := strip_length s
  unfold parseInt at h
  have key : ∀ l : Str, l.length ≤ 3 → l.all isDigit = true → (natStr (digitsVal l)).length ≤ 3 := by
    intro l h1 h2
    have h3 := value_lt l 0 (by simpa using h2)
    have h4 : digitsVal l < 10 ^ (2 + 1) := by
      unfold digitsVal
      calc _ < (0 + 1) * 10 ^ l.length := h3
        _ ≤ 10 ^ 3 := by rw [zero_add, one_mul]; exact Nat.pow_le_pow_right (by norm_num) h1
    exact natStrFuel_length _ _ 2 h4
  split at h
  · simp at h
  rename_i c cs hcs
  rw [hcs] at hl
  simp only [List.length_cons] at hl
  split at h
  · split at h
    · have : a = -(digitsVal cs : ℤ) := by simpa using h.symm
      omega
    · simp at h
  split at h
  · split at h
    · rename_i hd
      have : a = ((digitsVal cs : ℕ) : ℤ) := by simpa using h.symm
      subst this
      exact key cs (by omega) hd.2
    · simp at h
  split at h
  · rename_i hd
    have : a = ((digitsVal (c :: cs) : ℕ) : ℤ) := by simpa using h.symm
    subst this
    exact key _ (by simp; omega) hd
  · simp at h

/-- the formula of a nuclide is a word of at most fourteen characters -/
theorem formula_word {lm : LibMan} (hs : ∀ r ∈ lm.isos, IsWord r.sym ∧ r.sym.length ≤ 10) {zaid f : Str}
    (h : lm.zaidName zaid = .ok f) : IsWord f ∧ f.length ≤ 14 := by
  unfold LibMan.zaidName at h
  split at h
  · simp at h
  rename_i p _ _
  split at h
  · simp at h
  rename_i i _
  split at h
  · simp at h
  rename_i sym hsym
  have hw : IsWord sym ∧ sym.length ≤ 10 := by
    unfold LibMan.symbolOf at hsym
    rw [Option.map_eq_some_iff] at hsym
    obtain ⟨r, hr, rfl⟩ := hsym
    exact hs r (List.mem_of_find?_eq_some hr)
  split at h
  · simp at h
  rename_i a ha
  split at h
  · rename_i h0
    simp only [Except.ok.injEq] at h
    subst h
    have h3 : (last3 p).length ≤ 3 := by unfold last3; rw [List.length_drop]; omega
    have h4 := small_number h3 ha h0
    refine ⟨⟨by simp, ?_⟩, by simp only [List.length_append, List.length_cons]; omega⟩
    intro c hc
    rcases List.mem_append.mp hc with hc | hc
    · exact hw.1.2 c hc
    · rcases List.mem_cons.mp hc with rfl | hc
      · exact isSpace_minus
      · exact (intStr_isWord a).2 c hc
  · simp only [Except.ok.injEq] at h
    subst h
    exact ⟨hw.1, by omega⟩

/-- numbers made from formulas are words -/
theorem number_word {lm : LibMan} {f n : Str} (h : lm.zaidNum f = .ok n) : IsWord n := by
  have pad : ∀ z a : ℕ, IsWord (natStr z ++ pad3 a) := by
    intro z a
    refine ⟨by simp [natStr_ne_nil], ?_⟩
    intro c hc
    rcases List.mem_append.mp hc with hc | hc
    · exact (natStr_isWord z).2 c hc
    · unfold pad3 at hc
      rcases List.mem_append.mp hc with hc | hc
      · rw [List.eq_of_mem_replicate hc]; decide
      · exact (natStr_isWord a).2 c hc
  unfold LibMan.zaidNum at h
  split at h
  · simp at h
  split at h
  · simp at h
  split at h
  all_goals (simp only [Except.ok.injEq] at h; subst h; exact pad _ _)

theorem daughter_word {lm : LibMan} {d n : Str} (h : daughterNum lm d = .ok n) : IsWord n := by
  unfold daughterNum at h
  split at h
  · simp at h
  split at h
  · split at h
    · simp at h
    rename_i n0 hn0
    simp only [Except.ok.injEq] at h
    subst h
    have := number_word hn0
    refine ⟨by simp, ?_⟩
    intro c hc
    rcases List.mem_append.mp hc with hc | hc
    · exact this.2 c hc
    · simp only [List.mem_cons, List.not_mem_nil, or_false] at hc
      rcases hc with rfl | rfl | rfl <;> decide
  · exact number_word h

/-- the comments made for a path: the formula of the parent, an arrow, the formula of the daughter -/
theorem comment_fits {lm : LibMan} (hs : ∀ r ∈ lm.isos, IsWord r.sym ∧ r.sym.length ≤ 10) {lib : Str} {p : Path} {c : Str}
    (h : pathComment lm lib p = .ok c) :
    ∃ ws : List Str, (∀ x ∈ ws, IsWord x) ∧ c = unwords ws ∧ (unwords ws).length < 40 := by
  unfold pathComment at h
  split at h
  · simp at h
  rename_i pf hpf
  obtain ⟨w1, l1⟩ := formula_word hs hpf
  have fin : ∀ df : Str, IsWord df → df.length ≤ 15 →
      ∃ ws : List Str, (∀ x ∈ ws, IsWord x) ∧ pf ++ " -> ".toList ++ df = unwords ws ∧ (unwords ws).length < 40 := by
    intro df w2 l2
    have e : pf ++ " -> ".toList ++ df = unwords [pf, "->".toList, df] := by
      have : " -> ".toList = ' ' :: ("->".toList ++ [' ']) := by decide
      rw [this]
      simp [unwords]
    refine ⟨[pf, "->".toList, df], ?_, e, ?_⟩
    · intro x hx
      simp only [List.mem_cons, List.not_mem_nil, or_false] at hx
      rcases hx with rfl | rfl | rfl
      · exact w1
      · decide
      · exact w2
    · rw [← e]
      have : " -> ".toList.length = 4 := by decide
      simp only [List.length_append, this]
      omega
  simp only at h
  split at h
  · simp at h
  rename_i df hdf
  simp only [Except.ok.injEq] at h
  subst h
  split at hdf
  · split at hdf
    · simp at hdf
    rename_i f hf
    simp only [Except.ok.injEq] at hdf
    subst hdf
    obtain ⟨w2, l2⟩ := formula_word hs hf
    refine fin _ ⟨by simp, ?_⟩ (by simp; omega)
    intro c hc
    rcases List.mem_append.mp hc with hc | hc
    · exact w2.2 c hc
    · simp only [List.mem_cons, List.not_mem_nil, or_false] at hc
      subst hc; decide
  · obtain ⟨w2, l2⟩ := formula_word hs hdf
    exact fin _ w2 (by omega)

/-- the reactions of a case fit the columns of a reaction file, and have a comment -/
theorem paths_fit {ms : List Material} {lm : LibMan} {tab : ActTable} {lib : Str} {rs : List Reaction}
    (hs : SheetOk lm tab lib) (hf : NamesFit ms lm tab lib) (h : potentialPaths ms lm tab lib = .ok rs) :
    ∀ r ∈ rs, ReacFits r ∧ r.comment ≠ none := by
  intro r hr
  obtain ⟨ps, h1, -, h3⟩ := paths_exact hs h
  have h0 := h
  unfold potentialPaths at h0
  split at h0
  · simp at h0
  rename_i ls hls
  obtain ⟨p, hp, hpr⟩ := forall₂_mem_right (mapE_ok h0) hr
  have hpath := pathReaction_ok hpr
  have hmem : p ∈ ps := by
    obtain ⟨q, hq, hqr⟩ := forall₂_mem_right h1 hr
    have : q = p := by
      obtain ⟨a1, a2, a3⟩ := hpath
      obtain ⟨b1, b2, b3⟩ := hqr
      have e1 : q.1 = p.1 := List.append_cancel_right (b1.symm.trans a1)
      have e2 : q.2.1 = p.2.1 := b2.symm.trans a2
      have e3 : q.2.2 = p.2.2 := b3.symm.trans a3
      exact Prod.ext e1 (Prod.ext e2 e3)
    exact this ▸ hq
  obtain ⟨parent, mt, d⟩ := p
  obtain ⟨⟨m, hm, z, hz, hzn⟩, rows, hrows, row, hrow, f, -, -, hmt, hd⟩ := (h3 parent mt d).mp hmem
  obtain ⟨hn, hlen⟩ := hf.nums m hm z hz
  rw [hzn] at hn hlen
  obtain ⟨hm1, hd1⟩ := hf.rows rows hrows row hrow
  have hc : ∃ c, r.comment = some c ∧ pathComment lm lib (parent, mt, d) = .ok c := by
    unfold pathReaction at hpr
    split at hpr
    · simp at hpr
    rename_i c hc
    simp only [Except.ok.injEq] at hpr
    subst hpr
    exact ⟨c, rfl, hc⟩
  obtain ⟨c, hc1, hc2⟩ := hc
  obtain ⟨e1, e2, e3⟩ := hpath
  obtain ⟨ws, w1, w2, w3⟩ := comment_fits hf.syms hc2
  refine ⟨⟨?_, ⟨'.', ?_⟩, ?_, ?_, ⟨ws, w1, ?_, w3⟩⟩, by simp [hc1]⟩
  · rw [e1]
    refine ⟨⟨by simp, ?_⟩, by simp only [List.length_append, List.length_cons]; omega⟩
    intro c hc
    rcases List.mem_append.mp hc with hc | hc
    · exact hn.2 c hc
    · rcases List.mem_cons.mp hc with rfl | hc
      · decide
      · exact hf.libWord c hc
  · rw [e1]; exact ⟨by simp, by decide, by decide⟩
  · rw [e2, ← hmt]; exact hm1
  · rw [e3]; exact ⟨daughter_word hd, hd1 d hd⟩
  · rw [hc1, w2]; rfl

/-! ### C184: a D1S case and its files -/

/-- **C184**, the reaction file made for a case: written and read again it is the same, reaction by
reaction with comments, and in order. -/
theorem generated_reread {i : DInput} {f : IrradiationFile} (hi : i.irrad = some f) {lm : LibMan} {tab : ActTable}
    {lib : Str} {set : Bool} {sel : List Reaction} {i' : DInput} (hs : SheetOk lm tab lib)
    (hf : NamesFit i.materials lm tab lib) (h : getReactionFile i lm tab lib set = (i', .ok sel)) :
    readReactions (writeReactions sel) = .ok sel := by
  obtain ⟨rs, h1, h2, -, -⟩ := reaction_file_exact hi h
  have hfit : ∀ r ∈ sel, ReacFits r ∧ r.comment ≠ none := fun r hr => paths_fit hs hf h1 r (h2.subset hr)
  rw [c24_write_read sel (fun r hr => (hfit r hr).1)]
  congr 1
  conv_rhs => rw [← List.map_id sel]
  apply List.map_congr_left
  intro r hr
  obtain ⟨c, hc⟩ := Option.ne_none_iff_exists'.mp (hfit r hr).2
  simp [hc]
  cases r
  simp_all

/-- **C184**, daughters: every reaction of the file made for a case has a schedule in the irradiation
file; asked for exactly these daughters the irradiation file keeps all of them and says so. -/
theorem generated_daughters {i : DInput} {f : IrradiationFile} (hi : i.irrad = some f) {lm : LibMan} {tab : ActTable}
    {lib : Str} {set : Bool} {sel : List Reaction} {i' : DInput}
    (h : getReactionFile i lm tab lib set = (i', .ok sel)) :
    (∀ r ∈ sel, ∃ s, getIrrad f r.daughter = some s ∧ s.daughter = r.daughter) ∧
    ((getDaughters f).Nodup → ∀ ds : List Str, ds.Nodup → (∀ d, d ∈ ds ↔ ∃ r ∈ sel, r.daughter = d) →
      (selectDaughters f ds).2 = true ∧
      ∀ s, s ∈ (selectDaughters f ds).1.schedules ↔ s ∈ f.schedules ∧ ∃ r ∈ sel, r.daughter = s.daughter) := by
  obtain ⟨rs, -, -, h3, -⟩ := reaction_file_exact hi h
  have hd : ∀ r ∈ sel, r.daughter ∈ getDaughters f := by
    intro r hr
    obtain ⟨-, s, hs, e⟩ := (h3 r).mp hr
    exact List.mem_map.mpr ⟨s, hs, e⟩
  constructor
  · intro r hr
    cases hg : getIrrad f r.daughter with
    | none => exact absurd (hd r hr) ((c22_get_irrad f r.daughter).2.mp hg)
    | some s => exact ⟨s, rfl, ((c22_get_irrad f r.daughter).1 s hg).2⟩
  · intro hn ds hds hmem
    refine ⟨(c22_select_answer f ds hn hds).mpr ?_, ?_⟩
    · intro d hdm
      obtain ⟨r, hr, rfl⟩ := (hmem d).mp hdm
      exact hd r hr
    · intro s
      rw [(c22_select_exact f ds).2.1 s, hmem]

/-- **C184**, reading a case: the two files named are read, each as `from_text` reads it; a file not
named gives no object; a file that cannot be read makes the call fail with its error, the irradiation
file first. -/
theorem from_files (ms : List Material) (data : Dict Str (List Str)) (irrad reac : Option Str) :
    (∀ d, fromFiles ms data irrad reac = .ok d ↔
      d.materials = ms ∧ d.data = data ∧
      (match irrad with
        | none => d.irrad = none
        | some t => ∃ f, readFile t = .ok f ∧ d.irrad = some f) ∧
      (match reac with
        | none => d.reac = none
        | some t => ∃ rs, readReactions t = .ok rs ∧ d.reac = some rs)) ∧
    (∀ e, fromFiles ms data irrad reac = .error e ↔
      (∃ t, irrad = some t ∧ readFile t = .error e) ∨
      ((∀ t, irrad = some t → ∃ f, readFile t = .ok f) ∧ ∃ t, reac = some t ∧ readReactions t = .error e)) := by
  unfold fromFiles
  constructor
  · rintro ⟨m0, i0, r0, d0⟩
    cases irrad with
    | none =>
      cases reac with
      | none => simp only [Except.ok.injEq, DInput.mk.injEq]; constructor <;> rintro ⟨rfl, a, b, c⟩ <;> simp_all
      | some t =>
        cases hr : readReactions t with
        | error e => simp [hr]
        | ok rs => simp only [hr, Except.ok.injEq, DInput.mk.injEq]; constructor <;> rintro ⟨rfl, a, b, c⟩ <;> simp_all
    | some u =>
      cases hu : readFile u with
      | error e => simp [hu]
      | ok f =>
        cases reac with
        | none => simp only [hu, Except.ok.injEq, DInput.mk.injEq]; constructor <;> rintro ⟨rfl, a, b, c⟩ <;> simp_all
        | some t =>
          cases hr : readReactions t with
          | error e => simp [hr, hu]
          | ok rs => simp only [hr, hu, Except.ok.injEq, DInput.mk.injEq]; constructor <;> rintro ⟨rfl, a, b, c⟩ <;> simp_all
  · intro e
    cases irrad with
    | none =>
      cases reac with
      | none => simp
      | some t => cases hr : readReactions t <;> simp [hr]
    | some u =>
      cases hu : readFile u with
      | error e' => simp [hu]
      | ok f =>
        cases reac with
        | none => simp [hu]
        | some t => cases hr : readReactions t <;> simp [hr, hu]

/-- **C184**, the files of a case: written and given to `from_input` with the same input they give the
same schedules and reactions (`None` comments and a missing header become empty ones, the widths of the
columns are the default ones). -/
theorem reopened (ms : List Material) (data : Dict Str (List Str)) (f : IrradiationFile) (rs : List Reaction)
    (hc : Consistent f) (hn : 0 ≤ f.nsc) (hh : HeaderOk (f.header.getD []))
    (hfit : ∀ i ∈ f.schedules, Fits f.formatting i) (hr : ∀ r ∈ rs, ReacFits r) :
    ∃ t d g, writeFile f = .ok t ∧ fromFiles ms data (some t) (some (writeReactions rs)) = .ok d ∧
      d.materials = ms ∧ d.data = data ∧ d.irrad = some g ∧
      g.nsc = f.nsc ∧ g.schedules = f.schedules ∧ g.header.getD [] = f.header.getD [] ∧
      d.reac = some (rs.map (fun r => { r with comment := some (r.comment.getD []) })) := by
  obtain ⟨t, h1, h2⟩ := c23_write_read f hc hn hh hfit
  have h3 := c24_write_read rs hr
  refine ⟨t, ⟨ms, some (IrradiationFile.mk' f.nsc f.schedules (some (f.header.getD []))), _, data⟩,
    IrradiationFile.mk' f.nsc f.schedules (some (f.header.getD [])), h1, ?_, rfl, rfl, rfl, rfl, rfl, rfl, rfl⟩
  unfold fromFiles
  simp only [h2, h3]

/-- **C184**, after `smart_translate`: the reaction file kept by the case, written and read again, has
the same reactions, each parent with the activation library. -/
theorem smart_reread {i : DInput} {rs : List Reaction} (hr : i.reac = some rs) {act tr : Str} {lm : LibMan} {fix : Bool}
    (hact : ∀ c ∈ act, isSpace c = false)
    (hfit : ∀ r ∈ rs, ReacFits r ∧ (r.parent.takeWhile (· != '.')).length + 1 + act.length < 13 ∧ r.comment ≠ none)
    {ms : List Material} (h : (smartTranslate i act tr lm fix).materials = .ok ms) :
    ∃ rs', (smartTranslate i act tr lm fix).reac = some rs' ∧
      readReactions (writeReactions rs') = .ok rs' ∧
      List.Forall₂ (fun r r' : Reaction => r'.parent = r.parent.takeWhile (· != '.') ++ '.' :: act ∧
        r'.mt = r.mt ∧ r'.daughter = r.daughter ∧ r'.comment = r.comment) rs rs' := by
  refine ⟨rs.map (fun r => r.changeLib act), ?_, ?_, ?_⟩
  · unfold smartTranslate at h ⊢
    simp only [hr] at h ⊢
    cases fix with
    | false => rfl
    | true =>
      simp only [if_true] at h ⊢
      cases hp : plainTranslate i.materials tr lm with
      | error e => simp [hp] at h
      | ok ms' => rfl
  · have e : ∀ r ∈ rs.map (fun r : Reaction => r.changeLib act), ReacFits r ∧ r.comment ≠ none := by
      intro r' hrm'
      obtain ⟨r, hrm, rfl⟩ := List.mem_map.mp hrm'
      obtain ⟨h1, h2, h3⟩ := hfit r hrm
      refine ⟨⟨⟨⟨by simp [Reaction.changeLib], ?_⟩, ?_⟩, ⟨'.', by simp [Reaction.changeLib]⟩, h1.mt, h1.daughter, h1.comment⟩, h3⟩
      · intro c hc
        simp only [Reaction.changeLib, beforeDot, List.mem_append, List.mem_cons] at hc
        rcases hc with hc | rfl | hc
        · exact h1.parent.1.2 c ((List.takeWhile_sublist _).subset hc)
        · decide
        · exact hact c hc
      · simp only [Reaction.changeLib, beforeDot, List.length_append, List.length_cons]; omega
    rw [c24_write_read _ (fun r hr => (e r hr).1)]
    congr 1
    conv_rhs => rw [← List.map_id (rs.map _)]
    apply List.map_congr_left
    intro r hr
    obtain ⟨c, hc⟩ := Option.ne_none_iff_exists'.mp (e r hr).2
    cases r
    simp_all
  · rw [List.forall₂_map_right_iff, List.forall₂_same]
    intro r _
    exact ⟨rfl, rfl, rfl, rfl⟩

/-! ### concrete cases -/

/-- the symbols shipped with F4Enix are short enough -/
theorem shipped_symbols : ∀ r ∈ shippedIsotopes, IsWord r.sym ∧ r.sym.length ≤ 10 := by decide +kernel

theorem sample_names : NamesFit sampleInput.materials sampleLib sampleTab "99c".toList := by
  refine ⟨by decide +kernel, by decide +kernel, by decide +kernel, ?_⟩
  intro rows hr row hrow
  have h2 : Dict.get? sampleTab "99c".toList = some [⟨"H1".toList, 102, "H2".toList⟩,
      ⟨"O16".toList, 103, "Li7m".toList⟩, ⟨"H1".toList, 16, "Li6".toList⟩] := by decide
  rw [h2] at hr
  have hr := (Option.some.inj hr).symm
  subst hr
  simp only [List.mem_cons, List.not_mem_nil, or_false] at hrow
  rcases hrow with rfl | rfl | rfl
  · refine ⟨by decide +kernel, fun d hd => ?_⟩
    have : d = "1002".toList := by
      have e : daughterNum sampleLib "H2".toList = .ok "1002".toList := by decide +kernel
      rw [e] at hd; exact (Except.ok.inj hd).symm
    subst this; decide
  · refine ⟨by decide +kernel, fun d hd => ?_⟩
    have : d = "3007900".toList := by
      have e : daughterNum sampleLib "Li7m".toList = .ok "3007900".toList := by decide +kernel
      rw [e] at hd; exact (Except.ok.inj hd).symm
    subst this; decide
  · refine ⟨by decide +kernel, fun d hd => ?_⟩
    have : d = "3006".toList := by
      have e : daughterNum sampleLib "Li6".toList = .ok "3006".toList := by decide +kernel
      rw [e] at hd; exact (Except.ok.inj hd).symm
    subst this; decide

/-- the file made for the sample, written and read -/
theorem sample_reread : ∃ sel, (getReactionFile sampleInput sampleLib sampleTab "99c".toList true).2 = .ok sel ∧
    sel.length = 2 ∧ readReactions (writeReactions sel) = .ok sel := by
  refine ⟨_, sample_reaction_file, by decide, ?_⟩
  exact generated_reread (i := sampleInput) (f := sampleIrr) rfl sampleTab_ok sample_names
    (Prod.ext rfl sample_reaction_file)

end F4Enix.D1S
