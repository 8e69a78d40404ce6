import Verif.Inp.LibManagerMore
import Verif.Base.TextLemmas
/-!
# Export of a directory to Serpent and reading it (C159)
-/
namespace F4Enix.LibM
open F4Enix F4Enix.Xs

/-! ### The specification -/

/-- a table for continuous energies (its name ends with `c`) (specification) -/
def IsC (t : Table) : Prop := t.name.getLast? = some 'c'

instance (t : Table) : Decidable (IsC t) := inferInstanceAs (Decidable (_ = _))

/-- The table can be exported: it has a temperature, a number as zaid, a name and a file name that are words. (specification) -/
def Exportable (t : Table) (m : ℤ) (T : ℚ) : Prop :=
  IsC t ∧ t.temperature = some T ∧ t.metastable = .ok (some m) ∧ IsWord t.name ∧ IsWord t.zaid ∧ IsWord t.filename

/-- numbers are printed as words (specification) -/
def PrintsWords (f : ℚ → Str) : Prop := ∀ q, IsWord (f q)

/-- the words of the line of a table: twice the name, type 1, zaid, flag of the isomer, atomic weight ratio, temperature in kelvin, kind of file,
file (specification) -/
def lineWords (fa fe : ℚ → Str) (t : Table) (m : ℤ) (T : ℚ) : List Str :=
  [t.name, t.name, "1".toList, t.zaid, if m = 0 then "0".toList else "1".toList, fa t.awr, fe (T / (86173423 / 10 ^ 18)), intStr (t.filetype - 1),
    t.filename]

/-! ### Writing -/

theorem tokens_blanks : ∀ (ws : List Str), (∀ w ∈ ws, IsWord w) → ∀ s, (s = [] ∨ startsSpace s = true) → tokens (blanks ws ++ s) = ws ++ tokens s := by
  intro ws
  induction ws with
  | nil => intro _ s _; rfl
  | cons w ws ih =>
    intro h s hs
    cases ws with
    | nil =>
      simp only [blanks, List.cons_append, List.nil_append]
      exact tokens_word (h w (by simp)) hs
    | cons v vs =>
      simp only [blanks, List.append_assoc, List.cons_append]
      rw [tokens_word (h w (by simp)) (Or.inr (by simp [startsSpace, isSpace_space])), tokens_space _ isSpace_space]
      rw [ih (fun x hx => h x (by simp [hx])) s hs]
      rfl

theorem blanks_no_nl : ∀ (ws : List Str), (∀ w ∈ ws, IsWord w) → ∀ c ∈ blanks ws, c ≠ '\n' := by
  intro ws
  induction ws with
  | nil => intro _ c hc; simp [blanks] at hc
  | cons w ws ih =>
    intro h c hc
    cases ws with
    | nil => exact word_no_nl (h w (by simp)) c hc
    | cons v vs =>
      simp only [blanks, List.mem_append, List.mem_cons] at hc
      rcases hc with hc | rfl | hc
      · exact word_no_nl (h w (by simp)) c hc
      · decide
      · exact ih (fun x hx => h x (by simp [hx])) c hc

theorem lineWords_words {fa fe : ℚ → Str} (ha : PrintsWords fa) (he : PrintsWords fe) {t : Table} {m : ℤ} {T : ℚ} (h : Exportable t m T) :
    ∀ w ∈ lineWords fa fe t m T, IsWord w := by
  obtain ⟨-, -, -, h1, h2, h3⟩ := h
  intro w hw
  simp only [lineWords, List.mem_cons, List.not_mem_nil, or_false] at hw
  rcases hw with rfl | rfl | rfl | rfl | rfl | rfl | rfl | rfl | rfl
  · exact h1
  · exact h1
  · decide
  · exact h2
  · split <;> decide
  · exact ha _
  · exact he _
  · exact intStr_isWord _
  · exact h3

theorem serpentType_c {t : Table} : serpentType t = some 1 ↔ IsC t := by
  unfold serpentType IsC
  cases h : t.name.getLast? with
  | none => simp
  | some c =>
    by_cases h1 : c = 'c'
    · subst h1; simp
    · by_cases h2 : c = 'y'
      · subst h2; simp
      · by_cases h3 : c = 't'
        · subst h3; simp
        · simp only [Option.some.injEq, h1, iff_false]
          split <;> simp_all

theorem toSerpent_ok {fa fe : ℚ → Str} {t : Table} {m : ℤ} {T : ℚ} (h : Exportable t m T) :
    toSerpent fa fe [] t = .ok (blanks (lineWords fa fe t m T)) := by
  obtain ⟨h0, h1, h2, -, -, -⟩ := h
  unfold toSerpent
  simp only [h2, h1, serpentType_c.2 h0]
  unfold lineWords serpentDir
  rw [if_pos rfl, List.nil_append, show natStr 1 = "1".toList by decide]
  by_cases hm : m = 0
  · subst hm; rfl
  · rw [if_pos hm, if_neg hm]; rfl

/-- **C159 (export).** If every table for continuous energies has a temperature, a number as zaid and words as names, the file has one line for
each of them, in order, and none for the others; its words are those of the format. Partial: Proved: the export and the reading of files with two lines for each table. False: the export fails at a table without temperature and leaves a part of the file (xsdata_stops); what the export wrote is read by halves and with other ratios (xsdata_read_half). -/
theorem xsdata_exact_partial {fa fe : ℚ → Str} (ha : PrintsWords fa) (he : PrintsWords fe) :
    ∀ (ts : List Table), (∀ t ∈ ts, IsC t → ∃ m T, Exportable t m T) →
    ∃ ls, toXsdata fa fe ts = (ls.flatten, none) ∧ fileLines ls.flatten = ls ∧
      List.Forall₂ (fun t l => ∃ m T, Exportable t m T ∧ tokens l = lineWords fa fe t m T) (ts.filter (fun t => decide (IsC t))) ls := by
  intro ts
  induction ts with
  | nil => intro _; exact ⟨[], rfl, rfl, by simp⟩
  | cons t ts ih =>
    intro h
    obtain ⟨ls, e, hl, hf⟩ := ih (fun x hx => h x (by simp [hx]))
    by_cases hc : IsC t
    · obtain ⟨m, T, hx⟩ := h t (by simp) hc
      have hw := lineWords_words ha he hx
      refine ⟨(blanks (lineWords fa fe t m T) ++ ['\n']) :: ls, ?_, ?_, ?_⟩
      · rw [toXsdata, if_pos (serpentType_c.2 hc), toSerpent_ok hx]
        simp only [e, List.flatten_cons, List.append_assoc, List.singleton_append]
      · rw [List.flatten_cons, List.append_assoc, List.singleton_append, fileLines_line _ _ (blanks_no_nl _ hw), hl]
      · rw [List.filter_cons, if_pos (by simpa using hc)]
        refine List.Forall₂.cons ⟨m, T, hx, ?_⟩ hf
        rw [tokens_blanks _ hw _ (Or.inr (by decide))]
        rw [show tokens ['\n'] = [] by decide, List.append_nil]
    · refine ⟨ls, ?_, hl, ?_⟩
      · rw [toXsdata, if_neg (fun h => hc (serpentType_c.1 h)), e]
      · rw [List.filter_cons, if_neg (by simpa using hc)]
        exact hf

/-- **C159 (no temperature).** At a table for continuous energies without a temperature the export ends with `TypeError`; the file holds the
tables before it only. -/
theorem xsdata_stops {fa fe : ℚ → Str} (before after : List Table) (t : Table)
    (hb : ∀ x ∈ before, IsC x → ∃ m T, Exportable x m T) (hc : IsC t) {m : Option ℤ} (hm : t.metastable = .ok m) (ht : t.temperature = none) :
    toXsdata fa fe (before ++ t :: after) = ((toXsdata fa fe before).1, some .typeError) := by
  induction before with
  | nil =>
    rw [List.nil_append, toXsdata.eq_def]
    simp only
    rw [if_pos (serpentType_c.2 hc)]
    unfold toSerpent
    simp only [hm, ht]
    rfl
  | cons x before ih =>
    have ih' := ih (fun y hy => hb y (by simp [hy]))
    rw [List.cons_append, toXsdata, toXsdata]
    by_cases hx : IsC x
    · obtain ⟨k, T, hk⟩ := hb x (by simp) hx
      rw [if_pos (serpentType_c.2 hx), if_pos (serpentType_c.2 hx), toSerpent_ok hk]
      simp only [ih']
    · rw [if_neg (fun h => hx (serpentType_c.1 h)), if_neg (fun h => hx (serpentType_c.1 h)), ih']

/-! ### Reading -/

theorem serpentLines_ok {pf : Str → Option ℚ} : ∀ {ls : List Str} {ts : List Table},
    List.Forall₂ (fun l t => serpentLine pf l = .ok (some t)) ls ts → serpentLines pf ls = .ok (ts.map some) := by
  intro ls ts h
  induction h with
  | nil => rfl
  | cons h1 _ ih => rw [serpentLines]; simp only [h1, ih]; rfl

theorem evens_forall₂ {α β : Type} {R : α → β → Prop} : ∀ (l : List α) (m : List β), List.Forall₂ R l m → List.Forall₂ R (evens l) (evens m)
  | [], [], _ => .nil
  | [a], [b], h => h
  | a :: a' :: l, b :: b' :: m, h => by
    cases h with
    | cons h1 h2 =>
      cases h2 with
      | cons h3 h4 => exact .cons h1 (evens_forall₂ l m h4)
  | [], b :: m, h => by cases h
  | a :: l, [], h => by cases h
  | [a], b :: b' :: m, h => by cases h with | cons _ h => cases h
  | a :: a' :: l, [b], h => by cases h with | cons _ h => cases h

/-- **C159 is false of the code (reading back what was written)**: of the tables exported only every second one is read, and its atomic weight ratio
has become that of another unit: it is divided by 1.008664967. -/
theorem xsdata_read_half {fa fe : ℚ → Str} (ha : PrintsWords fa) (he : PrintsWords fe) {pf : Str → Option ℚ} (ra : ∀ q, pf (fa q) = some q)
    (re : ∀ q, pf (fe q) = some q) (ts : List Table) (h : ∀ t ∈ ts, ∃ m T, Exportable t m T) :
    ∃ x, serpentRead pf (fileLines (toXsdata fa fe ts).1) = .ok x ∧
      List.Forall₂ (fun t u => u.name = t.name ∧ u.filename = t.filename ∧ u.awr = t.awr / (1008664967 / 10 ^ 9)) (evens ts) x.tables := by
  obtain ⟨ls, e, hl, hf⟩ := xsdata_exact_partial ha he ts (fun t ht _ => h t ht)
  have hall : ts.filter (fun t => decide (IsC t)) = ts := by
    rw [List.filter_eq_self]
    intro t ht
    obtain ⟨m, T, hx⟩ := h t ht
    simpa using hx.1
  rw [hall] at hf
  rw [e]
  simp only
  rw [hl]
  have hread : ∀ t l, (∃ m T, Exportable t m T ∧ tokens l = lineWords fa fe t m T) →
      ∃ u, serpentLine pf l = .ok (some u) ∧ u.name = t.name ∧ u.filename = t.filename ∧ u.awr = t.awr / (1008664967 / 10 ^ 9) := by
    rintro t l ⟨m, T, -, ht⟩
    unfold serpentLine
    rw [ht]
    unfold lineWords
    simp only [List.getElem?_cons_succ, List.getElem?_cons_zero, ra, re]
    refine ⟨_, rfl, rfl, rfl, ?_⟩
    simp only [serpentTable]
    norm_num
  have hex : ∀ (ts : List Table) (ls : List Str), List.Forall₂ (fun t l => ∃ m T, Exportable t m T ∧ tokens l = lineWords fa fe t m T) ts ls →
      ∃ us, List.Forall₂ (fun l u => serpentLine pf l = .ok (some u)) ls us ∧
        List.Forall₂ (fun t u => u.name = t.name ∧ u.filename = t.filename ∧ u.awr = t.awr / (1008664967 / 10 ^ 9)) ts us := by
    intro ts ls hf
    induction hf with
    | nil => exact ⟨[], .nil, .nil⟩
    | cons h1 _ ih =>
      obtain ⟨u, hu, hq⟩ := hread _ _ h1
      obtain ⟨us, h2, h3⟩ := ih
      exact ⟨u :: us, .cons hu h2, .cons hq h3⟩
  obtain ⟨us, h2, h3⟩ := hex _ _ (evens_forall₂ _ _ hf)
  refine ⟨⟨none, [], us⟩, ?_, h3⟩
  unfold serpentRead
  rw [serpentLines_ok h2]
  simp only
  rw [if_neg (by simp)]
  simp

/-- **C159 (reading).** In a file with two lines for each table, as those of Serpent (by zaid and by name), the first line of each is read. -/
theorem serpent_pairs {pf : Str → Option ℚ} {ps : List (Str × Str)} {ts : List Table}
    (h : List.Forall₂ (fun p t => serpentLine pf p.1 = .ok (some t)) ps ts) :
    serpentRead pf (ps.flatMap (fun p => [p.1, p.2])) = .ok ⟨none, [], ts⟩ := by
  have he : evens (ps.flatMap (fun p => [p.1, p.2])) = ps.map Prod.fst := by
    clear h
    induction ps with
    | nil => rfl
    | cons p ps ih =>
      rw [List.flatMap_cons]
      simp only [List.cons_append, List.nil_append, evens, ih, List.map_cons]
  have h2 : List.Forall₂ (fun l t => serpentLine pf l = .ok (some t)) (ps.map Prod.fst) ts := by
    clear he
    induction h with
    | nil => exact .nil
    | cons h1 _ ih => exact .cons h1 ih
  unfold serpentRead
  rw [he, serpentLines_ok h2]
  simp only
  rw [if_neg (by simp)]
  simp

/-! ### A concrete case -/

/-- a table with a temperature (example) -/
def exTab (n : Str) : Table :=
  { name := n, awr := 1, filename := "h.ace".toList, access := "0".toList, filetype := 1, address := 1, tablelength := 10, temperature := some 0 }

example : Exportable (exTab "1001.31c".toList) 0 0 := ⟨rfl, rfl, by decide +kernel, by decide, by decide, by decide⟩
example : toXsdata (fun _ => "1.0".toList) (fun _ => "0.0e+00".toList) [exTab "1001.31c".toList, exTab "1001.31p".toList, exTab "1002.31c".toList] =
    ("1001.31c 1001.31c 1 1001 0 1.0 0.0e+00 0 h.ace\n1002.31c 1002.31c 1 1002 0 1.0 0.0e+00 0 h.ace\n".toList, none) := by decide +kernel

end F4Enix.LibM
