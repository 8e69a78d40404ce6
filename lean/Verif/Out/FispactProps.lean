import Verif.Out.Fispact
/-!
# Theorems about FISPACT pathways (C42, C79)
-/
namespace F4Enix.Fispact
open F4Enix

/-! ### every file -/

theorem mkPathway_inv {a d : Zaid} {q : ℚ} {rs : List Str} {i : Option (List Zaid)} {p : Pathway}
    (h : mkPathway a d q rs i = .ok p) :
    p = ⟨a, d, q, rs, i⟩ ∧ ∀ l, i = some l → rs.length = l.length + 1 := by
  unfold mkPathway at h
  cases i with
  | none =>
    simp only [Except.ok.injEq] at h
    exact ⟨h.symm, by simp⟩
  | some l =>
    simp only at h
    by_cases hl : rs.length = l.length + 1
    · rw [if_pos hl] at h
      simp only [Except.ok.injEq] at h
      refine ⟨h.symm, ?_⟩
      rintro _ ⟨⟩
      exact hl
    · rw [if_neg hl] at h
      split_ifs at h

theorem readPath_inv {num : Str → Option ℚ} {line : Str} {rest : List Str} {p : Pathway}
    (h : readPath num line rest = .ok p) : ∀ l, p.intermediates = some l → p.reactions.length = l.length + 1 := by
  unfold readPath at h
  split at h
  · cases h
  split at h
  · cases h
  split at h
  · cases h
  split at h
  · cases h
  split at h
  · rename_i q hq
    simp only [Except.ok.injEq] at h
    subst h
    obtain ⟨rfl, h2⟩ := mkPathway_inv hq
    exact h2
  · split at h
    · cases h
    · unfold continued at h
      split at h
      · cases h
      split at h
      · split at h
        · cases h
        split at h
        · cases h
        split at h
        · cases h
        obtain ⟨rfl, h2⟩ := mkPathway_inv h
        exact h2
      · cases h
  · cases h

/-- **C42 (every file).** Whatever the file contains, a pathway with intermediates that is read from it has one
reaction more than intermediates. -/
theorem paths_invariant {num : Str → Option ℚ} {lines : List Str} {ps : List Pathway}
    (h : fromFile num lines = .ok ps) : ∀ p ∈ ps, ∀ l, p.intermediates = some l → p.reactions.length = l.length + 1 := by
  unfold fromFile at h
  split at h
  · rename_i s e _
    generalize (lines.take e).drop (s + 1) = body at h
    induction body generalizing ps with
    | nil =>
      simp only [readPaths, Except.ok.injEq] at h
      subst h; simp
    | cons l ls ih =>
      simp only [readPaths] at h
      split at h
      · split at h
        · cases h
        · rename_i p hp
          split at h
          · cases h
          · rename_i qs hqs
            simp only [Except.ok.injEq] at h
            subst h
            intro x hx
            rcases List.mem_cons.1 hx with rfl | hx
            · exact readPath_inv hp
            · exact ih hqs x hx
      · exact ih h
  · cases h

/-! ### what FISPACT writes -/

/-- text in which no name of a nuclide can begin: capitals only just before a closing bracket, as in `---(R)---` (specification) -/
inductive Quiet : Str → Prop
  | nil : Quiet []
  | other (c : Char) (s : Str) (h : isUpper c = false) (hs : Quiet s) : Quiet (c :: s)
  | mark (c : Char) (s : Str) (hs : Quiet s) : Quiet (c :: ')' :: s)

/-- a nuclide as printed: symbol, blanks, mass number, `m` for a metastable state (specification) -/
def IsZaid (z : Zaid) (t : Str) : Prop :=
  ∃ c low sp, t = c :: low ++ sp ++ z.isotope ++ (if z.metastable then ['m'] else []) ∧ z.element = c :: low ∧
    isUpper c = true ∧ (∀ x ∈ low, isLower x = true) ∧ (∀ x ∈ sp, isSpace x = true) ∧
    z.isotope ≠ [] ∧ ∀ x ∈ z.isotope, isDigit x = true

/-- the text does not go on with a digit or an `m` (specification) -/
def EndsName (s : Str) : Prop := ∀ c t, s = c :: t → isDigit c = false ∧ c ≠ 'm'

/-- the line shows these nuclides (specification) -/
inductive ShowsZaids : List Zaid → Str → Prop
  | last (t : Str) (h : Quiet t) : ShowsZaids [] t
  | more (t w s : Str) (z : Zaid) (zs : List Zaid) (h : Quiet t) (hw : IsZaid z w) (he : EndsName s)
      (hs : ShowsZaids zs s) : ShowsZaids (z :: zs) (t ++ w ++ s)

/-- the line shows these reactions, with brackets, and no other bracket opens (specification) -/
inductive ShowsReactions : List Str → Str → Prop
  | last (t : Str) (h : ∀ c ∈ t, c ≠ '(') : ShowsReactions [] t
  | more (t body s : Str) (rs : List Str) (h : ∀ c ∈ t, c ≠ '(') (hb : body ≠ [])
      (hc : ∀ c ∈ body, reactionChar c = true) (hs : ShowsReactions rs s) :
      ShowsReactions ((['('] ++ body ++ [')']) :: rs) (t ++ (['('] ++ body ++ [')']) ++ s)

/-- the line begins with blanks, `path` and a number, and its first percentage is `q` (specification) -/
def IsPathHead (num : Str → Option ℚ) (q : ℚ) (line : Str) : Prop :=
  (∃ a b ds s, line = a ++ "path".toList ++ b ++ ds ++ s ∧ a ≠ [] ∧ b ≠ [] ∧ ds ≠ [] ∧ (∀ c ∈ a, isSpace c = true) ∧
    (∀ c ∈ b, isSpace c = true) ∧ ∀ c ∈ ds, isDigit c = true) ∧
  (∃ a c ds dots es s, line = a ++ [c] ++ ds ++ dots ++ es ++ ['%'] ++ s ∧ (∀ x ∈ a, x ≠ '%') ∧ c ≠ '%' ∧ c ≠ '.' ∧
    isDigit c = false ∧ ds ≠ [] ∧ (∀ x ∈ ds, isDigit x = true) ∧ (∀ x ∈ dots, x = '.') ∧ (∀ x ∈ es, isDigit x = true) ∧
    num (ds ++ dots ++ es) = some q)

/-! ### characters -/

theorem upper_not_lower {c : Char} (h : isUpper c = true) : isLower c = false := by
  unfold isUpper isLower at *; simp at *; omega
theorem lower_not_space {c : Char} (h : isLower c = true) : isSpace c = false := by
  unfold isLower isSpace at *; simp at *; omega
theorem upper_not_space {c : Char} (h : isUpper c = true) : isSpace c = false := by
  unfold isUpper isSpace at *; simp at *; omega
theorem digit_not_lower {c : Char} (h : isDigit c = true) : isLower c = false := by
  unfold isDigit isLower at *; simp at *; omega
theorem digit_not_letter {c : Char} (h : isDigit c = true) : isLetter c = false := by
  unfold isLetter isDigit isUpper isLower at *; simp at *; omega
theorem digit_not_space {c : Char} (h : isDigit c = true) : isSpace c = false := by
  unfold isDigit isSpace at *; simp at *; omega
theorem space_not_letter {c : Char} (h : isSpace c = true) : isLetter c = false := by
  unfold isLetter isSpace isUpper isLower at *; simp at *; omega
theorem space_not_lower {c : Char} (h : isSpace c = true) : isLower c = false := by
  unfold isLower isSpace at *; simp at *; omega
theorem space_not_digit {c : Char} (h : isSpace c = true) : isDigit c = false := by
  unfold isDigit isSpace at *; simp at *; omega
theorem letter_not_digit {c : Char} (h : isLetter c = true) : isDigit c = false := by
  unfold isLetter isDigit isUpper isLower at *; simp at *; omega

/-! ### runs of characters -/

theorem takeWhile_run {p : Char → Bool} {a s : Str} (ha : ∀ c ∈ a, p c = true) (hs : ∀ c t, s = c :: t → p c = false) :
    (a ++ s).takeWhile p = a ∧ (a ++ s).dropWhile p = s := by
  induction a with
  | nil =>
    cases s with
    | nil => exact ⟨rfl, rfl⟩
    | cons c t =>
      have := hs c t rfl
      simp [this]
  | cons c a ih =>
    have h1 := ha c (by simp)
    obtain ⟨i1, i2⟩ := ih (fun d hd => ha d (by simp [hd]))
    simp [h1, i1, i2]

theorem head_of {p : Char → Bool} {a s : Str} (hne : a ≠ []) (ha : ∀ c ∈ a, p c = true) :
    ∀ c t, a ++ s = c :: t → p c = true := by
  intro c t h
  cases a with
  | nil => exact absurd rfl hne
  | cons d a =>
    simp only [List.cons_append, List.cons.injEq] at h
    rw [← h.1]; exact ha d (by simp)

theorem zaidHere_ok {z : Zaid} {w s : Str} (h : IsZaid z w) (he : EndsName s) : zaidHere (w ++ s) = some w := by
  obtain ⟨c, low, sp, rfl, _, hc, hl, hsp, hne, hd⟩ := h
  generalize hmm : (if z.metastable then ['m'] else []) = mm
  have hm : ∀ x ∈ mm, decide (x = 'm') = true := by
    intro x hx
    rw [← hmm] at hx
    split_ifs at hx <;> simp at hx
    simp [hx]
  have hm1 : ∀ x t, mm ++ s = x :: t → isDigit x = false := by
    intro x t hx
    cases mm with
    | nil => exact (he x t hx).1
    | cons y mm =>
      simp only [List.cons_append, List.cons.injEq] at hx
      have := hm y (by simp)
      simp only [decide_eq_true_eq] at this
      rw [← hx.1, this]; rfl
  have hm2 : ∀ x t, s = x :: t → decide (x = 'm') = false := fun x t hx => decide_eq_false (he x t hx).2
  have e : (c :: low ++ sp ++ z.isotope ++ mm) ++ s = c :: (low ++ (sp ++ (z.isotope ++ (mm ++ s)))) := by simp
  rw [e]
  unfold zaidHere
  simp only
  rw [if_pos hc]
  have hiso : ∀ x t, z.isotope ++ (mm ++ s) = x :: t → isDigit x = true := head_of hne hd
  have hspiso : ∀ x t, sp ++ (z.isotope ++ (mm ++ s)) = x :: t → isLower x = false := by
    intro x t hx
    cases sp with
    | nil => exact digit_not_lower (hiso x t hx)
    | cons y sp =>
      simp only [List.cons_append, List.cons.injEq] at hx
      rw [← hx.1]; exact space_not_lower (hsp y (by simp))
  obtain ⟨t1, d1⟩ := takeWhile_run hl hspiso
  rw [t1, d1]
  obtain ⟨t2, d2⟩ := takeWhile_run hsp (fun x t hx => digit_not_space (hiso x t hx))
  rw [t2, d2]
  obtain ⟨t3, d3⟩ := takeWhile_run hd hm1
  rw [t3, d3]
  obtain ⟨t4, _⟩ := takeWhile_run (p := fun c => decide (c = 'm')) hm hm2
  rw [t4, if_neg hne]
  simp

theorem findAll_skip (m : Str → Option Str) (t s : Str) (n : Nat) : findAll m (t.length + n) (t ++ s) = findAll m n s := by
  induction t with
  | nil => simp
  | cons c t ih => rw [List.length_cons, Nat.add_right_comm, List.cons_append, findAll, ih]

theorem findAll_match {m : Str → Option Str} {w s : Str} (hw : w ≠ []) (h : m (w ++ s) = some w) :
    findAll m 0 (w ++ s) = w :: findAll m 0 s := by
  cases w with
  | nil => exact absurd rfl hw
  | cons c w =>
    rw [List.cons_append] at h ⊢
    simp only [findAll, h, List.length_cons, Nat.add_sub_cancel]
    have := findAll_skip m w s 0
    rw [Nat.add_zero] at this
    rw [this]

theorem findAll_quiet {t : Str} (s : Str) (h : Quiet t) : findAll zaidHere 0 (t ++ s) = findAll zaidHere 0 s := by
  induction h with
  | nil => rfl
  | other c t hc _ ih =>
    rw [List.cons_append]
    have : zaidHere (c :: (t ++ s)) = none := by unfold zaidHere; simp [hc]
    simp only [findAll, this]
    exact ih
  | mark c t _ ih =>
    rw [List.cons_append, List.cons_append]
    have h1 : zaidHere (c :: ')' :: (t ++ s)) = none := by
      have e1 : isLower ')' = false := by decide
      have e2 : isSpace ')' = false := by decide
      have e3 : isDigit ')' = false := by decide
      unfold zaidHere
      simp [e1, e2, e3]
    have h2 : zaidHere (')' :: (t ++ s)) = none := by
      have e1 : isUpper ')' = false := by decide
      unfold zaidHere; simp [e1]
    simp only [findAll, h1, h2]
    exact ih

/-- the names in the line, as text -/
theorem findAll_zaids {zs : List Zaid} {l : Str} (h : ShowsZaids zs l) :
    ∃ ws, findAll zaidHere 0 l = ws ∧ List.Forall₂ IsZaid zs ws := by
  induction h with
  | last t h =>
    have := findAll_quiet [] h
    rw [List.append_nil] at this
    exact ⟨[], this, .nil⟩
  | more t w s z zs h hw he _ ih =>
    obtain ⟨ws, h1, h2⟩ := ih
    refine ⟨w :: ws, ?_, .cons hw h2⟩
    rw [List.append_assoc, findAll_quiet _ h, findAll_match ?_ (zaidHere_ok hw he), h1]
    obtain ⟨c, low, sp, rfl, _⟩ := hw
    simp

theorem search_skip {m : Str → Option Str} {t s : Str} (h : ∀ a b, a ++ b = t → b ≠ [] → m (b ++ s) = none) :
    search m (t ++ s) = search m s := by
  induction t with
  | nil => rfl
  | cons c t ih =>
    have h1 := h [] (c :: t) rfl (by simp)
    rw [List.cons_append] at h1 ⊢
    simp only [search, h1]
    exact ih (fun a b hab hb => h (c :: a) b (by simp [hab]) hb)

theorem searchDigits_run {a ds s : Str} (ha : ∀ c ∈ a, isDigit c = false) (hne : ds ≠ []) (hd : ∀ c ∈ ds, isDigit c = true)
    (hs : ∀ c t, s = c :: t → isDigit c = false) : searchDigits (a ++ (ds ++ s)) = some ds := by
  unfold searchDigits
  have h1 := (takeWhile_run (p := fun c => !isDigit c) (a := a) (s := ds ++ s) (by intro c hc; simp [ha c hc])
    (fun c t hc => by simp [head_of hne hd c t hc])).2
  rw [h1, (takeWhile_run hd hs).1]
  cases ds with
  | nil => exact absurd rfl hne
  | cons c ds => rfl

theorem hasMeta_no {s : Str} (h : ∀ c ∈ s, c ≠ 'm') : hasMeta s = false := by
  induction s with
  | nil => rfl
  | cons c s ih =>
    cases s with
    | nil => rfl
    | cons d s =>
      have hd := h d (by simp)
      simp only [hasMeta, hd, decide_false, Bool.and_false, Bool.false_or]
      exact ih (fun x hx => h x (by simp [hx]))

theorem hasMeta_prefix {a s : Str} (h : ∀ c ∈ a, isDigit c = false) : hasMeta (a ++ s) = hasMeta s := by
  induction a with
  | nil => rfl
  | cons c a ih =>
    have hc := h c (by simp)
    rw [List.cons_append]
    cases hs : a ++ s with
    | nil =>
      have : s = [] := by simp at hs; exact hs.2
      rw [this]; rfl
    | cons d t =>
      simp only [hasMeta, hc, Bool.false_and, Bool.false_or]
      rw [← hs]
      exact ih (fun x hx => h x (by simp [hx]))

theorem hasMeta_digits {ds : Str} (b : Bool) (hne : ds ≠ []) (hd : ∀ c ∈ ds, isDigit c = true) :
    hasMeta (ds ++ (if b then ['m'] else [])) = b := by
  induction ds with
  | nil => exact absurd rfl hne
  | cons c ds ih =>
    have hc := hd c (by simp)
    cases ds with
    | nil => cases b <;> simp [hasMeta, hc]
    | cons d ds =>
      have hdd := hd d (by simp)
      have hm : d ≠ 'm' := by rintro rfl; exact absurd hdd (by decide)
      simp only [List.cons_append, hasMeta, hm, decide_false, Bool.and_false, Bool.false_or]
      exact ih (by simp) (fun x hx => hd x (by simp [hx]))

/-- the nuclide is recovered from its name -/
theorem getZaid_ok {z : Zaid} {w : Str} (h : IsZaid z w) : getZaid w = .ok z := by
  obtain ⟨c, low, sp, rfl, hel, hc, hl, hsp, hne, hd⟩ := h
  generalize hmm : (if z.metastable then ['m'] else []) = mm
  have hcl : isLetter c = true := by unfold isLetter; simp [hc]
  have hlow : ∀ x ∈ c :: low, isLetter x = true := by
    intro x hx
    rcases List.mem_cons.1 hx with rfl | hx
    · exact hcl
    · unfold isLetter; simp [hl x hx]
  have e : c :: low ++ sp ++ z.isotope ++ mm = (c :: low) ++ (sp ++ (z.isotope ++ mm)) := by simp
  have hiso : ∀ x t, z.isotope ++ mm = x :: t → isDigit x = true := head_of hne hd
  have hend : ∀ x t, sp ++ (z.isotope ++ mm) = x :: t → isLetter x = false := by
    intro x t hx
    cases sp with
    | nil => exact digit_not_letter (hiso x t hx)
    | cons y sp =>
      simp only [List.cons_append, List.cons.injEq] at hx
      rw [← hx.1]; exact space_not_letter (hsp y (by simp))
  have h1 : search lettersHere (c :: low ++ sp ++ z.isotope ++ mm) = some (c :: low) := by
    rw [e]
    have : lettersHere ((c :: low) ++ (sp ++ (z.isotope ++ mm))) = some (c :: low) := by
      unfold lettersHere
      rw [(takeWhile_run hlow hend).1]
    rw [List.cons_append] at this ⊢
    simp only [search, this]
  have hmd : ∀ x t, mm = x :: t → isDigit x = false := by
    intro x t hx
    rw [← hmm] at hx
    split_ifs at hx
    simp only [List.cons.injEq] at hx
    rw [← hx.1]; rfl
  have h2 : searchDigits (c :: low ++ sp ++ z.isotope ++ mm) = some z.isotope := by
    have e2 : c :: low ++ sp ++ z.isotope ++ mm = ((c :: low) ++ sp) ++ (z.isotope ++ mm) := by simp
    rw [e2]
    refine searchDigits_run ?_ hne hd hmd
    intro x hx
    rcases List.mem_append.1 hx with hx | hx
    · exact letter_not_digit (hlow x hx)
    · exact space_not_digit (hsp x hx)
  have h3 : hasMeta (c :: low ++ sp ++ z.isotope ++ mm) = z.metastable := by
    have e2 : c :: low ++ sp ++ z.isotope ++ mm = ((c :: low) ++ sp) ++ (z.isotope ++ mm) := by simp
    rw [e2, hasMeta_prefix, ← hmm, hasMeta_digits _ hne hd]
    intro x hx
    rcases List.mem_append.1 hx with hx | hx
    · exact letter_not_digit (hlow x hx)
    · exact space_not_digit (hsp x hx)
  unfold getZaid
  rw [h1]
  simp only
  rw [h2]
  simp only
  rw [h3, ← hel]

theorem getZaids_ok {zs : List Zaid} {ws : List Str} (h : List.Forall₂ IsZaid zs ws) : getZaids ws = .ok zs := by
  induction h with
  | nil => rfl
  | cons h _ ih => simp only [getZaids, getZaid_ok h, ih]

theorem reactions_ok {rs : List Str} {l : Str} (h : ShowsReactions rs l) : findAll reactionHere 0 l = rs := by
  have skip : ∀ (t s : Str), (∀ c ∈ t, c ≠ '(') → findAll reactionHere 0 (t ++ s) = findAll reactionHere 0 s := by
    intro t s ht
    induction t with
    | nil => rfl
    | cons c t ih =>
      have hc := ht c (by simp)
      have : reactionHere (c :: (t ++ s)) = none := by unfold reactionHere; simp [hc]
      rw [List.cons_append]
      simp only [findAll, this]
      exact ih (fun d hd => ht d (by simp [hd]))
  induction h with
  | last t h =>
    have := skip t [] h
    rw [List.append_nil] at this
    rw [this]; rfl
  | more t body s rs h hb hc _ ih =>
    rw [List.append_assoc, skip _ _ h, findAll_match (by simp) ?_, ih]
    have e : ['('] ++ body ++ [')'] ++ s = '(' :: (body ++ (')' :: s)) := by simp
    rw [e]
    unfold reactionHere
    simp only
    rw [if_pos trivial]
    obtain ⟨t1, d1⟩ := takeWhile_run (s := ')' :: s) hc (by
      intro x t hx
      simp only [List.cons.injEq] at hx
      rw [← hx.1]; decide)
    rw [t1, d1]
    simp [hb]

theorem mem_takeWhile_imp {p : Char → Bool} {l : Str} {x : Char} (h : x ∈ l.takeWhile p) : p x = true := by
  induction l with
  | nil => simp at h
  | cons c l ih =>
    by_cases hc : p c = true
    · rw [List.takeWhile_cons_of_pos hc] at h
      rcases List.mem_cons.1 h with rfl | h
      · exact hc
      · exact ih h
    · rw [List.takeWhile_cons_of_neg hc] at h
      simp at h

theorem percHere_spec {s w : Str} (h : percHere s = some w) :
    ∃ q t, s = q ++ '%' :: t ∧ ∀ c ∈ q, isDigit c = true ∨ c = '.' := by
  unfold percHere at h
  simp only at h
  split at h
  · cases h
  · rename_i c r hr
    split_ifs at h with hc
    refine ⟨s.takeWhile isDigit ++ (s.dropWhile isDigit).takeWhile (fun c => decide (c = '.')) ++
      ((s.dropWhile isDigit).dropWhile (fun c => decide (c = '.'))).takeWhile isDigit, r, ?_, ?_⟩
    · rw [← hc.1, ← hr, List.append_assoc, List.append_assoc, List.takeWhile_append_dropWhile,
        List.takeWhile_append_dropWhile, List.takeWhile_append_dropWhile]
    · intro x hx
      simp only [List.mem_append] at hx
      rcases hx with (hx | hx) | hx
      · exact Or.inl (mem_takeWhile_imp hx)
      · exact Or.inr (of_decide_eq_true (mem_takeWhile_imp (p := fun c => decide (c = '.')) hx))
      · exact Or.inl (mem_takeWhile_imp hx)

theorem percHere_none {b t : Str} {c : Char} (hb : ∀ x ∈ b, x ≠ '%') (h1 : c ≠ '%') (h2 : c ≠ '.') (h3 : isDigit c = false) :
    percHere (b ++ c :: t) = none := by
  cases h : percHere (b ++ c :: t) with
  | none => rfl
  | some w =>
    exfalso
    obtain ⟨q, r, he, hq⟩ := percHere_spec h
    rcases List.append_eq_append_iff.1 he with ⟨a', e1, e2⟩ | ⟨a', e1, e2⟩
    · cases a' with
      | nil =>
        simp only [List.nil_append, List.cons.injEq] at e2
        exact h1 e2.1
      | cons x a' =>
        simp only [List.cons_append, List.cons.injEq] at e2
        have := hq x (by rw [e1]; simp)
        rw [← e2.1] at this
        rcases this with h | h
        · rw [h3] at h; cases h
        · exact h2 h
    · cases a' with
      | nil =>
        simp only [List.nil_append, List.cons.injEq] at e2
        exact h1 e2.1.symm
      | cons x a' =>
        simp only [List.cons_append, List.cons.injEq] at e2
        exact hb x (by rw [e1]; simp) e2.1.symm

theorem perc_ok {num : Str → Option ℚ} {q : ℚ} {line : Str} (h : IsPathHead num q line) :
    ∃ w, search percHere line = some w ∧ num w = some q := by
  obtain ⟨_, a, c, ds, dots, es, s, rfl, ha, c1, c2, c3, hne, hd, hdot, hes, hq⟩ := h
  refine ⟨ds ++ dots ++ es, ?_, hq⟩
  have e : a ++ [c] ++ ds ++ dots ++ es ++ ['%'] ++ s = (a ++ [c]) ++ (ds ++ (dots ++ (es ++ ('%' :: s)))) := by simp
  rw [e, search_skip]
  · have hp : percHere (ds ++ (dots ++ (es ++ ('%' :: s)))) = some (ds ++ dots ++ es) := by
      have hdot' : ∀ x ∈ dots, decide (x = '.') = true := fun x hx => decide_eq_true (hdot x hx)
      have hpct : ∀ x t, '%' :: s = x :: t → isDigit x = false := by
        intro x t hx
        simp only [List.cons.injEq] at hx
        rw [← hx.1]; rfl
      unfold percHere
      simp only
      by_cases hdn : dots = []
      · subst hdn
        simp only [List.nil_append, List.append_nil]
        have hall : ∀ x ∈ ds ++ es, isDigit x = true := by
          intro x hx
          rcases List.mem_append.1 hx with h | h
          · exact hd x h
          · exact hes x h
        obtain ⟨t1, d1⟩ := takeWhile_run (s := '%' :: s) hall hpct
        rw [List.append_assoc] at t1 d1
        rw [t1, d1]
        have n1 : ('%' :: s).takeWhile (fun c => decide (c = '.')) = [] := by simp
        have n2 : ('%' :: s).dropWhile (fun c => decide (c = '.')) = '%' :: s := by simp
        have e0 : isDigit '%' = false := by decide
        rw [n1, n2]
        simp [e0, hne]
      · have hdd : ∀ x t, dots ++ (es ++ ('%' :: s)) = x :: t → isDigit x = false := by
          intro x t hx
          have := head_of (p := fun c => decide (c = '.')) hdn hdot' x t hx
          rw [of_decide_eq_true this]; rfl
        obtain ⟨t1, d1⟩ := takeWhile_run hd hdd
        rw [t1, d1]
        obtain ⟨t2, d2⟩ := takeWhile_run (p := fun c => decide (c = '.')) (s := es ++ ('%' :: s)) hdot' (by
          intro x t hx
          cases es with
          | nil =>
            simp only [List.nil_append, List.cons.injEq] at hx
            rw [← hx.1]; decide
          | cons y es =>
            simp only [List.cons_append, List.cons.injEq] at hx
            have := hes y (by simp)
            rw [← hx.1]
            refine decide_eq_false ?_
            rintro rfl
            exact absurd this (by decide))
        rw [t2, d2]
        obtain ⟨t3, d3⟩ := takeWhile_run (s := '%' :: s) hes hpct
        rw [t3, d3]
        simp [hne]
    cases ds with
    | nil => exact absurd rfl hne
    | cons d ds =>
      rw [List.cons_append] at hp ⊢
      simp only [search, hp]
  · intro x b hxb hb
    obtain ⟨b', rfl⟩ : ∃ b', b = b' ++ [c] := by
      rcases List.eq_nil_or_concat b with rfl | ⟨b', y, rfl⟩
      · exact absurd rfl hb
      · rw [List.concat_eq_append, ← List.append_assoc] at hxb
        have := List.append_inj_right' hxb rfl
        simp only [List.cons.injEq, and_true] at this
        exact ⟨b', by rw [this, List.concat_eq_append]⟩
    rw [List.append_assoc]
    refine percHere_none ?_ c1 c2 c3
    intro y hy
    refine ha y ?_
    rw [← List.append_assoc] at hxb
    have := List.append_inj_left' hxb rfl
    rw [← this]
    simp [hy]

theorem isPathLine_ok {num : Str → Option ℚ} {q : ℚ} {line : Str} (h : IsPathHead num q line) : isPathLine line = true := by
  obtain ⟨⟨a, b, ds, s, rfl, na, nb, nd, ha, hb, hd⟩, _⟩ := h
  have e : a ++ "path".toList ++ b ++ ds ++ s = a ++ ("path".toList ++ (b ++ (ds ++ s))) := by simp
  rw [e]
  unfold isPathLine
  have s1 : startsSpace (a ++ ("path".toList ++ (b ++ (ds ++ s)))) = true := by
    cases a with
    | nil => exact absurd rfl na
    | cons c a => exact ha c (by simp)
  have d1 := (takeWhile_run (p := isSpace) (a := a) (s := "path".toList ++ (b ++ (ds ++ s))) ha (by
    intro x t hx
    have : x = 'p' := by
      have : "path".toList = ['p', 'a', 't', 'h'] := rfl
      rw [this] at hx
      simp only [List.cons_append, List.cons.injEq] at hx
      exact hx.1.symm
    rw [this]; decide)).2
  have d2 : ("path".toList ++ (b ++ (ds ++ s))).drop 4 = b ++ (ds ++ s) := rfl
  have s2 : startsSpace (b ++ (ds ++ s)) = true := by
    cases b with
    | nil => exact absurd rfl nb
    | cons c b => exact hb c (by simp)
  have d3 := (takeWhile_run (p := isSpace) (a := b) (s := ds ++ s) hb (by
    intro x t hx
    exact digit_not_space (head_of nd hd x t hx))).2
  rw [s1]
  simp only
  rw [d1, d2, s2, d3]
  cases ds with
  | nil => exact absurd rfl nd
  | cons d ds =>
    have := hd d (by simp)
    simp [this]

/-! ### the paths -/

/-- a path of the output: nuclides from the parent to the daughter, and the reactions between them (specification) -/
structure Chain where
  perc : ℚ
  parent : Zaid
  steps : List (Str × Zaid)
  deriving DecidableEq, Repr

/-- the nuclides of the chain after the parent (specification) -/
def Chain.nuclides (c : Chain) : List Zaid := c.steps.map Prod.snd

/-- the pathway that stands for a chain: the nuclides between the first and the last are intermediates (specification) -/
def Represents (p : Pathway) (c : Chain) : Prop :=
  p.perc = c.perc ∧ p.parent = c.parent ∧ p.reactions = c.steps.map Prod.fst ∧
  some p.daughter = c.nuclides.getLast? ∧
  (c.steps.length = 1 → p.intermediates = none) ∧
  (1 < c.steps.length → p.intermediates = some c.nuclides.dropLast)

/-- a path on one line: the line with nuclides and percentage, then the line with the reactions (specification) -/
def IsPath (num : Str → Option ℚ) (c : Chain) (l1 l2 : Str) : Prop :=
  IsPathHead num c.perc l1 ∧ ShowsZaids (c.parent :: c.nuclides) l1 ∧ ShowsReactions (c.steps.map Prod.fst) l2 ∧ c.steps ≠ []

theorem splitNames_ok {p d : Zaid} {zs : List Zaid} {ws : List Str} (h : List.Forall₂ IsZaid (p :: zs) ws)
    (hd : zs.getLast? = some d) :
    splitNames ws = .ok (p, d, if 1 < zs.length then some zs.dropLast else none) := by
  unfold splitNames
  rw [getZaids_ok h]
  simp only
  have hne : zs ≠ [] := by rintro rfl; simp at hd
  rw [List.getLast?_eq_some_getLast hne] at hd
  simp only [Option.some.injEq] at hd
  rw [List.getLast_cons hne, hd, List.length_cons]
  by_cases h1 : 1 < zs.length
  · rw [if_pos (by omega), if_pos h1]
  · rw [if_neg (by omega), if_neg h1]

/-- **C42 (one path).** A path that is on one line is read as the chain it shows. -/
theorem readPath_ok {num : Str → Option ℚ} {c : Chain} {l1 l2 : Str} (rest : List Str) (h : IsPath num c l1 l2) :
    ∃ p, readPath num l1 (l2 :: rest) = .ok p ∧ Represents p c := by
  obtain ⟨hh, hz, hr, hne⟩ := h
  obtain ⟨w, hw, hq⟩ := perc_ok hh
  obtain ⟨ws, hws, hf⟩ := findAll_zaids hz
  have hnn : c.nuclides ≠ [] := by simpa [Chain.nuclides] using hne
  obtain ⟨d, hd⟩ : ∃ d, c.nuclides.getLast? = some d := ⟨_, List.getLast?_eq_some_getLast hnn⟩
  unfold readPath
  rw [hw]
  simp only
  rw [hq]
  simp only
  rw [hws, splitNames_ok hf hd]
  simp only
  rw [reactions_ok hr]
  have hlen : c.nuclides.length = c.steps.length := by simp [Chain.nuclides]
  by_cases h1 : 1 < c.nuclides.length
  · rw [if_pos h1]
    unfold mkPathway
    simp only
    rw [if_pos (by rw [List.length_map, List.length_dropLast]; omega)]
    exact ⟨_, rfl, rfl, rfl, rfl, hd.symm, fun h => by omega, fun _ => rfl⟩
  · rw [if_neg h1]
    exact ⟨_, rfl, rfl, rfl, rfl, hd.symm, fun _ => rfl, fun h => by omega⟩

/-- the part of the file with the paths: each path on two lines, other lines between (specification) -/
inductive IsBody (num : Str → Option ℚ) : List Chain → List Str → Prop
  | done : IsBody num [] []
  | other (l : Str) (cs : List Chain) (ls : List Str) (h : isPathLine l = false) (t : IsBody num cs ls) : IsBody num cs (l :: ls)
  | path (c : Chain) (l1 l2 : Str) (cs : List Chain) (ls : List Str) (h : IsPath num c l1 l2) (h2 : isPathLine l2 = false)
      (t : IsBody num cs ls) : IsBody num (c :: cs) (l1 :: l2 :: ls)

theorem readPaths_ok {num : Str → Option ℚ} {cs : List Chain} {ls : List Str} (h : IsBody num cs ls) :
    ∃ ps, readPaths num ls = .ok ps ∧ List.Forall₂ Represents ps cs := by
  induction h with
  | done => exact ⟨[], rfl, .nil⟩
  | other l cs ls h _ ih =>
    simp only [readPaths, h]
    exact ih
  | path c l1 l2 cs ls h h2 _ ih =>
    obtain ⟨ps, i1, i2⟩ := ih
    obtain ⟨p, p1, p2⟩ := readPath_ok ls h
    simp only [readPaths, isPathLine_ok h.1, if_true, p1, h2, i1]
    exact ⟨p :: ps, rfl, .cons p2 i2⟩

theorem contains_iff (sub l : Str) : contains sub l = true ↔ sub <:+: l := by
  induction l with
  | nil => simp [contains]
  | cons b bs ih => simp [contains, ih, List.infix_cons_iff]

/-- the line has none of the two marks (specification) -/
def NoMark (l : Str) : Prop := ¬ "Significant loops".toList <:+: l ∧ ¬ "G E N E R I C   P A T H W".toList <:+: l

theorem bounds_none (ls more : List Str) (h : ∀ l ∈ ls, NoMark l) (i : Nat) (b : Option Nat × Option Nat) :
    bounds i (ls ++ more) b = bounds (i + ls.length) more b := by
  induction ls generalizing i with
  | nil => rfl
  | cons l ls ih =>
    obtain ⟨h1, h2⟩ := h l (by simp)
    rw [List.cons_append]
    simp only [bounds]
    rw [if_neg (fun hc => h1 ((contains_iff _ _).1 hc)), if_neg (fun hc => h2 ((contains_iff _ _).1 hc))]
    rw [ih (fun l hl => h l (by simp [hl])), List.length_cons]
    congr 1
    omega

/-- **C42.** The pathways read from a file are, in order, the paths between its two marks. -/
theorem file_exact {num : Str → Option ℚ} {pre body post : List Str} {s e : Str} {cs : List Chain}
    (h1 : ∀ l ∈ pre, NoMark l) (h2 : ∀ l ∈ body, NoMark l) (h3 : ∀ l ∈ post, NoMark l)
    (hs : "Significant loops".toList <:+: s)
    (he : "G E N E R I C   P A T H W".toList <:+: e ∧ ¬ "Significant loops".toList <:+: e) (hb : IsBody num cs body) :
    ∃ ps, fromFile num (pre ++ s :: (body ++ e :: post)) = .ok ps ∧ List.Forall₂ Represents ps cs := by
  have hbd : bounds 0 (pre ++ s :: (body ++ e :: post)) (none, none) =
      (some pre.length, some (pre.length + 1 + body.length)) := by
    rw [bounds_none _ _ h1, Nat.zero_add]
    simp only [bounds]
    rw [if_pos ((contains_iff _ _).2 hs), bounds_none _ _ h2]
    simp only [bounds]
    rw [if_neg (fun hc => he.2 ((contains_iff _ _).1 hc)), if_pos ((contains_iff _ _).2 he.1)]
    have := bounds_none post [] h3 (pre.length + 1 + body.length + 1) (some pre.length, some (pre.length + 1 + body.length))
    rw [List.append_nil] at this
    rw [this]
    rfl
  unfold fromFile
  rw [hbd]
  simp only
  have hb2 : ((pre ++ s :: (body ++ e :: post)).take (pre.length + 1 + body.length)).drop (pre.length + 1) = body := by
    have e1 : pre ++ s :: (body ++ e :: post) = ((pre ++ [s]) ++ body) ++ (e :: post) := by simp
    have l1 : ((pre ++ [s]) ++ body).length = pre.length + 1 + body.length := by simp; omega
    have l2 : (pre ++ [s]).length = pre.length + 1 := by simp
    rw [e1, ← l1, List.take_left, ← l2, List.drop_left]
  rw [hb2]
  exact readPaths_ok hb

/-! ### long paths (C79) -/

/-- **C79 fails.** A path continued on a second line, as FISPACT prints it (the first line ends with the nuclide `n`
and an arrow, the reaction of which is printed; the continuation begins again with `n` and the same arrow), is read
with the nuclide `n` twice and the reaction `r` twice: the chain goes from `n` to itself. -/
theorem continued_doubled {num : Str → Option ℚ} {l1 l2 l3 l4 l5 l6 : Str} {rest : List Str} {q : ℚ} {p n d : Zaid}
    {mid tail : List Zaid} {rs rs' : List Str} {r : Str} (hh : IsPathHead num q l1)
    (hz : ShowsZaids (p :: mid ++ [n]) l1) (hm : mid ≠ []) (hrs : rs.length = mid.length + 1)
    (hr : ShowsReactions (rs ++ [r]) l2) (hc : "path continued".toList <:+: l5)
    (hz' : ShowsZaids (n :: tail ++ [d]) l5) (hrs' : rs'.length = tail.length) (hr' : ShowsReactions (r :: rs') l6) :
    readPath num l1 (l2 :: l3 :: l4 :: l5 :: l6 :: rest) =
      .ok ⟨p, d, q, rs ++ [r] ++ r :: rs', some (mid ++ [n] ++ n :: tail)⟩ := by
  obtain ⟨w, hw, hq⟩ := perc_ok hh
  obtain ⟨ws, hws, hf⟩ := findAll_zaids hz
  obtain ⟨ws', hws', hf'⟩ := findAll_zaids hz'
  have hd : (mid ++ [n]).getLast? = some n := by simp
  unfold readPath
  rw [hw]
  simp only
  rw [hq]
  simp only
  rw [hws, splitNames_ok (p := p) (zs := mid ++ [n]) hf hd]
  simp only
  rw [reactions_ok hr]
  have hl : 1 < (mid ++ [n]).length := by
    have := List.length_pos_iff.2 hm
    simp; omega
  rw [if_pos hl, List.dropLast_concat]
  have hmk : mkPathway p n q (rs ++ [r]) (some mid) = .error .assertionError := by
    unfold mkPathway
    simp only
    rw [if_neg (by simp; omega), if_neg (by simp)]
  rw [hmk]
  simp only [List.getElem?_cons_succ, List.getElem?_cons_zero]
  unfold continued
  simp only
  rw [if_pos ((contains_iff _ _).2 hc), hws', getZaids_ok hf']
  simp only
  have g1 : (n :: tail ++ [d]).getLast? = some d := by
    rw [List.getLast?_append]; rfl
  have g2 : (n :: tail ++ [d]).dropLast = n :: tail := List.dropLast_concat
  rw [g1]
  simp only
  rw [g2, reactions_ok hr']
  unfold mkPathway
  simp only
  rw [if_pos (by simp; omega)]

/-! ### text -/

/-- the steps of a pathway (specification) -/
def Pathway.steps (p : Pathway) : List (Str × Zaid) := List.zip p.reactions (p.intermediates.getD [] ++ [p.daughter])

/-- **C42 (text).** The text of a pathway with intermediates shows the parent, and then every step: the reaction in
an arrow and the nuclide it leads to, the last of which is the daughter (after one more blank). -/
theorem str_exact {p : Pathway} {l : List Zaid} (hi : p.intermediates = some l) (hl : p.reactions.length = l.length + 1) :
    ∃ init r, p.steps = init ++ [(r, p.daughter)] ∧ init.length = l.length ∧
      p.str = .ok (p.parent.str ++ [' '] ++
        (init.map (fun x => "-".toList ++ x.1 ++ "-> ".toList ++ x.2.str ++ " ".toList)).flatten ++
        "-".toList ++ r ++ "->  ".toList ++ p.daughter.str) := by
  obtain ⟨par, d, q, rs, i⟩ := p
  simp only at hi hl
  subst hi
  rcases List.eq_nil_or_concat rs with rfl | ⟨rs', r, hrs⟩
  · simp at hl
  rw [List.concat_eq_append] at hrs
  subst hrs
  have hl' : rs'.length = l.length := by simpa using hl
  refine ⟨List.zip rs' l, r, ?_, by simp [hl'], ?_⟩
  · simp only [Pathway.steps, Option.getD_some]
    rw [List.zip_append hl']
    rfl
  · unfold Pathway.str
    simp only [List.getLast?_append, List.getLast?_singleton, Option.some_or]
    have hz : List.zip l (rs' ++ [r]) = List.zip l rs' := by
      have := List.zip_append (l₁ := l) (r₁ := []) (l₂ := rs') (r₂ := [r]) hl'.symm
      rw [List.append_nil] at this
      rw [this]; simp
    have hsw : ∀ (a : List Zaid) (b : List Str), (List.zip a b).map (fun x => ['-'] ++ x.2 ++ "-> ".toList ++ x.1.str ++ [' ']) =
        (List.zip b a).map (fun x => "-".toList ++ x.1 ++ "-> ".toList ++ x.2.str ++ " ".toList) := by
      intro a
      induction a with
      | nil => intro b; simp
      | cons x a ih =>
        intro b
        cases b with
        | nil => simp
        | cons y b => simp only [List.zip_cons_cons, List.map_cons, ih]; rfl
    rw [hz, hsw]
    rfl

/-- the text of a direct pathway -/
theorem str_direct {p : Pathway} {r : Str} (hi : p.intermediates = none) (hr : p.reactions = [r]) :
    p.str = .ok (p.parent.str ++ " -".toList ++ r ++ "-> ".toList ++ p.daughter.str) := by
  unfold Pathway.str
  rw [hi]
  simp only
  rw [hr]

/-- a direct path with no reaction in its second line is accepted; its text cannot be built -/
theorem direct_unchecked {num : Str → Option ℚ} {l1 l2 : Str} {rest : List Str} {q : ℚ} {p d : Zaid}
    (hh : IsPathHead num q l1) (hz : ShowsZaids [p, d] l1) (hr : ShowsReactions [] l2) :
    ∃ x, readPath num l1 (l2 :: rest) = .ok x ∧ x.reactions = [] ∧ x.str = .error .indexError := by
  obtain ⟨w, hw, hq⟩ := perc_ok hh
  obtain ⟨ws, hws, hf⟩ := findAll_zaids hz
  refine ⟨⟨p, d, q, [], none⟩, ?_, rfl, rfl⟩
  unfold readPath
  rw [hw]
  simp only
  rw [hq]
  simp only
  rw [hws, splitNames_ok (p := p) (zs := [d]) (d := d) hf rfl]
  simp only
  rw [reactions_ok hr]
  rfl

/-! ### concrete cases -/

/-- `exNum` (example) -/
def exNum : Str → Option ℚ := fun w => if w = "43.807".toList then some (43807 / 1000) else none

/-- `exLines` (example) -/
def exLines : List Str := [" Significant loops are displayed",
  " Target nuclide Mn 56     99.942% of inventory given by  2 paths",
  " path  1  43.807% Mn 55 ---(R)--- Mn 56 ---(S)--- ",
  "                    100.00%(n,g)                   ", "",
  " path  2  43.807% Fe 56 ---(R)--- Co 60m ---(b)--- Co 60 ---(S)--- ",
  "                    100.00%(n,2p)     99.00%(IT)       ",
  "                      1.00%(n,a)     ", "",
  "       G E N E R I C   P A T H W A Y S"].map String.toList

example : (fromFile exNum exLines).toOption.map (List.map (fun p => (p.str).toOption.map String.ofList)) =
    some [some "Mn55 -(n,g)-> Mn56", some "Fe56 -(n,2p)-> Co60m -(IT)->  Co60"] := by decide +kernel

/-- the path of the sample file of the repository that is continued on a second line, shortened: Pb212 decays to
itself (example) -/
def exLong : List Str := [" Significant loops are displayed",
  " path  1  43.807% Th232 ---(B)--- Po216 ---(d)--- Pb212 ---(d)--- ",
  "              99.99%(a)      100.00%(a)     100.00%(b-) ",
  "               0.01%(n,na) ", "",
  " path continued   Pb212 ---(d)--- Bi212 ---(S)---",
  "                    100.00%(b-)", "",
  "       G E N E R I C   P A T H W A Y S"].map String.toList

example : (fromFile exNum exLong).toOption.map (List.map (fun p => (p.str).toOption.map String.ofList)) =
    some [some "Th232 -(a)-> Po216 -(a)-> Pb212 -(b-)-> Pb212 -(b-)->  Bi212"] := by decide +kernel

/-- checks that text is quiet (proof) -/
def quietB : Str → Bool
  | [] => true
  | [c] => !isUpper c
  | c :: d :: s => if isUpper c then decide (d = ')') && quietB s else quietB (d :: s)

theorem quiet_of {s : Str} (h : quietB s = true) : Quiet s := by
  induction s using quietB.induct with
  | case1 => exact .nil
  | case2 c => exact .other c _ (by simpa [quietB] using h) .nil
  | case3 c d s hu ih =>
    simp only [quietB, hu, if_true, Bool.and_eq_true, decide_eq_true_eq] at h
    rw [h.1]
    exact .mark c s (ih h.2)
  | case4 c d s hu ih =>
    rw [quietB, if_neg hu] at h
    exact .other c _ (by simpa using hu) (ih h)

theorem endsName_cons {c : Char} {s : Str} (h1 : isDigit c = false) (h2 : c ≠ 'm') : EndsName (c :: s) := by
  intro d t h
  simp only [List.cons.injEq] at h
  rw [← h.1]; exact ⟨h1, h2⟩

/-- the hypotheses of `readPath_ok` are met by a path with an intermediate in a metastable state -/
example : IsPath exNum ⟨43807 / 1000, ⟨"Fe".toList, "56".toList, false⟩,
    [("(n,2p)".toList, ⟨"Co".toList, "60".toList, true⟩), ("(IT)".toList, ⟨"Co".toList, "60".toList, false⟩)]⟩
    " path  2  43.807% Fe 56 ---(R)--- Co 60m ---(b)--- Co 60 ---(S)--- ".toList "   100.00%(n,2p)     99.00%(IT) ".toList := by
  refine ⟨⟨⟨[' '], [' ', ' '], ['2'], "  43.807% Fe 56 ---(R)--- Co 60m ---(b)--- Co 60 ---(S)--- ".toList, by decide +kernel⟩,
    ⟨" path  2 ".toList, ' ', "43".toList, ['.'], "807".toList, " Fe 56 ---(R)--- Co 60m ---(b)--- Co 60 ---(S)--- ".toList,
      by decide +kernel⟩⟩, ?_, ?_, by simp⟩
  · refine ShowsZaids.more " path  2  43.807% ".toList "Fe 56".toList " ---(R)--- Co 60m ---(b)--- Co 60 ---(S)--- ".toList _ _
      (quiet_of (by decide +kernel)) ⟨'F', ['e'], [' '], by decide +kernel⟩ (endsName_cons (by decide) (by decide)) ?_
    refine ShowsZaids.more " ---(R)--- ".toList "Co 60m".toList " ---(b)--- Co 60 ---(S)--- ".toList _ _
      (quiet_of (by decide +kernel)) ⟨'C', ['o'], [' '], by decide +kernel⟩ (endsName_cons (by decide) (by decide)) ?_
    exact ShowsZaids.more " ---(b)--- ".toList "Co 60".toList " ---(S)--- ".toList _ _
      (quiet_of (by decide +kernel)) ⟨'C', ['o'], [' '], by decide +kernel⟩ (endsName_cons (by decide) (by decide))
      (.last _ (quiet_of (by decide +kernel)))
  · refine ShowsReactions.more "   100.00%".toList "n,2p".toList "     99.00%(IT) ".toList _ (by decide +kernel) (by decide) (by decide +kernel) ?_
    exact ShowsReactions.more "     99.00%".toList "IT".toList " ".toList _ (by decide +kernel) (by decide) (by decide +kernel)
      (.last _ (by decide))

/-- and those of `continued_doubled` by the path that is continued in the sample file, shortened -/
example : ShowsZaids (⟨"Th".toList, "232".toList, false⟩ :: [⟨"Po".toList, "216".toList, false⟩] ++ [⟨"Pb".toList, "212".toList, false⟩])
      " path  1  43.807% Th232 ---(B)--- Po216 ---(d)--- Pb212 ---(d)--- ".toList ∧
    ShowsZaids (⟨"Pb".toList, "212".toList, false⟩ :: [] ++ [⟨"Bi".toList, "212".toList, false⟩])
      " path continued   Pb212 ---(d)--- Bi212 ---(S)---".toList ∧
    ShowsReactions (["(a)".toList, "(a)".toList] ++ ["(b-)".toList]) "  99.99%(a)      100.00%(a)     100.00%(b-) ".toList := by
  refine ⟨?_, ?_, ?_⟩
  · refine ShowsZaids.more " path  1  43.807% ".toList "Th232".toList " ---(B)--- Po216 ---(d)--- Pb212 ---(d)--- ".toList _ _
      (quiet_of (by decide +kernel)) ⟨'T', ['h'], [], by decide +kernel⟩ (endsName_cons (by decide) (by decide)) ?_
    refine ShowsZaids.more " ---(B)--- ".toList "Po216".toList " ---(d)--- Pb212 ---(d)--- ".toList _ _
      (quiet_of (by decide +kernel)) ⟨'P', ['o'], [], by decide +kernel⟩ (endsName_cons (by decide) (by decide)) ?_
    exact ShowsZaids.more " ---(d)--- ".toList "Pb212".toList " ---(d)--- ".toList _ _
      (quiet_of (by decide +kernel)) ⟨'P', ['b'], [], by decide +kernel⟩ (endsName_cons (by decide) (by decide))
      (.last _ (quiet_of (by decide +kernel)))
  · refine ShowsZaids.more " path continued   ".toList "Pb212".toList " ---(d)--- Bi212 ---(S)---".toList _ _
      (quiet_of (by decide +kernel)) ⟨'P', ['b'], [], by decide +kernel⟩ (endsName_cons (by decide) (by decide)) ?_
    exact ShowsZaids.more " ---(d)--- ".toList "Bi212".toList " ---(S)---".toList _ _
      (quiet_of (by decide +kernel)) ⟨'B', ['i'], [], by decide +kernel⟩ (endsName_cons (by decide) (by decide))
      (.last _ (quiet_of (by decide +kernel)))
  · refine ShowsReactions.more "  99.99%".toList "a".toList "      100.00%(a)     100.00%(b-) ".toList _ (by decide +kernel) (by decide) (by decide +kernel) ?_
    refine ShowsReactions.more "      100.00%".toList "a".toList "     100.00%(b-) ".toList _ (by decide +kernel) (by decide) (by decide +kernel) ?_
    exact ShowsReactions.more "     100.00%".toList "b-".toList " ".toList _ (by decide +kernel) (by decide) (by decide +kernel)
      (.last _ (by decide))

end F4Enix.Fispact
