import Verif.Inp.Write
import Mathlib.Data.List.TakeWhile
import Mathlib.Tactic.Linarith
/-!
# Theorems about the writing of an input (C108)
-/
namespace F4Enix.Write
open F4Enix

/-! ### specification -/

/-- the lines of a text: what is between its newlines (specification) -/
def lines : Str → List Str
  | [] => [[]]
  | c :: cs =>
    if c = '\n' then [] :: lines cs
    else
      match lines cs with
      | [] => [[c]]
      | l :: ls => (c :: l) :: ls

/-- a line without any visible character (specification) -/
def isBlank (l : Str) : Bool := l.all isSpace

/-- the visible lines of a card, without carriage returns (specification) -/
def visible (t : Str) : List Str := (lines (delCR t)).filter (fun l => !isBlank l)

/-- how MCNP divides a file: blank lines separate the blocks (specification) -/
def blocksOf : List Str → List (List Str)
  | [] => [[]]
  | l :: ls =>
    if isBlank l then [] :: blocksOf ls
    else
      match blocksOf ls with
      | [] => [[l]]
      | b :: bs => (l :: b) :: bs

/-- end a line (specification) -/
def endl (l : Str) : Str := l ++ ['\n']

/-- the first line of the text has a visible character (specification) -/
def HeadOk (t : Str) : Prop := ∃ c ∈ t.takeWhile (fun c => c != '\n'), isSpace c = false

/-! ### lines -/

theorem lines_ne_nil (s : Str) : lines s ≠ [] := by
  cases s with
  | nil => simp [lines]
  | cons c cs =>
    simp only [lines]
    split_ifs
    · simp
    · cases lines cs <;> simp

theorem lines_no_nl (s : Str) : ∀ l ∈ lines s, ∀ c ∈ l, c ≠ '\n' := by
  induction s with
  | nil => simp [lines]
  | cons c cs ih =>
    simp only [lines]
    split_ifs with h
    · intro l hl
      rcases List.mem_cons.1 hl with rfl | hl
      · simp
      · exact ih l hl
    · cases hc : lines cs with
      | nil => exact absurd hc (lines_ne_nil cs)
      | cons x xs =>
        rw [hc] at ih
        intro l hl
        rcases List.mem_cons.1 hl with rfl | hl
        · intro d hd
          rcases List.mem_cons.1 hd with rfl | hd
          · exact h
          · exact ih x (by simp) d hd
        · exact ih l (List.mem_cons_of_mem _ hl)

/-- a text closed by a newline is its lines, each closed by a newline -/
theorem join_lines (s : Str) : (lines s).flatMap endl = s ++ ['\n'] := by
  induction s with
  | nil => rfl
  | cons c cs ih =>
    simp only [lines]
    split_ifs with h
    · subst h
      rw [List.flatMap_cons, ih]; rfl
    · cases hc : lines cs with
      | nil => exact absurd hc (lines_ne_nil cs)
      | cons x xs =>
        rw [hc] at ih
        simp only [List.flatMap_cons, endl, List.cons_append] at ih ⊢
        rw [ih]

theorem lines_append (a b : Str) : lines (a ++ '\n' :: b) = lines a ++ lines b := by
  induction a with
  | nil => simp [lines]
  | cons c cs ih =>
    rw [List.cons_append]
    simp only [lines]
    split_ifs with h
    · rw [ih]; rfl
    · rw [ih]
      cases hc : lines cs with
      | nil => exact absurd hc (lines_ne_nil cs)
      | cons x xs => rfl

theorem fileLines_join (ls : List Str) (h : ∀ l ∈ ls, ∀ c ∈ l, c ≠ '\n') (s : Str) :
    fileLines (ls.flatMap endl ++ s) = ls.map endl ++ fileLines s := by
  have := fileLines_flatten (ls.map endl) (by
    intro l hl
    obtain ⟨x, hx, rfl⟩ := List.mem_map.1 hl
    exact ⟨x, rfl, h x hx⟩) s
  rw [← this, List.flatMap_def]

theorem isBlank_endl (l : Str) : isBlank (endl l) = isBlank l := by
  simp [isBlank, endl, List.all_append, isSpace_nl]

/-! ### the removal of blank lines -/

theorem subBlank_skip (a s : Str) : subBlank a.length (a ++ s) = subBlank 0 s := by
  induction a with
  | nil => rfl
  | cons c cs ih => simp only [List.length_cons, List.cons_append, subBlank]; exact ih

theorem subBlank_line {l : Str} (h : ∀ c ∈ l, c ≠ '\n') (s : Str) :
    subBlank 0 (l ++ '\n' :: s) = l ++ '\n' :: subBlank (blankRun s) s := by
  induction l with
  | nil => simp [subBlank]
  | cons c cs ih =>
    rw [List.cons_append]
    simp only [subBlank]
    rw [if_neg (h c (by simp)), ih (fun c hc => h c (List.mem_cons_of_mem _ hc))]
    rfl

theorem takeWhile_no_nl {l : Str} (hb : isBlank l = false) (h : ∀ c ∈ l, c ≠ '\n') (s : Str) :
    '\n' ∉ (l ++ s).takeWhile isSpace := by
  induction l with
  | nil => simp [isBlank] at hb
  | cons c cs ih =>
    rw [List.cons_append, List.takeWhile_cons]
    cases hc : isSpace c with
    | false => simp
    | true =>
      simp only [if_true, List.mem_cons, not_or]
      refine ⟨fun e => h c (by simp) e.symm, ?_⟩
      refine ih ?_ (fun c hc => h c (List.mem_cons_of_mem _ hc))
      simpa [isBlank, hc] using hb

/-- the run behind a newline is exactly the blank lines that follow -/
theorem blankRun_blanks (bs : List Str) (hbs : ∀ b ∈ bs, isBlank b = true) (rest : Str)
    (hr : '\n' ∉ rest.takeWhile isSpace) :
    blankRun (bs.flatMap endl ++ rest) = (bs.flatMap endl).length := by
  have hall : ∀ c ∈ bs.flatMap endl, isSpace c = true := by
    intro c hc
    obtain ⟨b, hb, hc⟩ := List.mem_flatMap.1 hc
    simp only [endl, List.mem_append, List.mem_singleton] at hc
    rcases hc with hc | rfl
    · have := hbs b hb
      simp only [isBlank, List.all_eq_true] at this
      exact this c hc
    · exact isSpace_nl
  have htw : (bs.flatMap endl ++ rest).takeWhile isSpace = bs.flatMap endl ++ rest.takeWhile isSpace :=
    List.takeWhile_append_of_pos hall
  unfold blankRun
  rw [htw]
  rcases List.eq_nil_or_concat bs with rfl | ⟨bs', b, rfl⟩
  · simp [hr]
  · have e : (bs'.concat b).flatMap endl = bs'.flatMap endl ++ b ++ ['\n'] := by
      simp [List.concat_eq_append, List.flatMap_append, endl]
    rw [e]
    rw [if_pos (by simp)]
    have hrev : (List.takeWhile (fun c => c != '\n')
        (bs'.flatMap endl ++ b ++ ['\n'] ++ rest.takeWhile isSpace).reverse) = (rest.takeWhile isSpace).reverse := by
      rw [List.reverse_append, List.takeWhile_append_of_pos]
      · simp
      · intro c hc
        simp only [List.mem_reverse] at hc
        simp only [bne_iff_ne, ne_eq]
        rintro rfl
        exact hr hc
    rw [hrev]
    simp
    omega

/-- the blank lines behind a newline are removed -/
theorem subBlank_lines (ls : List Str) (h : ∀ l ∈ ls, ∀ c ∈ l, c ≠ '\n') :
    subBlank (blankRun (ls.flatMap endl)) (ls.flatMap endl) = (ls.filter (fun l => !isBlank l)).flatMap endl := by
  induction hn : ls.length using Nat.strong_induction_on generalizing ls with
  | _ n ih =>
    have hsplit : ls = ls.takeWhile isBlank ++ ls.dropWhile isBlank := List.takeWhile_append_dropWhile.symm
    have hbs : ∀ b ∈ ls.takeWhile isBlank, isBlank b = true := fun b hb => List.mem_takeWhile_imp hb
    have hf1 : (ls.takeWhile isBlank).filter (fun l => !isBlank l) = [] := by
      rw [List.filter_eq_nil_iff]
      intro b hb
      simp [hbs b hb]
    cases hd : ls.dropWhile isBlank with
    | nil =>
      rw [hd, List.append_nil] at hsplit
      have hlen := blankRun_blanks (ls.takeWhile isBlank) hbs [] (by simp)
      rw [List.append_nil, ← hsplit] at hlen
      rw [hlen]
      have := subBlank_skip (ls.flatMap endl) []
      rw [List.append_nil] at this
      rw [this, hsplit, hf1]
      rfl
    | cons l ls' =>
      rw [hd] at hsplit
      have hl : isBlank l = false := by
        have := List.head?_dropWhile_not isBlank ls
        rw [hd] at this
        simpa using this
      have hlm : l ∈ ls := by rw [hsplit]; simp
      have e : ls.flatMap endl = (ls.takeWhile isBlank).flatMap endl ++ (l ++ '\n' :: ls'.flatMap endl) := by
        conv_lhs => rw [hsplit]
        rw [List.flatMap_append, List.flatMap_cons]
        simp [endl]
      rw [e, blankRun_blanks _ hbs _ (takeWhile_no_nl hl (h l hlm) _), subBlank_skip, subBlank_line (h l hlm),
        ih ls'.length (by
          rw [← hn]
          conv_rhs => rw [hsplit]
          simp only [List.length_append, List.length_cons]; omega) ls'
          (fun x hx => h x (by rw [hsplit]; simp [hx])) rfl]
      conv_rhs => rw [hsplit]
      rw [List.filter_append, hf1, List.filter_cons]
      simp [hl, endl]

theorem delCR_nl (s : Str) : delCR (s ++ ['\n']) = delCR s ++ ['\n'] := by
  simp [delCR, List.filter_append]

/-- a card is printed as its first line and those of its other lines that are not blank -/
theorem printCard_lines (t : Str) :
    ∃ f r, lines (delCR (stripNL t)) = f :: r ∧
      printCard t = (f :: r.filter (fun l => !isBlank l)).flatMap endl := by
  cases hl : lines (delCR (stripNL t)) with
  | nil => exact absurd hl (lines_ne_nil _)
  | cons f r =>
    refine ⟨f, r, rfl, ?_⟩
    unfold printCard
    have hno := lines_no_nl (delCR (stripNL t))
    rw [hl] at hno
    rw [delCR_nl, ← join_lines, hl, List.flatMap_cons]
    show subBlank 0 ((f ++ ['\n']) ++ _) = _
    rw [List.append_assoc]
    show subBlank 0 (f ++ '\n' :: r.flatMap endl) = _
    rw [subBlank_line (hno f (by simp)), subBlank_lines r (fun l hl => hno l (List.mem_cons_of_mem _ hl))]
    simp [endl]

/-- stripping newlines drops only empty lines -/
theorem stripNL_shape (t : Str) : ∃ n m, t = List.replicate n '\n' ++ stripNL t ++ List.replicate m '\n' := by
  have key : ∀ s : Str, ∃ n, s = List.replicate n '\n' ++ s.dropWhile (fun c => c == '\n') := by
    intro s
    induction s with
    | nil => exact ⟨0, rfl⟩
    | cons c cs ih =>
      by_cases h : c = '\n'
      · subst h
        obtain ⟨n, hn⟩ := ih
        refine ⟨n + 1, ?_⟩
        rw [List.replicate_succ, List.cons_append, List.dropWhile_cons]
        simp only [beq_self_eq_true, if_true]
        rw [← hn]
      · refine ⟨0, ?_⟩
        rw [List.dropWhile_cons]
        simp [h]
  obtain ⟨n, hn⟩ := key t
  obtain ⟨m, hm⟩ := key (t.dropWhile (fun c => c == '\n')).reverse
  refine ⟨n, m, ?_⟩
  have := congrArg List.reverse hm
  rw [List.reverse_reverse, List.reverse_append, List.reverse_replicate] at this
  unfold stripNL
  rw [List.append_assoc, ← this]
  exact hn

theorem visible_stripNL (t : Str) : visible (stripNL t) = visible t := by
  obtain ⟨n, m, h⟩ := stripNL_shape t
  generalize stripNL t = s at h
  subst h
  have h1 : ∀ (n : Nat) (s : Str), visible (List.replicate n '\n' ++ s) = visible s := by
    intro n s
    induction n with
    | zero => rfl
    | succ n ih =>
      rw [List.replicate_succ, List.cons_append]
      show visible ('\n' :: (List.replicate n '\n' ++ s)) = _
      rw [← ih]
      simp [visible, delCR, lines, isBlank]
  have h2 : ∀ (m : Nat) (s : Str), visible (s ++ List.replicate m '\n') = visible s := by
    intro m s
    induction m with
    | zero => simp
    | succ m ih =>
      rw [List.replicate_succ', ← List.append_assoc]
      conv_rhs => rw [← ih]
      unfold visible
      rw [delCR_nl, lines_append]
      simp [lines, isBlank]
  rw [h2, h1]

/-- the first line of the stripped text, when the card's first line is visible -/
theorem head_visible {t : Str} (h : HeadOk t) : ∃ f r, lines (delCR (stripNL t)) = f :: r ∧ isBlank f = false := by
  obtain ⟨c, hc, hs⟩ := h
  have key : ∀ u : Str, (∃ c ∈ u.takeWhile (fun c => c != '\n'), isSpace c = false) →
      ∃ f r, lines (delCR u) = f :: r ∧ isBlank f = false := by
    intro u
    induction u with
    | nil => rintro ⟨c, hc, _⟩; cases hc
    | cons d ds ih =>
      rintro ⟨c, hc, hs⟩
      rw [List.takeWhile_cons] at hc
      by_cases hd : d = '\n'
      · subst hd; simp at hc
      · simp only [bne_iff_ne, ne_eq, hd, not_false_eq_true, if_true, List.mem_cons] at hc
        by_cases hr : d = '\r'
        · subst hr
          have : c ∈ ds.takeWhile (fun c => c != '\n') := by
            rcases hc with rfl | hc
            · exact absurd hs (by decide)
            · exact hc
          have := ih ⟨c, this, hs⟩
          simpa [delCR] using this
        · have e : delCR (d :: ds) = d :: delCR ds := by simp [delCR, hr]
          rw [e]
          simp only [lines, hd, if_false]
          cases hl : lines (delCR ds) with
          | nil => exact absurd hl (lines_ne_nil _)
          | cons x xs =>
            refine ⟨d :: x, xs, rfl, ?_⟩
            rcases hc with rfl | hc
            · simp [isBlank, hs]
            · obtain ⟨f, r, e1, e2⟩ := ih ⟨c, hc, hs⟩
              rw [hl] at e1
              obtain ⟨rfl, _⟩ := List.cons.inj e1
              simp only [isBlank, List.all_cons] at e2 ⊢
              rw [e2, Bool.and_false]
  refine key _ ⟨c, ?_, hs⟩
  obtain ⟨n, m, e⟩ := stripNL_shape t
  have hn : n = 0 := by
    rcases Nat.eq_zero_or_pos n with h | h
    · exact h
    · obtain ⟨k, rfl⟩ : ∃ k, n = k + 1 := ⟨n - 1, by omega⟩
      rw [e, List.replicate_succ, List.cons_append, List.cons_append, List.takeWhile_cons] at hc
      simp at hc
  subst hn
  rw [List.replicate_zero, List.nil_append] at e
  generalize stripNL t = s at e
  subst e
  clear key
  induction s with
  | nil =>
    cases m with
    | zero => exact hc
    | succ m => rw [List.nil_append, List.replicate_succ, List.takeWhile_cons] at hc; simp at hc
  | cons d ds ih =>
    rw [List.cons_append, List.takeWhile_cons] at hc
    rw [List.takeWhile_cons]
    split_ifs at hc ⊢ with hd
    · rcases List.mem_cons.1 hc with rfl | hc
      · simp
      · exact List.mem_cons_of_mem _ (ih hc)
    · exact hc

/-- **C108 (cards).** A card whose first line is visible is written as exactly its visible lines, in order and
unchanged but for carriage returns; in particular no blank line is written. -/
theorem printCard_visible {t : Str} (h : HeadOk t) : printCard t = (visible t).flatMap endl := by
  obtain ⟨f, r, e1, e2⟩ := printCard_lines t
  obtain ⟨f', r', e1', hb⟩ := head_visible h
  rw [e1] at e1'
  obtain ⟨rfl, rfl⟩ := List.cons.inj e1'
  rw [e2, ← visible_stripNL]
  unfold visible
  rw [e1, List.filter_cons]
  simp [hb]

/-! ### the blocks of the file -/

theorem blocksOf_ne_nil (ls : List Str) : blocksOf ls ≠ [] := by
  cases ls with
  | nil => simp [blocksOf]
  | cons l ls =>
    simp only [blocksOf]
    split_ifs
    · simp
    · cases blocksOf ls <;> simp

theorem blocksOf_visible {ls : List Str} (h : ∀ l ∈ ls, isBlank l = false) : blocksOf ls = [ls] := by
  induction ls with
  | nil => rfl
  | cons l ls ih =>
    simp only [blocksOf, h l (by simp), Bool.false_eq_true, if_false]
    rw [ih (fun x hx => h x (List.mem_cons_of_mem _ hx))]

theorem blocksOf_break {ls : List Str} (h : ∀ l ∈ ls, isBlank l = false) {b : Str} (hb : isBlank b = true)
    (rest : List Str) : blocksOf (ls ++ b :: rest) = ls :: blocksOf rest := by
  induction ls with
  | nil => simp [blocksOf, hb]
  | cons l ls ih =>
    rw [List.cons_append]
    simp only [blocksOf, h l (by simp), Bool.false_eq_true, if_false]
    rw [ih (fun x hx => h x (List.mem_cons_of_mem _ hx))]

/-- one blank line more is one block more -/
theorem blocksOf_length (ls : List Str) : (blocksOf ls).length = (ls.filter isBlank).length + 1 := by
  induction ls with
  | nil => rfl
  | cons l ls ih =>
    simp only [blocksOf, List.filter_cons]
    split_ifs with h
    · simp [ih]
    · cases hb : blocksOf ls with
      | nil => exact absurd hb (blocksOf_ne_nil ls)
      | cons b bs => rw [hb] at ih; simpa using ih

/-- the lines expected of a list of cards (specification) -/
def cardsLines (ts : List Str) : List Str := ts.flatMap (fun t => (visible t).map endl)

theorem visible_no_nl (t : Str) : ∀ l ∈ visible t, ∀ c ∈ l, c ≠ '\n' :=
  fun l hl => lines_no_nl _ l (List.mem_of_mem_filter hl)

theorem fileLines_cards {ts : List Str} (h : ∀ t ∈ ts, HeadOk t) (s : Str) :
    fileLines (printCards ts ++ s) = cardsLines ts ++ fileLines s := by
  induction ts with
  | nil => rfl
  | cons t ts ih =>
    simp only [printCards, cardsLines, List.flatMap_cons, List.append_assoc] at ih ⊢
    rw [printCard_visible (h t (by simp)), fileLines_join _ (visible_no_nl t), ih (fun x hx => h x (List.mem_cons_of_mem _ hx))]

theorem cardsLines_visible (ts : List Str) : ∀ l ∈ cardsLines ts, isBlank l = false := by
  intro l hl
  obtain ⟨t, _, hl⟩ := List.mem_flatMap.1 hl
  obtain ⟨x, hx, rfl⟩ := List.mem_map.1 hl
  rw [isBlank_endl]
  have := (List.mem_filter.1 hx).2
  simpa using this

/-- the header as it should be written: its lines, without carriage returns; a comment if there is none (specification) -/
def headerLines : Option (List Str) → List Str
  | none => ["C\n".toList]
  | some ls => ls.map delCR

/-- the materials text is made of visible lines (specification) -/
def MatsOk : Option Str → Prop
  | none => True
  | some m => ∀ l ∈ lines m, isBlank l = false

/-- the lines expected of the materials (specification) -/
def matLines : Option Str → List Str
  | none => []
  | some m => (lines m).map endl

/-- **C108.** The file written has exactly three blocks: the header and the cells, the surfaces, the data -
transformations, materials, other cards -, each with all visible lines of its cards in order, and nothing else. Partial: Proved for cards whose first line is visible (numjuggler's texts are taken as given) and header lines that are visible lines; a card that begins with a blank line adds a block: blank_first_line. -/
theorem write_blocks_partial (b : Blocks)
    (hh : ∀ ls, b.header = some ls → ∀ l ∈ ls, IsLine (delCR l) ∧ isBlank l = false)
    (hc : ∀ t ∈ b.cells ++ b.surfs ++ b.trans ++ b.other, HeadOk t) (hm : MatsOk b.mats) :
    blocksOf (fileLines (writeText b)) =
      [headerLines b.header ++ cardsLines b.cells, cardsLines b.surfs,
        cardsLines b.trans ++ matLines b.mats ++ cardsLines b.other] := by
  have h1 : fileLines (writeText b) = (headerLines b.header ++ cardsLines b.cells) ++ ['\n'] :: (cardsLines b.surfs ++
      ['\n'] :: (cardsLines b.trans ++ matLines b.mats ++ cardsLines b.other)) := by
    have hhd : ∀ s, fileLines (headerText b.header ++ s) = headerLines b.header ++ fileLines s := by
      intro s
      cases hb : b.header with
      | none =>
        show fileLines (['C'] ++ '\n' :: s) = _
        rw [fileLines_line _ _ (by decide)]; rfl
      | some ls =>
        have := fileLines_flatten (ls.map delCR) (by
          intro l hl
          obtain ⟨x, hx, rfl⟩ := List.mem_map.1 hl
          exact (hh ls hb x hx).1) s
        rw [headerText, List.flatMap_def, this]; rfl
    have hmat : ∀ s, fileLines (matText b.mats ++ s) = matLines b.mats ++ fileLines s := by
      intro s
      cases hb : b.mats with
      | none => rfl
      | some m =>
        rw [matText, ← join_lines, fileLines_join _ (lines_no_nl m)]; rfl
    have hnl : ∀ s, fileLines ('\n' :: s) = ['\n'] :: fileLines s := by intro s; simp [fileLines]
    unfold writeText
    rw [List.append_assoc, hhd, fileLines_cards (fun t ht => hc t (by simp [ht])), hnl,
      fileLines_cards (fun t ht => hc t (by simp [ht])), hnl, List.append_assoc (printCards b.trans),
      fileLines_cards (fun t ht => hc t (by simp [ht])), hmat]
    have := fileLines_cards (ts := b.other) (fun t ht => hc t (by simp [ht])) []
    rw [List.append_nil] at this
    rw [this]
    simp [fileLines]
  rw [h1, blocksOf_break, blocksOf_break (cardsLines_visible _) (by decide), blocksOf_visible]
  · intro l hl
    rcases List.mem_append.1 hl with hl | hl
    · rcases List.mem_append.1 hl with hl | hl
      · exact cardsLines_visible _ l hl
      · cases hb : b.mats with
        | none => rw [hb] at hl; cases hl
        | some m =>
          rw [hb] at hl hm
          obtain ⟨x, hx, rfl⟩ := List.mem_map.1 hl
          rw [isBlank_endl]; exact hm x hx
    · exact cardsLines_visible _ l hl
  · intro l hl
    rcases List.mem_append.1 hl with hl | hl
    · cases hb : b.header with
      | none => rw [hb] at hl; simp only [headerLines, List.mem_singleton] at hl; subst hl; decide
      | some ls =>
        rw [hb] at hl
        obtain ⟨x, hx, rfl⟩ := List.mem_map.1 hl
        have := (hh ls hb x hx).2
        by_contra hcon
        rw [Bool.not_eq_false] at hcon
        have hx' : isBlank x = true := by
          simp only [isBlank, List.all_eq_true, delCR] at hcon ⊢
          intro c hc
          by_cases hr : c = '\r'
          · subst hr; decide
          · exact hcon c (List.mem_filter.2 ⟨hc, by simpa using hr⟩)
        rw [hx'] at this; cases this
    · exact cardsLines_visible _ l hl
  · decide

/-- **C108 (false for a card that begins with a blank line).** Every card written with a blank first line adds a
block to the file. -/
theorem blank_first_line (t s : Str) (f : Str) (r : List Str) (h : lines (delCR (stripNL t)) = f :: r)
    (hf : isBlank f = true) :
    (blocksOf (fileLines (printCard t ++ s))).length = (blocksOf (fileLines s)).length + 1 := by
  obtain ⟨f', r', e1, e2⟩ := printCard_lines t
  rw [h] at e1
  obtain ⟨rfl, rfl⟩ := List.cons.inj e1
  have hno := lines_no_nl (delCR (stripNL t))
  rw [h] at hno
  rw [e2, fileLines_join, blocksOf_length, blocksOf_length, List.map_cons, List.cons_append, List.filter_cons,
    if_pos (by rw [isBlank_endl]; exact hf), List.filter_append]
  · have : ((r.filter (fun l => !isBlank l)).map endl).filter isBlank = [] := by
      rw [List.filter_eq_nil_iff]
      intro l hl
      obtain ⟨x, hx, rfl⟩ := List.mem_map.1 hl
      rw [isBlank_endl]
      have := (List.mem_filter.1 hx).2
      simpa using this
    rw [this]; simp
  · intro l hl
    rcases List.mem_cons.1 hl with rfl | hl
    · exact hno l (by simp)
    · exact hno l (by simp [List.mem_of_mem_filter hl])

/-- an empty card, or one that begins with a carriage return and a newline, is such a card -/
theorem blank_first_line_cases (t : Str) :
    lines (delCR (stripNL [])) = [[]] ∧ isBlank [] = true ∧
      (t.getLast? ≠ some '\n' → t ≠ [] → lines (delCR (stripNL ('\r' :: '\n' :: t))) = [] :: lines (delCR t)) := by
  refine ⟨rfl, rfl, ?_⟩
  intro hl hne
  have e : stripNL ('\r' :: '\n' :: t) = '\r' :: '\n' :: t := by
    unfold stripNL
    rw [List.dropWhile_cons]
    simp only [show ('\r' == '\n') = false by decide, Bool.false_eq_true, if_false]
    rcases List.eq_nil_or_concat t with rfl | ⟨t', x, rfl⟩
    · exact absurd rfl hne
    · have hx : x ≠ '\n' := by rintro rfl; simp at hl
      simp [hx]
  rw [e]
  have : delCR ('\r' :: '\n' :: t) = '\n' :: delCR t := by simp [delCR]
  rw [this]
  simp [lines]

/-! ### example -/

/-- `exBlocks` (example) -/
def exBlocks : Blocks :=
  { header := some ["title\n".toList]
    cells := ["1 0 -1\r\n  \n     imp:n=1\n\n".toList, "2 0 1 imp:n=0\n".toList]
    surfs := ["1 so 5\n".toList]
    trans := ["TR1 0 0 1\n".toList]
    mats := some "M1\n 1001.31c 1".toList
    other := ["SDEF\n".toList, "NPS 10".toList] }

/-- the hypotheses hold of a file with blank lines and carriage returns within its cards -/
example : (∀ ls, exBlocks.header = some ls → ∀ l ∈ ls, IsLine (delCR l) ∧ isBlank l = false) ∧
    (∀ t ∈ exBlocks.cells ++ exBlocks.surfs ++ exBlocks.trans ++ exBlocks.other, HeadOk t) ∧ MatsOk exBlocks.mats := by
  refine ⟨?_, ?_, ?_⟩
  · intro ls h l hl
    simp only [exBlocks, Option.some.injEq] at h
    subst h
    simp only [List.mem_singleton] at hl
    subst hl
    exact ⟨⟨"title".toList, by decide, by decide⟩, by decide⟩
  · unfold HeadOk; decide +kernel
  · show ∀ l ∈ lines "M1\n 1001.31c 1".toList, isBlank l = false
    decide +kernel

example : blocksOf (fileLines (writeText exBlocks)) =
    [["title\n".toList, "1 0 -1\n".toList, "     imp:n=1\n".toList, "2 0 1 imp:n=0\n".toList], ["1 so 5\n".toList],
      ["TR1 0 0 1\n".toList, "M1\n".toList, " 1001.31c 1\n".toList, "SDEF\n".toList, "NPS 10\n".toList]] := by
  decide +kernel

end F4Enix.Write
