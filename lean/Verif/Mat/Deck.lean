import Verif.Mat.TextRound
/-!
# Model of `MatCardsList.from_input` and of the writing of what it read

`src/f4enix/input/materials.py:1469-1552`. The cards of the data block are those of the parser (their lines); the numbers are read by `num`.
-/
namespace F4Enix.MDeck
open F4Enix F4Enix.Mat F4Enix.Write

/-- a material of the list with what `add_mx` was given: each time a list of cards (materials.py:1092-1096) -/
structure DMat where
  mat : TMat
  mx : List (List (List Str))
  deriving DecidableEq

/-- `PAT_MX.match` (constants.py:46): `[\s\t]*mx\d+`, any case -/
def isMx (l : Str) : Bool :=
  match l.dropWhile isSpace with
  | m :: x :: r => (m == 'm' || m == 'M') && (x == 'x' || x == 'X') && startsDigit r
  | _ => false

/-- does the first line match? (materials.py:1469-1536) -/
def first (p : Str → Bool) (card : List Str) : Bool :=
  match card with
  | [] => false
  | l :: _ => p l

/-- is it a material card? (materials.py:1469-1536) -/
def isMat (l : Str) : Bool := (matName l).isSome

/-- `materials[-1].add_mx(mx_cards)` (materials.py:1523, 1534) -/
def addMx (mats : List DMat) (mxs : List (List Str)) : Except PyErr (List DMat) :=
  match mats.getLast? with
  | none => .error .indexError
  | some d => .ok (mats.dropLast ++ [{ d with mx := d.mx ++ [mxs] }])

/-- the loop of `MatCardsList.from_input` (materials.py:1500-1534): the lines of the card before, `mx_cards`, `mx_found`, the materials -/
def deckLoop (num : Str → Option ℚ) : List (List Str) → List Str → List (List Str) → Bool → List DMat → Except PyErr (List DMat)
  | [], _, mxs, found, mats => if found then addMx mats mxs else .ok mats
  | card :: cards, prev, mxs, found, mats =>
    let new : Except PyErr (List DMat) :=
      if first isMat card then
        match matFromText num (if first isComm prev then prev ++ card else card) with
        | .error e => .error e
        | .ok m => .ok (mats ++ [⟨m, []⟩])
      else .ok mats
    match new with
    | .error e => .error e
    | .ok mats =>
      if first isMx card then deckLoop num cards card (mxs ++ [card]) true mats
      else if found then
        match addMx mats mxs with
        | .error e => .error e
        | .ok mats => deckLoop num cards card [] false mats
      else deckLoop num cards card mxs false mats

/-- `MatCardsList.from_input` (materials.py:1469-1536) -/
def fromDeck (num : Str → Option ℚ) (cards : List (List Str)) : Except PyErr (List DMat) := deckLoop num cards [[]] [] false []

/-- `Material.to_text` (materials.py:978-1016) of a material of the list: what is in `mx_cards` is a list and has no `lines` -/
def DMat.toText (fmt : ℚ → Str) (info : Zaid → Str) (d : DMat) : Except PyErr Str :=
  if d.mx = [] then .ok (d.mat.toText fmt info) else .error .attributeError

/-- `MatCardsList.to_text` (materials.py:1538-1552) -/
def deckText (fmt : ℚ → Str) (info : Zaid → Str) (ds : List DMat) : Except PyErr Str :=
  match mapE (DMat.toText fmt info) ds with
  | .error e => .error e
  | .ok ts => .ok (stripNL (ts.flatMap (fun t => '\n' :: t)))

/-! ## C173 -/

/-- each card with the one before it (materials.py:1469-1536) -/
def withPrev (prev : List Str) : List (List Str) → List (List Str × List Str)
  | [] => []
  | c :: cs => (prev, c) :: withPrev c cs

/-- the text of a material: its card, with the card before it if that is a comment (materials.py:1469-1536) -/
def textOf (p : List Str × List Str) : List Str := if first isComm p.1 then p.1 ++ p.2 else p.2

theorem addMx_mat {mats ds : List DMat} {mxs : List (List Str)} (h : addMx mats mxs = .ok ds) : ds.map DMat.mat = mats.map DMat.mat := by
  unfold addMx at h
  cases hl : mats.getLast? with
  | none => simp [hl] at h
  | some d =>
    simp only [hl, Except.ok.injEq] at h
    subst h
    obtain ⟨l, rfl⟩ := List.getLast?_eq_some_iff.1 hl
    simp

theorem mapE_append {α β : Type} {f : α → Except PyErr β} {l : List α} {a : α} {bs : List β} {b : β} (h1 : mapE f [a] = .ok [b]) (h : mapE f l = .ok bs) :
    mapE f (a :: l) = .ok (b :: bs) := by
  simp only [mapE] at h1 ⊢
  cases hf : f a with
  | error e => simp [hf] at h1
  | ok b' =>
    simp only [hf, Except.ok.injEq, List.cons.injEq, and_true] at h1
    rw [h]
    simp [h1]

theorem loop_materials (num : Str → Option ℚ) (cards : List (List Str)) (prev : List Str) (mxs : List (List Str)) (found : Bool) (mats ds : List DMat)
    (h : deckLoop num cards prev mxs found mats = .ok ds) :
    ∃ ms, ds.map DMat.mat = mats.map DMat.mat ++ ms ∧
      mapE (matFromText num) (((withPrev prev cards).filter (fun p => first isMat p.2)).map textOf) = .ok ms := by
  induction cards generalizing prev mxs found mats with
  | nil =>
    unfold deckLoop at h
    refine ⟨[], ?_, rfl⟩
    rw [List.append_nil]
    split_ifs at h with hf
    · exact addMx_mat h
    · cases h; rfl
  | cons card cards ih =>
    unfold deckLoop at h
    simp only at h
    have hcont : ∀ mats', (if first isMx card then deckLoop num cards card (mxs ++ [card]) true mats'
        else if found then
          match addMx mats' mxs with
          | .error e => .error e
          | .ok mats => deckLoop num cards card [] false mats
        else deckLoop num cards card mxs false mats') = .ok ds →
        ∃ ms, ds.map DMat.mat = mats'.map DMat.mat ++ ms ∧
          mapE (matFromText num) (((withPrev card cards).filter (fun p => first isMat p.2)).map textOf) = .ok ms := by
      intro mats' h
      split_ifs at h with h1 h2
      · exact ih _ _ _ _ h
      · cases ha : addMx mats' mxs with
        | error e => simp [ha] at h
        | ok m2 =>
          simp only [ha] at h
          obtain ⟨ms, e1, e2⟩ := ih _ _ _ _ h
          exact ⟨ms, by rw [e1, addMx_mat ha], e2⟩
      · exact ih _ _ _ _ h
    unfold withPrev
    by_cases hm : first isMat card = true
    · rw [if_pos hm] at h
      cases ht : matFromText num (if first isComm prev then prev ++ card else card) with
      | error e => rw [ht] at h; simp at h
      | ok m =>
        rw [ht] at h
        simp only at h
        obtain ⟨ms, e1, e2⟩ := hcont _ h
        refine ⟨m :: ms, by rw [e1]; simp, ?_⟩
        rw [List.filter_cons_of_pos (by simpa using hm), List.map_cons]
        apply mapE_append _ e2
        unfold textOf
        simp only [mapE, ht]
    · rw [if_neg hm] at h
      simp only at h
      obtain ⟨ms, e1, e2⟩ := hcont _ h
      refine ⟨ms, e1, ?_⟩
      rw [List.filter_cons_of_neg (by simpa using hm)]
      exact e2

/-- **C173.** The materials of `MatCardsList.from_input` are those of the material cards, in their order, each read from its lines, with the lines of the
card before it if that is a comment. -/
theorem deck_materials (num : Str → Option ℚ) (cards : List (List Str)) (ds : List DMat) (h : fromDeck num cards = .ok ds) :
    mapE (matFromText num) (((withPrev [[]] cards).filter (fun p => first isMat p.2)).map textOf) = .ok (ds.map DMat.mat) := by
  obtain ⟨ms, e1, e2⟩ := loop_materials num cards [[]] [] false [] ds h
  rw [e2, e1]
  rfl

/-! ### MX cards -/

/-- a card that is neither of a material nor an MX card (specification) -/
def Other (c : List Str) : Prop := first isMat c = false ∧ first isMx c = false

theorem mat_not_mx {c : List Str} (h : first isMat c = true) : first isMx c = false := by
  cases c with
  | nil => rfl
  | cons l ls =>
    unfold first at h ⊢
    simp only at h ⊢
    unfold isMat matName at h
    unfold isMx
    cases hl : l.dropWhile isSpace with
    | nil => rfl
    | cons m r =>
      simp only [hl] at h
      cases r with
      | nil => rfl
      | cons x r =>
        simp only
        split_ifs at h with hd
        · simp only [Bool.and_eq_true] at hd
          have hx := hd.2
          unfold startsDigit at hx
          have : (x == 'x' || x == 'X') = false := by
            simp only [Bool.or_eq_false_iff, beq_eq_false_iff_ne]
            constructor <;> · rintro rfl; exact absurd (show isDigit _ = true from hx) (by decide)
          rw [this]
          simp
        · simp at h

theorem mx_not_mat {c : List Str} (h : first isMx c = true) : first isMat c = false := by
  cases hm : first isMat c with
  | false => rfl
  | true => rw [mat_not_mx hm] at h; cases h

/-- a card that is something else ends a run of MX cards -/
theorem loop_other {num : Str → Option ℚ} {c : List Str} (hc : Other c) (cards : List (List Str)) (prev : List Str) (mxs : List (List Str)) (found : Bool)
    (mats : List DMat) : deckLoop num (c :: cards) prev mxs found mats =
      if found then (match addMx mats mxs with | .error e => .error e | .ok mats => deckLoop num cards c [] false mats)
      else deckLoop num cards c mxs false mats := by
  conv_lhs => unfold deckLoop
  simp only [hc.1, hc.2, Bool.false_eq_true, if_false]

theorem loop_others {num : Str → Option ℚ} (cs : List (List Str)) (hc : ∀ c ∈ cs, Other c) (cards : List (List Str)) (prev : List Str)
    (mats : List DMat) : ∃ prev', deckLoop num (cs ++ cards) prev [] false mats = deckLoop num cards prev' [] false mats := by
  induction cs generalizing prev with
  | nil => exact ⟨prev, rfl⟩
  | cons c cs ih =>
    rw [List.cons_append, loop_other (hc c (by simp))]
    simp only [Bool.false_eq_true, if_false]
    exact ih (fun c h => hc c (List.mem_cons_of_mem _ h)) c

theorem loop_mx {num : Str → Option ℚ} (xs : List (List Str)) (hx : ∀ c ∈ xs, first isMx c = true) (cards : List (List Str)) (prev : List Str)
    (mxs : List (List Str)) (mats : List DMat) :
    ∃ prev', deckLoop num (xs ++ cards) prev mxs (decide (mxs ≠ [])) mats = deckLoop num cards prev' (mxs ++ xs) (decide (mxs ++ xs ≠ [])) mats := by
  induction xs generalizing prev mxs with
  | nil => exact ⟨prev, by simp⟩
  | cons c xs ih =>
    have h1 := hx c (by simp)
    rw [List.cons_append]
    have : deckLoop num (c :: (xs ++ cards)) prev mxs (decide (mxs ≠ [])) mats = deckLoop num (xs ++ cards) c (mxs ++ [c]) (decide (mxs ++ [c] ≠ [])) mats := by
      conv_lhs => unfold deckLoop
      simp only [mx_not_mat h1, h1, Bool.false_eq_true, if_false, if_true]
      rw [show decide (mxs ++ [c] ≠ []) = true by simp]
    rw [this]
    obtain ⟨p, hp⟩ := ih (fun c h => hx c (List.mem_cons_of_mem _ h)) c (mxs ++ [c])
    rw [hp, List.append_assoc]
    exact ⟨p, rfl⟩

/-- a part of a data block: other cards, a material card, MX cards (specification) -/
structure Part where
  pre : List (List Str)
  mat : List Str
  mx : List (List Str)

/-- the cards of a part (specification) -/
def Part.cards (g : Part) : List (List Str) := g.pre ++ g.mat :: g.mx

/-- what its cards are (specification) -/
def Part.Ok (g : Part) : Prop := (∀ c ∈ g.pre, Other c) ∧ first isMat g.mat = true ∧ ∀ c ∈ g.mx, first isMx c = true

/-- what a material should be given (specification) -/
def ownMx (g : Part) : List (List (List Str)) := if g.mx = [] then [] else [g.mx]

/-- after MX cards another card comes before the next material (specification) -/
def Separated : List Part → Prop
  | g :: g' :: gs => (g.mx ≠ [] → g'.pre ≠ []) ∧ Separated (g' :: gs)
  | _ => True

theorem addMx_last (mats : List DMat) (d : DMat) (mxs : List (List Str)) : addMx (mats ++ [d]) mxs = .ok (mats ++ [{ d with mx := d.mx ++ [mxs] }]) := by
  unfold addMx
  simp

theorem loop_parts {num : Str → Option ℚ} (gs : List Part) (hg : ∀ g ∈ gs, g.Ok) (tail : List (List Str)) (ht : ∀ c ∈ tail, Other c)
    (hs : Separated gs) (prev : List Str) (mats : List DMat) (ds : List DMat) (pend : List (List Str)) (hp : pend ≠ [] → mats ≠ [] ∧ ∀ g ∈ gs.head?, g.pre ≠ [])
    (h : deckLoop num (gs.flatMap Part.cards ++ tail) prev pend (decide (pend ≠ [])) mats = .ok ds) :
    ∃ mats', (if pend = [] then .ok mats else addMx mats pend) = .ok mats' ∧ ds.map DMat.mx = mats'.map DMat.mx ++ gs.map ownMx := by
  have hflush : pend ≠ [] → ∃ mats', addMx mats pend = .ok mats' := by
    intro h
    obtain ⟨hne, -⟩ := hp h
    rw [← List.dropLast_append_getLast hne, addMx_last]
    exact ⟨_, rfl⟩
  induction gs generalizing prev mats pend with
  | nil =>
    rw [List.flatMap_nil, List.nil_append] at h
    by_cases hpe : pend = []
    · subst hpe
      simp only [ne_eq, not_true_eq_false, decide_false] at h
      obtain ⟨p', e⟩ := loop_others (num := num) tail ht [] prev mats
      rw [List.append_nil] at e
      rw [e] at h
      unfold deckLoop at h
      cases h
      exact ⟨ds, by simp, by simp⟩
    · obtain ⟨mats', hm⟩ := hflush hpe
      refine ⟨mats', by rw [if_neg hpe, hm], ?_⟩
      rw [show decide (pend ≠ []) = true by simp [hpe]] at h
      cases tail with
      | nil =>
        unfold deckLoop at h
        rw [if_pos rfl, hm] at h
        cases h
        simp
      | cons c cs =>
        rw [loop_other (ht c (by simp)), if_pos rfl, hm] at h
        simp only at h
        obtain ⟨p', e⟩ := loop_others (num := num) cs (fun c hc => ht c (List.mem_cons_of_mem _ hc)) [] c mats'
        rw [List.append_nil] at e
        rw [e] at h
        unfold deckLoop at h
        cases h
        simp
  | cons g gs ih =>
    obtain ⟨hpre, hmat, hmx⟩ := hg g (by simp)
    -- after the other cards
    have key : ∃ mats' p, (if pend = [] then .ok mats else addMx mats pend) = .ok mats' ∧
        deckLoop num (g.mat :: (g.mx ++ (gs.flatMap Part.cards ++ tail))) p [] false mats' = .ok ds := by
      rw [List.flatMap_cons] at h
      unfold Part.cards at h
      rw [List.append_assoc, List.append_assoc, List.cons_append] at h
      by_cases hpe : pend = []
      · subst hpe
        simp only [ne_eq, not_true_eq_false, decide_false] at h
        obtain ⟨p', e⟩ := loop_others (num := num) g.pre hpre (g.mat :: (g.mx ++ (gs.flatMap Part.cards ++ tail))) prev mats
        unfold Part.cards at e
        rw [e] at h
        exact ⟨mats, p', by simp, h⟩
      · obtain ⟨mats', hm⟩ := hflush hpe
        have hne := (hp hpe).2 g (by simp)
        rw [show decide (pend ≠ []) = true by simp [hpe]] at h
        cases hgp : g.pre with
        | nil => exact absurd hgp hne
        | cons c cs =>
          rw [hgp, List.cons_append, loop_other (hpre c (by rw [hgp]; simp)), if_pos rfl, hm] at h
          simp only at h
          obtain ⟨p', e⟩ := loop_others (num := num) cs (fun c hc => hpre c (by rw [hgp]; exact List.mem_cons_of_mem _ hc))
            (g.mat :: (g.mx ++ (gs.flatMap Part.cards ++ tail))) c mats'
          unfold Part.cards at e
          rw [e] at h
          exact ⟨mats', p', by rw [if_neg hpe, hm], h⟩
    obtain ⟨mats', p, hm', h'⟩ := key
    refine ⟨mats', hm', ?_⟩
    have hstep : ∃ d : DMat, d.mx = [] ∧ deckLoop num (g.mx ++ (gs.flatMap Part.cards ++ tail)) g.mat [] false (mats' ++ [d]) = .ok ds := by
      unfold deckLoop at h'
      simp only [hmat, mat_not_mx hmat, Bool.false_eq_true, if_false, if_true] at h'
      cases hread : matFromText num (if first isComm p = true then p ++ g.mat else g.mat) with
      | error e => rw [hread] at h'; simp at h'
      | ok m =>
        rw [hread] at h'
        simp only at h'
        exact ⟨⟨m, []⟩, rfl, h'⟩
    obtain ⟨d, hd, h2⟩ := hstep
    obtain ⟨p2, e⟩ := loop_mx (num := num) g.mx hmx (gs.flatMap Part.cards ++ tail) g.mat [] (mats' ++ [d])
    simp only [ne_eq, not_true_eq_false, decide_false, List.nil_append] at e
    rw [e] at h2
    have hsep : Separated gs := by
      cases gs with
      | nil => exact trivial
      | cons g' gs => exact hs.2
    have hp2 : g.mx ≠ [] → (mats' ++ [d]) ≠ [] ∧ ∀ g' ∈ gs.head?, g'.pre ≠ [] := by
      intro hne
      refine ⟨by simp, ?_⟩
      intro g' hg'
      cases gs with
      | nil => simp at hg'
      | cons g'' gs =>
        simp only [List.head?_cons, Option.mem_def, Option.some.injEq] at hg'
        subst hg'
        exact hs.1 hne
    obtain ⟨mats2, hm2, e2⟩ := ih (fun g hgm => hg g (List.mem_cons_of_mem _ hgm)) hsep p2 (mats' ++ [d]) g.mx hp2 h2 (by
      intro _
      exact ⟨_, addMx_last mats' d g.mx⟩)
    rw [e2]
    by_cases hx : g.mx = []
    · rw [if_pos hx] at hm2
      simp only [Except.ok.injEq] at hm2
      rw [← hm2]
      simp [ownMx, hx, hd]
    · rw [if_neg hx, addMx_last] at hm2
      simp only [Except.ok.injEq] at hm2
      rw [← hm2]
      simp [ownMx, hx, hd]

/-- **C173.** If after MX cards another card comes before the next material, every material is given its own MX cards. -/
theorem deck_mx_partial (num : Str → Option ℚ) (gs : List Part) (hg : ∀ g ∈ gs, g.Ok) (tail : List (List Str)) (ht : ∀ c ∈ tail, Other c)
    (hs : Separated gs) {ds : List DMat} (h : fromDeck num (gs.flatMap Part.cards ++ tail) = .ok ds) : ds.map DMat.mx = gs.map ownMx := by
  obtain ⟨mats', e1, e2⟩ := loop_parts gs hg tail ht hs [[]] [] ds [] (by simp) h
  simp only [if_true, Except.ok.injEq] at e1
  subst e1
  simpa using e2

/-- **C173.** What goes wrong: MX cards that another material card follows at once are given to that other material. -/
theorem deck_mx_next (num : Str → Option ℚ) (pre : List (List Str)) (m1 : List Str) (xs : List (List Str)) (m2 : List Str) (tail : List (List Str))
    (hpre : ∀ c ∈ pre, Other c) (h1 : first isMat m1 = true) (hne : xs ≠ []) (hx : ∀ c ∈ xs, first isMx c = true) (h2 : first isMat m2 = true)
    (ht : ∀ c ∈ tail, Other c) {ds : List DMat} (h : fromDeck num (pre ++ m1 :: (xs ++ m2 :: tail)) = .ok ds) :
    ds.map DMat.mx = [[], [xs]] := by
  unfold fromDeck at h
  obtain ⟨p, e⟩ := loop_others (num := num) pre hpre (m1 :: (xs ++ m2 :: tail)) [[]] []
  rw [e] at h
  unfold deckLoop at h
  simp only [h1, mat_not_mx h1, Bool.false_eq_true, if_false, if_true] at h
  cases hr : matFromText num (if first isComm p = true then p ++ m1 else m1) with
  | error e => rw [hr] at h; simp at h
  | ok t1 =>
    rw [hr] at h
    simp only [List.nil_append] at h
    obtain ⟨p2, e2⟩ := loop_mx (num := num) xs hx (m2 :: tail) m1 [] [⟨t1, []⟩]
    simp only [ne_eq, not_true_eq_false, decide_false, List.nil_append] at e2
    rw [e2] at h
    rw [show decide (¬ xs = []) = true by simp [hne]] at h
    unfold deckLoop at h
    simp only [h2, mat_not_mx h2, Bool.false_eq_true, if_false, if_true] at h
    cases hr2 : matFromText num (if first isComm p2 = true then p2 ++ m2 else m2) with
    | error e => rw [hr2] at h; simp at h
    | ok t2 =>
      rw [hr2] at h
      simp only at h
      rw [addMx_last] at h
      simp only at h
      obtain ⟨p3, e3⟩ := loop_others (num := num) tail ht [] m2 ([⟨t1, []⟩] ++ [⟨t2, [] ++ [xs]⟩])
      rw [List.append_nil] at e3
      rw [e3] at h
      unfold deckLoop at h
      simp only [Bool.false_eq_true, if_false, Except.ok.injEq] at h
      subst h
      rfl

/-- **C173.** MX cards before the first material make the reading fail. -/
theorem deck_mx_first (num : Str → Option ℚ) (pre xs : List (List Str)) (tail : List (List Str)) (hpre : ∀ c ∈ pre, Other c) (hne : xs ≠ [])
    (hx : ∀ c ∈ xs, first isMx c = true) (ht : ∀ c ∈ tail.head?, Other c) : fromDeck num (pre ++ (xs ++ tail)) = .error .indexError := by
  unfold fromDeck
  obtain ⟨p, e⟩ := loop_others (num := num) pre hpre (xs ++ tail) [[]] []
  rw [e]
  obtain ⟨p2, e2⟩ := loop_mx (num := num) xs hx tail p [] []
  simp only [ne_eq, not_true_eq_false, decide_false, List.nil_append] at e2
  rw [e2, show decide (¬ xs = []) = true by simp [hne]]
  cases tail with
  | nil => rfl
  | cons c cs =>
    rw [loop_other (ht c (by simp)), if_pos rfl]
    rfl

/-- **C173 (which cards).** A line begins an MX card if after blanks come the letters `mx`, in any case, and a digit; a material card if after blanks
come `m`, in any case, and a digit; a comment if it begins with a `c`, in any case, and a blank. -/
theorem card_kinds (l : Str) :
    (isMx l = true ↔ ∃ (b : Str) (m x d : Char) (r : Str), l = b ++ m :: x :: d :: r ∧ (∀ c ∈ b, isSpace c = true) ∧ (m = 'm' ∨ m = 'M') ∧ (x = 'x' ∨ x = 'X') ∧
      isDigit d = true) ∧
    (isMat l = true ↔ ∃ (b : Str) (m d : Char) (r : Str), l = b ++ m :: d :: r ∧ (∀ c ∈ b, isSpace c = true) ∧ (m = 'm' ∨ m = 'M') ∧ isDigit d = true) ∧
    (isComm l = true ↔ ∃ (c d : Char) (r : Str), l = c :: d :: r ∧ (c = 'c' ∨ c = 'C') ∧ isSpace d = true) := by
  have drop : ∀ (b : Str) (m : Char) (r : Str), (∀ c ∈ b, isSpace c = true) → (m = 'm' ∨ m = 'M') → (b ++ m :: r).dropWhile isSpace = m :: r := by
    intro b m r hb hm
    rw [List.dropWhile_append_of_pos hb, List.dropWhile_cons_of_neg]
    rcases hm with rfl | rfl <;> decide +kernel
  have split : l = l.takeWhile isSpace ++ l.dropWhile isSpace := (List.takeWhile_append_dropWhile).symm
  have blank : ∀ c ∈ l.takeWhile isSpace, isSpace c = true := fun c hc => List.mem_takeWhile_imp hc
  refine ⟨⟨fun h => ?_, ?_⟩, ⟨fun h => ?_, ?_⟩, ⟨fun h => ?_, ?_⟩⟩
  · unfold isMx at h
    match hd : l.dropWhile isSpace, h with
    | [], h => simp at h
    | [a], h => simp at h
    | m :: x :: [], h => simp [startsDigit] at h
    | m :: x :: d :: r, h =>
      simp only [startsDigit, Bool.and_eq_true, Bool.or_eq_true, beq_iff_eq] at h
      refine ⟨l.takeWhile isSpace, m, x, d, r, ?_, blank, h.1.1, h.1.2, h.2⟩
      rw [← hd]; exact split
  · rintro ⟨b, m, x, d, r, rfl, hb, hm, hx, hd⟩
    unfold isMx
    rw [drop b m _ hb hm]
    simp only [startsDigit, Bool.and_eq_true, Bool.or_eq_true, beq_iff_eq]
    exact ⟨⟨hm, hx⟩, hd⟩
  · unfold isMat matName at h
    match hd : l.dropWhile isSpace, h with
    | [], h => simp at h
    | m :: [], h => simp [startsDigit] at h
    | m :: d :: r, h =>
      by_cases h' : ((m == 'm' || m == 'M') && isDigit d) = true
      · simp only [Bool.and_eq_true, Bool.or_eq_true, beq_iff_eq] at h'
        refine ⟨l.takeWhile isSpace, m, d, r, ?_, blank, h'.1, h'.2⟩
        rw [← hd]; exact split
      · simp [startsDigit, h'] at h
  · rintro ⟨b, m, d, r, rfl, hb, hm, hd⟩
    unfold isMat matName
    rw [drop b m _ hb hm]
    have h' : ((m == 'm' || m == 'M') && isDigit d) = true := by
      simp only [Bool.and_eq_true, Bool.or_eq_true, beq_iff_eq]; exact ⟨hm, hd⟩
    simp only [startsDigit, h', if_true, Option.isSome_some]
  · match l, h with
    | [], h => cases h
    | [c], h => cases h
    | c :: d :: r, h =>
      simp only [isComm, Bool.and_eq_true, Bool.or_eq_true, beq_iff_eq] at h
      exact ⟨c, d, r, rfl, by tauto, h.2⟩
  · rintro ⟨c, d, r, rfl, hc, hd⟩
    simp only [isComm, Bool.and_eq_true, Bool.or_eq_true, beq_iff_eq]
    exact ⟨by tauto, hd⟩

/-- **C173.** A list with a material that was given MX cards cannot be written. -/
theorem deck_not_written (fmt : ℚ → Str) (info : Zaid → Str) (ds : List DMat) :
    deckText fmt info ds = (if ∃ d ∈ ds, d.mx ≠ [] then .error .attributeError else .ok (matsText fmt info (ds.map DMat.mat))) := by
  have key : mapE (DMat.toText fmt info) ds =
      (if ∃ d ∈ ds, d.mx ≠ [] then .error .attributeError else .ok (ds.map (fun d => d.mat.toText fmt info))) := by
    induction ds with
    | nil => rfl
    | cons d ds ih =>
      unfold mapE
      rw [ih]
      unfold DMat.toText
      by_cases hd : d.mx = []
      · rw [if_pos hd]
        by_cases hx : ∃ d ∈ ds, d.mx ≠ []
        · rw [if_pos hx, if_pos (by obtain ⟨d', h1, h2⟩ := hx; exact ⟨d', List.mem_cons_of_mem _ h1, h2⟩)]
        · rw [if_neg hx, if_neg]
          · rfl
          · rintro ⟨d', h1, h2⟩
            rcases List.mem_cons.1 h1 with rfl | h1
            · exact h2 hd
            · exact hx ⟨d', h1, h2⟩
      · have : ∃ x ∈ d :: ds, x.mx ≠ [] := ⟨d, List.mem_cons_self, hd⟩
        rw [if_neg hd, if_pos this]
  unfold deckText
  rw [key]
  by_cases hx : ∃ d ∈ ds, d.mx ≠ []
  · simp only [if_pos hx]
  · simp only [if_neg hx]
    unfold matsText
    rw [List.flatMap_map, List.flatMap_map]

/-! ### examples -/

/-- two materials, the first one with MX cards that a comment follows (example) -/
def exDeck : List (List Str) := ["M1 1001 2".toList :: ["     8016 1".toList], ["MX1:h 1002 j".toList], ["mx1:p 0 8016".toList], ["C second".toList], ["m2 26056 1".toList], ["mode n".toList]]

example : exDeck = [⟨[], ["M1 1001 2".toList, "     8016 1".toList], [["MX1:h 1002 j".toList], ["mx1:p 0 8016".toList]]⟩,
    (⟨[["C second".toList]], ["m2 26056 1".toList], []⟩ : Part)].flatMap Part.cards ++ [["mode n".toList]] := rfl

example : Separated [⟨[], ["M1 1001 2".toList, "     8016 1".toList], [["MX1:h 1002 j".toList], ["mx1:p 0 8016".toList]]⟩,
    (⟨[["C second".toList]], ["m2 26056 1".toList], []⟩ : Part)] := ⟨fun _ => by simp, trivial⟩

example : (fromDeck exNum exDeck).map (fun ds => ds.map (fun d => (d.mat.name, d.mx))) =
    .ok [("M1".toList, [[["MX1:h 1002 j".toList], ["mx1:p 0 8016".toList]]]), ("m2".toList, [])] := by
  decide +kernel

example : (fromDeck exNum exDeck).map (fun ds => ds.map (fun d => d.mat.subs.map (fun s => s.zaids.map Zaid.name))) =
    .ok [[["1001".toList, "8016".toList]], [["26056".toList]]] := by
  decide +kernel

/-- without the comment the MX cards of the first material are given to the second one -/
example : (fromDeck exNum (exDeck.eraseIdx 3)).map (fun ds => ds.map (fun d => (d.mat.name, d.mx))) =
    .ok [("M1".toList, []), ("m2".toList, [[["MX1:h 1002 j".toList], ["mx1:p 0 8016".toList]]])] := by
  decide +kernel

end F4Enix.MDeck
