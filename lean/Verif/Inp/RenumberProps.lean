import Verif.Inp.MergeProps
/-!
# Renumbering keeps the reference structure (C16)
-/
namespace F4Enix.Inp
open F4Enix

/-! ### text of numbers -/

theorem intStr_chars (n : ℤ) : ∀ c ∈ intStr n, isDigit c = true ∨ c = '-' := by
  intro c hc
  cases n with
  | ofNat n => exact Or.inl (natStr_all_digit n c hc)
  | negSucc n =>
    rcases List.mem_cons.mp hc with h | h
    · exact Or.inr h
    · exact Or.inl (natStr_all_digit _ c h)

theorem upperC_digit {c : Char} (h : isDigit c = true ∨ c = '-') : upperC c = c := by
  unfold upperC
  rw [if_neg]
  rintro ⟨h1, _⟩
  rcases h with h | h
  · simp [isDigit] at h; omega
  · rw [h] at h1; revert h1; decide

theorem upper_intStr (n : ℤ) : upper (intStr n) = intStr n := by
  unfold upper
  conv_rhs => rw [← List.map_id (intStr n)]
  exact List.map_congr_left (fun c hc => upperC_digit (intStr_chars n c hc))

theorem star_not_mem_intStr (n : ℤ) : '*' ∉ intStr n := by
  intro h
  rcases intStr_chars n _ h with h | h <;> revert h <;> decide

theorem plus_not_mem_intStr (n : ℤ) : '+' ∉ intStr n := by
  intro h
  rcases intStr_chars n _ h with h | h <;> revert h <;> decide

theorem parseInt_plus {n : ℤ} (h : 0 ≤ n) : parseInt ('+' :: intStr n) = some n := by
  obtain ⟨k, rfl⟩ := Int.eq_ofNat_of_zero_le h
  have hs : strip ('+' :: natStr k) = '+' :: natStr k :=
    strip_word ⟨by simp, by
      intro c hc
      rcases List.mem_cons.mp hc with h | h
      · rw [h]; decide
      · exact isSpace_of_isDigit (natStr_all_digit k c h)⟩
  have hi : intStr (k : ℤ) = natStr k := rfl
  unfold parseInt
  rw [hi, hs]
  simp only
  rw [if_neg (by decide), if_true, if_pos]
  · rw [digitsVal_natStr]
  · exact ⟨natStr_ne_nil k, List.all_eq_true.mpr (natStr_all_digit k)⟩

/-- the marks before the number of a surface: none, reflecting, white (specification) -/
def Mark (p : Str) : Prop := p = [] ∨ p = ['*'] ∨ p = ['+']

theorem mark_inj {p q : Str} (hp : Mark p) (hq : Mark q) {a b : ℤ}
    (h : p ++ intStr a = q ++ intStr b) : p = q ∧ a = b := by
  have s1 := star_not_mem_intStr
  have s2 := plus_not_mem_intStr
  rcases hp with rfl | rfl | rfl <;> rcases hq with rfl | rfl | rfl
  · exact ⟨rfl, intStr_inj h⟩
  · exact absurd (show '*' ∈ intStr a by rw [List.nil_append] at h; rw [h]; simp) (s1 a)
  · exact absurd (show '+' ∈ intStr a by rw [List.nil_append] at h; rw [h]; simp) (s2 a)
  · exact absurd (show '*' ∈ intStr b by rw [List.nil_append] at h; rw [← h]; simp) (s1 b)
  · exact ⟨rfl, intStr_inj (by simpa using h)⟩
  · exfalso; simp at h
  · exact absurd (show '+' ∈ intStr b by rw [List.nil_append] at h; rw [← h]; simp) (s2 b)
  · exfalso; simp at h
  · exact ⟨rfl, intStr_inj (by simpa using h)⟩

theorem parse_mark {p : Str} (hp : Mark p) {n : ℤ} (hn : 0 < n) :
    parseInt (keyNum (p ++ intStr n)) = some n := by
  rcases hp with rfl | rfl | rfl
  · simp [keyNum, star_not_mem_intStr, parseInt_intStr]
  · simp [keyNum, parseInt_intStr]
  · have : '*' ∉ ['+'] ++ intStr n := by simp [star_not_mem_intStr]
    unfold keyNum
    rw [if_neg this]
    exact parseInt_plus (le_of_lt hn)

/-! ### dictionaries of numbered cards -/

/-- A dictionary of cells or surfaces as F4Enix reads it: each card has a positive number, printed in
its first word after one of the marks allowed, and its key is that word. (specification) -/
structure Numbered (kind : Kind) (marks : Str → Prop) (d : Dict Str Card) : Prop where
  wf : d.WF
  pos : ∀ kc ∈ d, 0 < kc.2.name
  key : ∀ kc ∈ d, kc.1 = kc.2.pre ++ intStr kc.2.name
  mark : ∀ kc ∈ d, marks kc.2.pre
  plain : ∀ kc ∈ d, kc.2.post = [] ∧ kc.2.numbered = true
  own : ∀ kc ∈ d, ∃ rest, kc.2.values = (kc.2.name, kind) :: rest

/-- the card after renumbering, as the user expects it: every number of each kind shifted by the offset
of that kind (zero kept), nothing else changed (specification) -/
def moved (kind : Kind) (o : Offsets) (c : Card) : Card :=
  { c with
    name := shift (o.of kind) c.name
    values := c.values.map (fun v => (shift (o.of v.2) v.1, v.2)) }

theorem shift_inj {off : Option ℤ} {a b : ℤ} (ha : a ≠ 0) (hb : b ≠ 0) (h : shift off a = shift off b) :
    a = b := by
  cases off with
  | none => exact h
  | some o => simp only [shift, if_neg ha, if_neg hb] at h; omega

theorem foldl_set_distinct {ν : Type} (l : List (Str × ν)) (acc : Dict Str ν)
    (h : (acc.keys ++ l.map Prod.fst).Nodup) :
    l.foldl (fun acc kv => acc.set kv.1 kv.2) acc = acc ++ l := by
  induction l generalizing acc with
  | nil => simp
  | cons kv r ih =>
    have hk : kv.1 ∉ acc.keys := by
      rw [List.nodup_append] at h
      intro hm
      exact h.2.2 _ hm _ (by simp) rfl
    simp only [List.foldl_cons]
    rw [set_absent _ _ _ hk, ih]
    · simp
    · rw [keys_append]
      simpa [Dict.keys] using h

theorem rekey_distinct (d : Dict Str Card) (h : (d.map (fun kc => cardKey kc.2)).Nodup) :
    rekey d = d.map (fun kc => (cardKey kc.2, kc.2)) := by
  have := foldl_set_distinct (d.map (fun kc => (cardKey kc.2, kc.2))) [] (by
    simpa [Dict.keys, List.map_map, Function.comp_def] using h)
  rw [List.foldl_map] at this
  simpa [rekey] using this

theorem setCards_map (kind : Kind) (numOf : Str → Str) (d : Dict Str Card) (f : Card → Card)
    (h : ∀ kc ∈ d, fixCard kind (numOf kc.1) kc.2 = .ok (f kc.2)) :
    setCards kind numOf d = .ok (d.map (fun kc => (kc.1, f kc.2))) := by
  induction d with
  | nil => rfl
  | cons kc r ih =>
    obtain ⟨k, c⟩ := kc
    unfold setCards
    rw [h (k, c) (by simp)]
    simp only [ih (fun x hx => h x (List.mem_cons_of_mem _ hx)), List.map_cons]

theorem cardKey_moved {kind : Kind} {marks : Str → Prop} (hm : ∀ p, marks p → Mark p) {o : Offsets}
    {d : Dict Str Card} (hd : Numbered kind marks d) (kc : Str × Card) (h : kc ∈ d) :
    cardKey (applyMap o kc.2) = kc.2.pre ++ intStr (shift (o.of kind) kc.2.name) := by
  obtain ⟨rest, hr⟩ := hd.own kc h
  obtain ⟨hp, hn⟩ := hd.plain kc h
  have hpre : upper kc.2.pre = kc.2.pre := by
    rcases hm _ (hd.mark kc h) with e | e | e <;> rw [e] <;> decide
  unfold cardKey applyMap
  rw [if_pos hn]
  simp only [hr, List.map_cons, hp, List.append_nil]
  unfold upper at *
  rw [List.map_append, hpre]
  have := upper_intStr (shift (o.of kind) kc.2.name)
  unfold upper at this
  rw [this]

/-- what key updates do to a dictionary of numbered cards -/
theorem rekeyed {kind : Kind} {marks : Str → Prop} (hm : ∀ p, marks p → Mark p) {o : Offsets}
    {d : Dict Str Card} (hd : Numbered kind marks d)
    (hpos : ∀ kc ∈ d, 0 < shift (o.of kind) kc.2.name) (numOf : Str → Str)
    (hnum : ∀ p n, marks p → 0 < n → parseInt (numOf (p ++ intStr n)) = some n) :
    setCards kind numOf (rekey (d.map (fun kc => (kc.1, applyMap o kc.2)))) =
      .ok (d.map (fun kc => (kc.2.pre ++ intStr (shift (o.of kind) kc.2.name), moved kind o kc.2))) := by
  have e1 : rekey (d.map (fun kc => (kc.1, applyMap o kc.2))) =
      d.map (fun kc => (kc.2.pre ++ intStr (shift (o.of kind) kc.2.name), applyMap o kc.2)) := by
    rw [rekey_distinct]
    · rw [List.map_map]
      exact List.map_congr_left (fun kc h => by
        simp only [Function.comp]; rw [cardKey_moved hm hd kc h])
    · rw [List.map_map]
      have : d.map ((fun kc : Str × Card => cardKey kc.2) ∘ fun kc => (kc.1, applyMap o kc.2)) =
          d.map (fun kc => kc.2.pre ++ intStr (shift (o.of kind) kc.2.name)) :=
        List.map_congr_left (fun kc h => by simp only [Function.comp]; rw [cardKey_moved hm hd kc h])
      rw [this]
      have hw : d.Nodup := List.Nodup.of_map _ hd.wf
      refine hw.map_on ?_
      intro x hx y hy hxy
      obtain ⟨h1, h2⟩ := mark_inj (hm _ (hd.mark x hx)) (hm _ (hd.mark y hy)) hxy
      have h3 := shift_inj (ne_of_gt (hd.pos x hx)) (ne_of_gt (hd.pos y hy)) h2
      have h4 : x.1 = y.1 := by rw [hd.key x hx, hd.key y hy, h1, h3]
      have g1 := Dict.get?_of_mem hd.wf (show (x.1, x.2) ∈ d from hx)
      have g2 := Dict.get?_of_mem hd.wf (show (y.1, y.2) ∈ d from hy)
      rw [h4, g2, Option.some.injEq] at g1
      exact Prod.ext h4 g1.symm
  rw [e1]
  have e2 : ∀ kc ∈ d, fixCard kind (numOf (kc.2.pre ++ intStr (shift (o.of kind) kc.2.name)))
      (applyMap o kc.2) = .ok (moved kind o kc.2) := by
    intro kc h
    obtain ⟨rest, hr⟩ := hd.own kc h
    have hn := hnum _ _ (hd.mark kc h) (hpos kc h)
    have hf : first (applyMap o kc.2).values kind = some (shift (o.of kind) kc.2.name) := by
      simp [applyMap, hr, first]
    unfold fixCard
    by_cases he : numOf (kc.2.pre ++ intStr (shift (o.of kind) kc.2.name)) = intStr (applyMap o kc.2).name
    · rw [if_pos he]
      have h2 : (applyMap o kc.2).name = shift (o.of kind) kc.2.name := by
        rw [he, parseInt_intStr, Option.some.injEq] at hn; exact hn
      have h3 : kc.2.name = shift (o.of kind) kc.2.name := h2
      congr 1
      unfold moved applyMap
      rw [← h3]
    · rw [if_neg he, hn]
      simp only
      rw [setFirst_self _ _ _ hf]
      rfl
  have aux : ∀ l : Dict Str Card, (∀ kc ∈ l, fixCard kind (numOf (kc.2.pre ++ intStr (shift (o.of kind) kc.2.name)))
      (applyMap o kc.2) = .ok (moved kind o kc.2)) →
      setCards kind numOf (l.map (fun kc => (kc.2.pre ++ intStr (shift (o.of kind) kc.2.name), applyMap o kc.2))) =
        .ok (l.map (fun kc => (kc.2.pre ++ intStr (shift (o.of kind) kc.2.name), moved kind o kc.2))) := by
    intro l
    induction l with
    | nil => intro _; rfl
    | cons kc r ih =>
      intro h
      simp only [List.map_cons]
      unfold setCards
      rw [h kc (by simp)]
      simp only [ih (fun x hx => h x (List.mem_cons_of_mem _ hx))]
  exact aux d e2

/-- the renumbered dictionary of a kind (proof) -/
def movedDict (kind : Kind) (o : Offsets) (d : Dict Str Card) : Dict Str Card :=
  d.map (fun kc => (kc.2.pre ++ intStr (shift (o.of kind) kc.2.name), moved kind o kc.2))

theorem numbered_moved {kind : Kind} {marks : Str → Prop} (hm : ∀ p, marks p → Mark p) {o : Offsets}
    {d : Dict Str Card} (hd : Numbered kind marks d)
    (hpos : ∀ kc ∈ d, 0 < shift (o.of kind) kc.2.name) : Numbered kind marks (movedDict kind o d) := by
  refine ⟨?_, ?_, ?_, ?_, ?_, ?_⟩
  · unfold Dict.WF Dict.keys movedDict
    rw [List.map_map]
    have hw : d.Nodup := List.Nodup.of_map _ hd.wf
    refine hw.map_on ?_
    intro x hx y hy hxy
    simp only [Function.comp] at hxy
    obtain ⟨h1, h2⟩ := mark_inj (hm _ (hd.mark x hx)) (hm _ (hd.mark y hy)) hxy
    have h3 := shift_inj (ne_of_gt (hd.pos x hx)) (ne_of_gt (hd.pos y hy)) h2
    have h4 : x.1 = y.1 := by rw [hd.key x hx, hd.key y hy, h1, h3]
    have g1 := Dict.get?_of_mem hd.wf (show (x.1, x.2) ∈ d from hx)
    have g2 := Dict.get?_of_mem hd.wf (show (y.1, y.2) ∈ d from hy)
    rw [h4, g2, Option.some.injEq] at g1
    exact Prod.ext h4 g1.symm
  all_goals
    intro kc hkc
    unfold movedDict at hkc
    rw [List.mem_map] at hkc
    obtain ⟨x, hx, rfl⟩ := hkc
  · exact hpos x hx
  · rfl
  · exact hd.mark x hx
  · exact hd.plain x hx
  · obtain ⟨rest, hr⟩ := hd.own x hx
    exact ⟨rest.map (fun v => (shift (o.of v.2) v.1, v.2)), by simp [moved, hr]⟩

/-- looking a renumbered card up -/
theorem movedDict_get? {kind : Kind} {marks : Str → Prop} (hm : ∀ p, marks p → Mark p) {o : Offsets}
    {d : Dict Str Card} (hd : Numbered kind marks d)
    (p : Str) (hp : Mark p) (n : ℤ) (hn : 0 < n) :
    (movedDict kind o d).get? (p ++ intStr (shift (o.of kind) n)) =
      (d.get? (p ++ intStr n)).map (moved kind o) := by
  have aux : ∀ l : Dict Str Card, (∀ kc ∈ l, kc ∈ d) →
      Dict.get? (l.map (fun kc => (kc.2.pre ++ intStr (shift (o.of kind) kc.2.name), moved kind o kc.2)))
        (p ++ intStr (shift (o.of kind) n)) = (Dict.get? l (p ++ intStr n)).map (moved kind o) := by
    intro l
    induction l with
    | nil => intro _; rfl
    | cons kc r ih =>
      intro h
      obtain ⟨k, c⟩ := kc
      have hx := h (k, c) (by simp)
      have hk : k = c.pre ++ intStr c.name := hd.key _ hx
      simp only [List.map_cons, Dict.get?]
      by_cases he : k = p ++ intStr n
      · obtain ⟨h1, h2⟩ := mark_inj (hm _ (hd.mark _ hx)) hp (hk ▸ he)
        rw [if_pos he]
        simp only at h1 h2
        rw [if_pos (by rw [h1, h2])]
        rfl
      · rw [if_neg he, if_neg]
        · exact ih (fun x hx => h x (List.mem_cons_of_mem _ hx))
        · intro e
          obtain ⟨h1, h2⟩ := mark_inj (hm _ (hd.mark _ hx)) hp e
          have h3 := shift_inj (ne_of_gt (hd.pos _ hx)) (ne_of_gt hn) h2
          simp only at h1 h3
          exact he (by rw [hk, h1, h3])
  exact aux d (fun _ h => h)

/-! ### C16 -/

/-- cells have no mark (specification) -/
def NoMark (p : Str) : Prop := p = []

/-- A model as read, whose numbers stay positive under the offsets. (specification) -/
structure Renumberable (m : Deck) (o : Offsets) : Prop where
  cells : Numbered .cel NoMark m.cells
  surfs : Numbered .sur Mark m.surfs
  cellsPos : ∀ kc ∈ m.cells, 0 < shift (o.of .cel) kc.2.name
  surfsPos : ∀ kc ∈ m.surfs, 0 < shift (o.of .sur) kc.2.name

theorem renumber_eq (m : Deck) (o : Offsets) (all : Option ℤ) (h : Renumberable m (o.withAll all)) :
    renumber m o all true = .ok { m with
      cells := movedDict .cel (o.withAll all) m.cells
      surfs := movedDict .sur (o.withAll all) m.surfs
      other := rekey (m.other.map (fun kc => (kc.1, applyMap (o.withAll all) kc.2)))
      transformations := rekey (m.transformations.map (fun kc => (kc.1, applyMap (o.withAll all) kc.2))) } := by
  have e1 := rekeyed (fun p hp => Or.inl hp) h.cells h.cellsPos id (by
    intro p n hp hn
    have : p = [] := hp
    subst this
    simp [parseInt_intStr])
  have e2 := rekeyed (fun p hp => hp) h.surfs h.surfsPos keyNum (fun p n hp hn => parse_mark hp hn)
  simp only [renumber, if_true, updateKeys, e1, e2]
  rfl

/-- **C16** (definitions). After renumbering with key updates every cell is found under its shifted
number and nothing else is there; likewise every surface, plain, reflecting or white. On each card
every number of each kind is shifted by the offset of that kind; material, density and everything else
are unchanged. The result is again a well-formed model. -/
theorem c16_definitions (m : Deck) (o : Offsets) (all : Option ℤ) (h : Renumberable m (o.withAll all)) :
    ∃ m', renumber m o all true = .ok m' ∧ Numbered .cel NoMark m'.cells ∧ Numbered .sur Mark m'.surfs ∧
      (∀ n, 0 < n → m'.cells.get? (intStr (shift ((o.withAll all).of .cel) n)) =
        (m.cells.get? (intStr n)).map (moved .cel (o.withAll all))) ∧
      (∀ p n, Mark p → 0 < n → m'.surfs.get? (p ++ intStr (shift ((o.withAll all).of .sur) n)) =
        (m.surfs.get? (p ++ intStr n)).map (moved .sur (o.withAll all))) ∧
      m'.cells.length = m.cells.length ∧ m'.surfs.length = m.surfs.length ∧
      m'.materials = m.materials ∧ m'.header = m.header := by
  refine ⟨_, renumber_eq m o all h, numbered_moved (fun p hp => Or.inl hp) h.cells h.cellsPos,
    numbered_moved (fun p hp => hp) h.surfs h.surfsPos, ?_, ?_, ?_, ?_, rfl, rfl⟩
  · intro n hn
    exact movedDict_get? (fun p hp => Or.inl hp) h.cells [] (Or.inl rfl) n hn
  · intro p n hp hn
    exact movedDict_get? (fun p hp => hp) h.surfs p hp n hn
  · simp [movedDict]
  · simp [movedDict]

theorem first_moved (o : Offsets) (vs : List (ℤ × Kind)) (k : Kind) :
    first (vs.map (fun v => (shift (o.of v.2) v.1, v.2))) k = (first vs k).map (shift (o.of k)) := by
  induction vs with
  | nil => rfl
  | cons v r ih =>
    obtain ⟨w, k'⟩ := v
    simp only [List.map_cons, first]
    by_cases hk : k' = k
    · simp [hk]
    · rw [if_neg hk, if_neg hk, ih]

/-- universe numbers that would be shifted onto 0 (the default universe) or collide are absent (specification) -/
def UniversesOk (m : Deck) (o : Offsets) : Prop :=
  ∀ kc ∈ m.cells, ∀ v, kc.2.univ = some v ∨ kc.2.fill = some v → shift (o.of .u) v = 0 → v = 0

theorem shift_eq_iff {off : Option ℤ} {a b : ℤ} (ha : shift off a = 0 → a = 0) (hb : shift off b = 0 → b = 0) :
    shift off a = shift off b ↔ a = b := by
  refine ⟨fun h => ?_, fun h => by rw [h]⟩
  cases off with
  | none => exact h
  | some o =>
    by_cases h1 : a = 0
    · subst h1
      have : shift (some o) (0 : ℤ) = 0 := by simp [shift]
      rw [this] at h
      exact (hb h.symm).symm
    · by_cases h2 : b = 0
      · subst h2
        have : shift (some o) (0 : ℤ) = 0 := by simp [shift]
        rw [this] at h
        exact ha h
      · exact shift_inj h1 h2 h

/-- **C16** (references). After renumbering with key updates, a cell needs another one (through a
complement or through the universe that fills it) exactly if it did before: complements and universes
still resolve to the same, renumbered, cells. -/
theorem c16_references (m : Deck) (o : Offsets) (all : Option ℤ) (h : Renumberable m (o.withAll all))
    (hu : UniversesOk m (o.withAll all)) (m' : Deck) (hm' : renumber m o all true = .ok m')
    (fillers : Bool) (a b : ℤ) (ha : 0 < a) (hb : 0 < b)
    (href : ∀ kc ∈ m.cells, ∀ v ∈ kc.2.values, v.2 = Kind.cel → 0 < v.1) :
    Needs m'.cells fillers (shift ((o.withAll all).of .cel) a) (shift ((o.withAll all).of .cel) b) ↔
      Needs m.cells fillers a b := by
  rw [renumber_eq m o all h, Except.ok.injEq] at hm'
  subst hm'
  set O := o.withAll all with hO
  have get : ∀ n, 0 < n → (movedDict .cel O m.cells).get? (intStr (shift (O.of .cel) n)) =
      (m.cells.get? (intStr n)).map (moved .cel O) := fun n hn =>
    movedDict_get? (fun p hp => Or.inl hp) h.cells [] (Or.inl rfl) n hn
  have hf : ∀ c : Card, (moved .cel O c).fill = c.fill.map (shift (O.of .u)) := by
    intro c
    have := first_moved O c.values .fill
    unfold Card.fill moved
    simp only
    rw [this]
    rfl
  have hun : ∀ c : Card, (moved .cel O c).univ = c.univ.map (shift (O.of .u)) := by
    intro c; exact first_moved O c.values .u
  unfold Needs
  simp only
  constructor
  · rintro ⟨c', h1, h2⟩
    rw [get a ha] at h1
    cases hc : m.cells.get? (intStr a) with
    | none => rw [hc] at h1; simp at h1
    | some c =>
      rw [hc] at h1
      simp only [Option.map_some, Option.some.injEq] at h1
      subst h1
      have hmem := Dict.mem_of_get? hc
      refine ⟨c, rfl, ?_⟩
      rcases h2 with h2 | ⟨h3, f, k, c2, h4, h5, h6, h7⟩
      · left
        have : (moved .cel O c).values.tail = c.values.tail.map (fun v => (shift (O.of v.2) v.1, v.2)) := by
          simp [moved, List.map_tail]
        rw [this, List.mem_map] at h2
        obtain ⟨⟨v, kd⟩, hv, he⟩ := h2
        simp only [Prod.mk.injEq] at he
        obtain ⟨he, rfl⟩ := he
        have hv0 := href _ hmem (v, .cel) (List.mem_of_mem_tail hv) rfl
        have := shift_inj (ne_of_gt hv0) (ne_of_gt hb) he
        rw [← this]; exact hv
      · right
        refine ⟨h3, ?_⟩
        rw [hf] at h4
        cases hcf : c.fill with
        | none => rw [hcf] at h4; simp at h4
        | some g =>
          rw [hcf] at h4
          simp only [Option.map_some, Option.some.injEq] at h4
          unfold movedDict at h5
          rw [List.mem_map] at h5
          obtain ⟨x, hx, he⟩ := h5
          simp only [Prod.mk.injEq] at he
          obtain ⟨_, rfl⟩ := he
          rw [hun] at h6
          cases hxu : x.2.univ with
          | none => rw [hxu] at h6; simp at h6
          | some u =>
            rw [hxu] at h6
            simp only [Option.map_some, Option.some.injEq] at h6
            have : u = g := (shift_eq_iff (hu x hx u (Or.inl hxu)) (hu _ hmem g (Or.inr hcf))).mp (by rw [h6, h4])
            obtain ⟨rest, hr⟩ := h.cells.own x hx
            refine ⟨g, x.1, x.2, rfl, hx, by rw [hxu, this], ?_⟩
            simp only [moved, hr, List.map_cons, List.head?_cons, Option.map_some, Option.some.injEq] at h7
            have := shift_inj (ne_of_gt (h.cells.pos x hx)) (ne_of_gt hb) h7
            simp [hr, this]
  · rintro ⟨c, h1, h2⟩
    refine ⟨moved .cel O c, by rw [get a ha, h1]; rfl, ?_⟩
    rcases h2 with h2 | ⟨h3, f, k, c2, h4, h5, h6, h7⟩
    · left
      have : (moved .cel O c).values.tail = c.values.tail.map (fun v => (shift (O.of v.2) v.1, v.2)) := by
        simp [moved, List.map_tail]
      rw [this, List.mem_map]
      exact ⟨(b, .cel), h2, rfl⟩
    · right
      refine ⟨h3, shift (O.of .u) f, c2.pre ++ intStr (shift (O.of .cel) c2.name), moved .cel O c2, ?_, ?_, ?_, ?_⟩
      · rw [hf, h4]; rfl
      · exact List.mem_map.mpr ⟨(k, c2), h5, rfl⟩
      · rw [hun, h6]; rfl
      · obtain ⟨rest, hr⟩ := h.cells.own (k, c2) h5
        simp only at hr
        have hr2 : c2.values = (c2.name, Kind.cel) :: rest := hr
        rw [hr2] at h7
        simp only [List.head?_cons, Option.map_some, Option.some.injEq] at h7
        simp [moved, hr2, h7]

/-- **C16** (surfaces, materials). Each surface reference of a renumbered cell is the shifted
reference, at the same place; material and density of the cell are the same. -/
theorem c16_cell_card (o : Offsets) (c : Card) :
    (∀ i : Nat, ∀ v k, (moved .cel o c).values[i]? = some (v, k) ↔
      ∃ w, c.values[i]? = some (w, k) ∧ v = shift (o.of k) w) ∧
    (moved .cel o c).mat = c.mat ∧ (moved .cel o c).dens = c.dens ∧
    (moved .cel o c).pre = c.pre ∧ (moved .cel o c).post = c.post := by
  refine ⟨?_, ?_, rfl, rfl, rfl⟩
  · intro i v k
    unfold moved
    simp only [List.getElem?_map]
    cases c.values[i]? with
    | none => simp
    | some w =>
      obtain ⟨w, k'⟩ := w
      simp only [Option.map_some, Option.some.injEq, Prod.mk.injEq]
      constructor
      · rintro ⟨rfl, rfl⟩; exact ⟨w, ⟨rfl, rfl⟩, rfl⟩
      · rintro ⟨w', ⟨rfl, rfl⟩, rfl⟩; exact ⟨rfl, rfl⟩
  · have := first_moved o c.values .mat
    unfold Card.mat moved
    simp only
    rw [this]
    cases first c.values .mat <;> rfl

/-- **C16** (zero and injectivity). Zero stays zero, and no two different non-zero numbers of a kind
are identified. -/
theorem c16_shift (off : Option ℤ) : shift off 0 = 0 ∧
    (∀ a b, a ≠ 0 → b ≠ 0 → shift off a = shift off b → a = b) ∧
    (∀ d a, off = some d → a ≠ 0 → shift off a = a + d) := by
  refine ⟨by cases off <;> simp [shift], fun a b ha hb h => shift_inj ha hb h, ?_⟩
  intro d a hd ha
  subst hd
  simp [shift, ha]

/-- **C16** (`renum_all`). It trumps the single offsets. -/
theorem c16_all (m : Deck) (o : Offsets) (a : ℤ) (upd : Bool) :
    renumber m o (some a) upd = renumber m ⟨some a, some a, some a, some a⟩ none upd := rfl

/-- **C16** (keys). Without key updates the cards are renumbered but stay under their old keys. -/
theorem c16_stale_keys (m : Deck) (o : Offsets) (all : Option ℤ) :
    ∃ m', renumber m o all false = .ok m' ∧ m'.cells.keys = m.cells.keys ∧ m'.surfs.keys = m.surfs.keys ∧
      (∀ k, m'.cells.get? k = (m.cells.get? k).map (applyMap (o.withAll all))) ∧
      (∀ k, m'.surfs.get? k = (m.surfs.get? k).map (applyMap (o.withAll all))) := by
  refine ⟨_, rfl, ?_, ?_, ?_, ?_⟩
  · simp [Dict.keys, List.map_map, Function.comp_def]
  · simp [Dict.keys, List.map_map, Function.comp_def]
  · intro k; exact Dict.get?_map_val _ _ _
  · intro k; exact Dict.get?_map_val _ _ _

/-- **C16** (the condition on universes is needed). Shifting universe numbers by minus five puts the
cells of universe 5 into the default universe 0. -/
theorem c16_universe_to_zero : shift (some (-5)) 5 = 0 ∧ shift (some (-5)) 0 = 0 := by decide

/-- a model with a filled cell, a complement, a plain, a reflecting and a white surface (example) -/
def renumDemo : Deck where
  cells := demoCells
  surfs := [("5".toList, ⟨5, [], [], true, [(5, .sur)], none⟩),
            ("*6".toList, ⟨6, ['*'], [], true, [(6, .sur), (1, .tr)], none⟩),
            ("+7".toList, ⟨7, ['+'], [], true, [(7, .sur)], none⟩)]
  materials := mkMatList []
  transformations := []
  other := []
  tallyKeys := []
  fmeshKeys := []
  header := []

instance (p : Str) : Decidable (Mark p) := inferInstanceAs (Decidable (_ ∨ _ ∨ _))
instance (p : Str) : Decidable (NoMark p) := inferInstanceAs (Decidable (_ = _))

theorem own_of_head {kind : Kind} {c : Card} (h : c.values.head? = some (c.name, kind)) :
    ∃ rest, c.values = (c.name, kind) :: rest := by
  cases hv : c.values with
  | nil => simp [hv] at h
  | cons v r => simp [hv] at h; exact ⟨r, by rw [h]⟩

example : Renumberable renumDemo ⟨some 100, some 200, some 50, none⟩ ∧
    UniversesOk renumDemo ⟨some 100, some 200, some 50, none⟩ := by
  refine ⟨⟨⟨by unfold Dict.WF; decide +kernel, by decide +kernel, by decide +kernel, by decide +kernel, by decide +kernel, ?_⟩,
    ⟨by unfold Dict.WF; decide +kernel, by decide +kernel, by decide +kernel, by decide +kernel, by decide +kernel, ?_⟩,
    by decide +kernel, by decide +kernel⟩, ?_⟩
  · intro kc h
    refine own_of_head ?_
    revert kc; decide +kernel
  · intro kc h
    refine own_of_head ?_
    revert kc; decide +kernel
  · intro kc h v hv h0
    by_cases hv0 : v = 0
    · exact hv0
    · have : shift (some (50 : ℤ)) v = v + 50 := by simp [shift, hv0]
      have h0 : shift (some (50 : ℤ)) v = 0 := h0
      exfalso
      have e : v = -50 := by omega
      subst e
      revert kc; decide +kernel

example : ((renumber renumDemo ⟨some 100, some 200, some 50, none⟩ none true).map
    (fun m => (m.cells.keys.map String.ofList, m.surfs.keys.map String.ofList))) =
    .ok (["101", "102", "103", "104"], ["205", "*206", "+207"]) := by decide +kernel

end F4Enix.Inp
