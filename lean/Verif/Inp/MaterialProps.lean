import Verif.Inp.RenumberProps
/-!
# Materials of cells (C18, C19) and densities (C51)
-/
namespace F4Enix.Inp
open F4Enix

/-- the cell is asked for: it has the old material and lies in one of the universes of the list (any
cell when no list is given) (specification) -/
def Selected (old : ℤ) (ul : Option (List ℤ)) (c : Card) : Prop :=
  c.mat = some old ∧ ∀ us, ul = some us → ∃ u ∈ us, c.univ = some u

/-- `c'` is the cell `c` with material `new` in the place of `old` and the density `dens`
(no density if it becomes void); every other value of the card and everything else is the same (specification) -/
def Replaced (old new : ℤ) (dens : Str) (c c' : Card) : Prop :=
  (∃ a b, (∀ v ∈ a, v.2 ≠ Kind.mat) ∧ c.values = a ++ (old, .mat) :: b ∧ c'.values = a ++ (new, .mat) :: b) ∧
  c'.dens = (if new = 0 then none else some dens) ∧
  c'.name = c.name ∧ c'.pre = c.pre ∧ c'.post = c.post ∧ c'.numbered = c.numbered

theorem replaced_mat {old new : ℤ} {dens : Str} {c c' : Card} (h : Replaced old new dens c c') :
    c'.mat = some new := by
  obtain ⟨⟨a, b, ha, h1, h2⟩, _⟩ := h
  unfold Card.mat
  rw [h2]
  clear h1 h2
  induction a with
  | nil => simp [first]
  | cons v r ih =>
    simp only [List.cons_append, first]
    rw [if_neg (ha v (by simp)), ih (fun x hx => ha x (List.mem_cons_of_mem _ hx))]

theorem first_split (vs : List (ℤ × Kind)) (k : Kind) (n : ℤ) (h : first vs k = some n) :
    ∃ a b, (∀ v ∈ a, v.2 ≠ k) ∧ vs = a ++ (n, k) :: b ∧ ∀ x, setFirst vs k x = a ++ (x, k) :: b := by
  induction vs with
  | nil => simp [first] at h
  | cons v r ih =>
    obtain ⟨w, k'⟩ := v
    by_cases hk : k' = k
    · simp only [first, if_pos hk, Option.some.injEq] at h
      refine ⟨[], r, by simp, by rw [h, hk]; rfl, fun x => by simp [setFirst, hk]⟩
    · simp only [first, if_neg hk] at h
      obtain ⟨a, b, h1, h2, h3⟩ := ih h
      refine ⟨(w, k') :: a, b, ?_, by rw [h2]; rfl, fun x => by simp [setFirst, hk, h3 x]⟩
      intro v hv
      rcases List.mem_cons.mp hv with rfl | hv
      · exact hk
      · exact h1 v hv

theorem inUniverses_iff (ul : Option (List ℤ)) (c : Card) :
    inUniverses ul c = true ↔ ∀ us, ul = some us → ∃ u ∈ us, c.univ = some u := by
  unfold inUniverses
  cases ul with
  | none => simp
  | some us =>
    cases hu : c.univ with
    | none => simp
    | some u => simp

/-- the request is acceptable for void cells: a positive material and a density of at least one in
absolute value (specification) -/
def VoidOk (num : Str → Option ℚ) (new : ℤ) (dens : Str) : Prop :=
  0 < new ∧ ∃ q, num dens = some q ∧ 1 ≤ |q|

theorem truncZero_iff (q : ℚ) : truncZero q = true ↔ ¬ 1 ≤ |q| := by
  unfold truncZero
  rw [decide_eq_true_iff, not_le, abs_lt]

theorem addMaterial_ok (num : Str → Option ℚ) (c : Card) (new : ℤ) (dens : Str) (hm : c.mat = some 0) :
    (VoidOk num new dens → addMaterial num c new dens =
      .ok { c with values := setFirst c.values .mat new, dens := some dens }) ∧
    (¬ VoidOk num new dens → addMaterial num c new dens = .error .valueError) := by
  unfold addMaterial VoidOk
  cases hq : num dens with
  | none => simp
  | some q =>
    simp only [Option.some.injEq, exists_eq_left', if_pos hm]
    by_cases h1 : 0 < new ∧ 1 ≤ |q|
    · have : ¬ (truncZero q = true ∨ new ≤ 0) := by
        rw [truncZero_iff]; rintro (h | h)
        · exact h h1.2
        · omega
      rw [if_neg this]
      exact ⟨fun _ => rfl, fun h => absurd h1 h⟩
    · have : truncZero q = true ∨ new ≤ 0 := by
        rw [truncZero_iff]
        by_cases h2 : 1 ≤ |q|
        · right; by_contra h3; exact h1 ⟨by omega, h2⟩
        · exact Or.inl h2
      rw [if_pos this]
      exact ⟨fun h => absurd h h1, fun _ => rfl⟩

/-- one cell -/
theorem replaceCell_spec (num : Str → Option ℚ) (c : Card) (new old : ℤ) (dens : Str)
    (hm : c.mat = some old) (hv : old = 0 → VoidOk num new dens) :
    ∃ c', replaceCellMaterial num c new dens = .ok c' ∧ Replaced old new dens c c' := by
  obtain ⟨a, b, h1, h2, h3⟩ := first_split c.values .mat old hm
  unfold replaceCellMaterial
  by_cases h0 : old = 0
  · subst h0
    rw [if_pos hm, (addMaterial_ok num c new dens hm).1 (hv rfl)]
    refine ⟨_, rfl, ⟨a, b, h1, h2, h3 new⟩, ?_, rfl, rfl, rfl, rfl⟩
    have := (hv rfl).1
    rw [if_neg (by omega)]
  · have hne : c.mat ≠ some 0 := by rw [hm]; simpa using h0
    rw [if_neg hne]
    by_cases hn : new = 0
    · rw [if_pos hn]
      unfold setVoid
      rw [if_neg hne]
      exact ⟨_, rfl, ⟨a, b, h1, h2, by rw [hn]; exact h3 0⟩, by rw [if_pos hn], rfl, rfl, rfl, rfl⟩
    · rw [if_neg hn]
      exact ⟨_, rfl, ⟨a, b, h1, h2, h3 new⟩, by rw [if_neg hn], rfl, rfl, rfl, rfl⟩

theorem replaceCell_refused (num : Str → Option ℚ) (c : Card) (new : ℤ) (dens : Str)
    (hm : c.mat = some 0) (hv : ¬ VoidOk num new dens) :
    replaceCellMaterial num c new dens = .error .valueError := by
  unfold replaceCellMaterial
  rw [if_pos hm, (addMaterial_ok num c new dens hm).2 hv]

/-- the cells before and after, one by one (specification) -/
def Effect (old new : ℤ) (dens : Str) (ul : Option (List ℤ)) : Dict Str Card → Dict Str Card → Prop :=
  List.Forall₂ (fun kc kc' => kc'.1 = kc.1 ∧
    (Selected old ul kc.2 → Replaced old new dens kc.2 kc'.2) ∧
    (¬ Selected old ul kc.2 → kc'.2 = kc.2))

theorem replaceLoop_spec (num : Str → Option ℚ) (new : ℤ) (dens : Str) (old : ℤ) (ul : Option (List ℤ))
    (cells : Dict Str Card) (hv : old = 0 → (∃ kc ∈ cells, Selected old ul kc.2) → VoidOk num new dens) :
    ∃ cells', replaceLoop num new dens old ul cells = (cells', none) ∧ Effect old new dens ul cells cells' := by
  induction cells with
  | nil => exact ⟨[], rfl, List.Forall₂.nil⟩
  | cons kc r ih =>
    obtain ⟨k, c⟩ := kc
    obtain ⟨r', h1, h2⟩ := ih (fun h0 ⟨x, hx, hs⟩ => hv h0 ⟨x, List.mem_cons_of_mem _ hx, hs⟩)
    have hsel : Selected old ul c ↔ (c.mat = some old ∧ inUniverses ul c = true) := by
      unfold Selected; rw [inUniverses_iff]
    unfold replaceLoop
    by_cases hs : c.mat = some old ∧ inUniverses ul c = true
    · rw [if_pos hs]
      obtain ⟨c', h3, h4⟩ := replaceCell_spec num c new old dens hs.1
        (fun h0 => hv h0 ⟨(k, c), by simp, hsel.mpr hs⟩)
      simp only [h3, h1]
      exact ⟨_, rfl, List.Forall₂.cons ⟨rfl, fun _ => h4, fun h => absurd (hsel.mpr hs) h⟩ h2⟩
    · rw [if_neg hs]
      simp only [h1]
      exact ⟨_, rfl, List.Forall₂.cons ⟨rfl, fun h => absurd (hsel.mp h) hs, fun _ => rfl⟩ h2⟩

/-- **C18**. With a non-negative new material, `replace_material` succeeds whenever the old material is
not void (and, for void cells, whenever the new material is positive and the density is at least one in
absolute value): exactly the selected cells get the new material in the place of the old one, with the
density (no density for void); all other cells and everything else of the model are the same. -/
theorem c18_replace (num : Str → Option ℚ) (m : Deck) (new : ℤ) (dens : Str) (old : ℤ)
    (ul : Option (List ℤ)) (hn : 0 ≤ new)
    (hv : old = 0 → (∃ kc ∈ m.cells, Selected old ul kc.2) → VoidOk num new dens) :
    ∃ m', replaceMaterial num m new dens old ul = (m', none) ∧ Effect old new dens ul m.cells m'.cells ∧
      m'.surfs = m.surfs ∧ m'.materials = m.materials ∧ m'.transformations = m.transformations ∧
      m'.other = m.other ∧ m'.tallyKeys = m.tallyKeys ∧ m'.fmeshKeys = m.fmeshKeys ∧ m'.header = m.header := by
  obtain ⟨cs, h1, h2⟩ := replaceLoop_spec num new dens old ul m.cells hv
  refine ⟨{ m with cells := cs }, ?_, h2, rfl, rfl, rfl, rfl, rfl, rfl, rfl⟩
  unfold replaceMaterial
  rw [if_neg (by omega), h1]

/-- **C18** (refusals). A refused replacement raises `ValueError` and leaves the model as it was; it is
refused exactly if the new material is negative or a void cell is selected and the request is not
acceptable for void cells. -/
theorem c18_refused (num : Str → Option ℚ) (m : Deck) (new : ℤ) (dens : Str) (old : ℤ)
    (ul : Option (List ℤ))
    (h : new < 0 ∨ (old = 0 ∧ (∃ kc ∈ m.cells, Selected old ul kc.2) ∧ ¬ VoidOk num new dens)) :
    replaceMaterial num m new dens old ul = (m, some .valueError) := by
  by_cases hn : new < 0
  · unfold replaceMaterial
    rw [if_pos (Or.inl hn)]
  · rcases h with h | ⟨rfl, hex, hv⟩
    · exact absurd h hn
    · have aux : ∀ cells : Dict Str Card, (∃ kc ∈ cells, Selected 0 ul kc.2) →
          replaceLoop num new dens 0 ul cells = (cells, some .valueError) := by
        intro cells
        induction cells with
        | nil => rintro ⟨kc, h, _⟩; simp at h
        | cons kc r ih =>
          obtain ⟨k, c⟩ := kc
          intro hex
          have hsel : Selected 0 ul c ↔ (c.mat = some 0 ∧ inUniverses ul c = true) := by
            unfold Selected; rw [inUniverses_iff]
          unfold replaceLoop
          by_cases hs : c.mat = some 0 ∧ inUniverses ul c = true
          · rw [if_pos hs]
            simp only [replaceCell_refused num c new dens hs.1 hv]
          · rw [if_neg hs, ih]
            obtain ⟨x, hx, h⟩ := hex
            rcases List.mem_cons.mp hx with rfl | hx
            · exact absurd (hsel.mp h) hs
            · exact ⟨x, hx, h⟩
      unfold replaceMaterial
      rw [if_neg (by omega), aux m.cells hex]

/-- **C18** (consequence). After a successful replacement by another material in the whole model, no
cell has the old material any more, and the cells of the new material are those that had the new or the
old one. -/
theorem c18_gone (num : Str → Option ℚ) (m : Deck) (new : ℤ) (dens : Str) (old : ℤ) (hne : new ≠ old)
    (m' : Deck) (h : replaceMaterial num m new dens old none = (m', none)) :
    (cellsByMat m' old).keys = [] ∧
    ∀ k, k ∈ (cellsByMat m' new).keys ↔ k ∈ (cellsByMat m new).keys ∨ k ∈ (cellsByMat m old).keys := by
  by_cases hr : new < 0 ∨ (old = 0 ∧ (∃ kc ∈ m.cells, Selected old none kc.2) ∧ ¬ VoidOk num new dens)
  · rw [c18_refused num m new dens old none hr] at h; simp at h
  · push Not at hr
    obtain ⟨m2, h1, h2, _⟩ := c18_replace num m new dens old none hr.1 (fun h0 hx => hr.2 h0 hx)
    rw [h1] at h
    simp only [Prod.mk.injEq, and_true] at h
    subst h
    have hsel : ∀ c : Card, Selected old none c ↔ c.mat = some old := by
      intro c; unfold Selected; simp
    unfold cellsByMat Dict.keys
    generalize m.cells = cs at h2
    generalize m2.cells = cs' at h2
    unfold Effect at h2
    induction h2 with
    | nil => simp
    | @cons a b l l' hab _ ih =>
      obtain ⟨hk, ha, hb⟩ := hab
      rw [hsel] at ha hb
      by_cases hm : a.2.mat = some old
      · have hb2 := replaced_mat (ha hm)
        have e1 : decide (b.2.mat = some old) = false := by rw [hb2]; simpa using hne
        have e2 : decide (b.2.mat = some new) = true := by rw [hb2]; simp
        have e3 : decide (a.2.mat = some old) = true := by simpa using hm
        have e4 : decide (a.2.mat = some new) = false := by rw [hm]; simpa using Ne.symm hne
        rw [List.filter_cons, List.filter_cons, List.filter_cons, List.filter_cons, e1, e2, e3, e4]
        simp only [Bool.false_eq_true, if_false, if_true, List.map_cons, List.mem_cons]
        refine ⟨ih.1, fun k => ?_⟩
        rw [ih.2 k, hk]
        tauto
      · have hb2 := hb hm
        have e3 : decide (a.2.mat = some old) = false := by simpa using hm
        rw [List.filter_cons, List.filter_cons, List.filter_cons, List.filter_cons, hb2, e3]
        by_cases h5 : a.2.mat = some new
        · have e4 : decide (a.2.mat = some new) = true := by simpa using h5
          rw [e4]
          simp only [Bool.false_eq_true, if_false, if_true, List.map_cons, List.mem_cons]
          refine ⟨ih.1, fun k => ?_⟩
          rw [ih.2 k, hk]
          tauto
        · have e4 : decide (a.2.mat = some new) = false := by simpa using h5
          rw [e4]
          simp only [Bool.false_eq_true, if_false]
          exact ih

/-- **C19** (the true part). A negative new material is refused and nothing changes. -/
theorem c19_new_rejected_partial (num : Str → Option ℚ) (m : Deck) (new : ℤ) (dens : Str) (old : ℤ)
    (ul : Option (List ℤ)) (h : new < 0) : replaceMaterial num m new dens old ul = (m, some .valueError) :=
  c18_refused num m new dens old ul (Or.inl h)

/-- **C19** is false of the code: a negative old material is never refused (the check tests the new
one twice); on a model without negative materials the call silently does nothing. -/
theorem c19_old_accepted (num : Str → Option ℚ) (m : Deck) (new : ℤ) (dens : Str) (old : ℤ)
    (ul : Option (List ℤ)) (hn : 0 ≤ new) (ho : old < 0) :
    (replaceMaterial num m new dens old ul).2 = none ∧
    ((∀ kc ∈ m.cells, ∀ x, kc.2.mat = some x → 0 ≤ x) →
      (replaceMaterial num m new dens old ul).1 = m) := by
  obtain ⟨m', h1, h2, e1, e2, e3, e4, e5, e6, e7⟩ := c18_replace num m new dens old ul hn (fun h => by omega)
  rw [h1]
  refine ⟨rfl, fun hall => ?_⟩
  have : m'.cells = m.cells := by
    have aux : ∀ a b : Dict Str Card, Effect old new dens ul a b →
        (∀ kc ∈ a, ∀ x, kc.2.mat = some x → 0 ≤ x) → b = a := by
      intro a b hab
      unfold Effect at hab
      induction hab with
      | nil => intro _; rfl
      | @cons x y l l' hxy _ ih =>
        intro hall
        rw [ih (fun kc h => hall kc (List.mem_cons_of_mem _ h))]
        obtain ⟨hk, _, hb⟩ := hxy
        have : y.2 = x.2 := hb (fun hs => by
          have := hall x (by simp) old hs.1
          omega)
        rw [show y = x from Prod.ext hk this]
    exact aux _ _ h2 hall
  obtain ⟨a, b, c, d, e, f, g, i⟩ := m
  obtain ⟨a', b', c', d', e', f', g', i'⟩ := m'
  simp only at *
  subst this e1 e2 e3 e4 e5 e6 e7
  rfl

/-- A void cell cannot be given a material of density below one in absolute value (the density is
truncated before it is compared with zero). -/
theorem c18_small_density_refused (num : Str → Option ℚ) (m : Deck) (new : ℤ) (dens : Str) (q : ℚ)
    (ul : Option (List ℤ)) (hq : num dens = some q) (h1 : |q| < 1)
    (hs : ∃ kc ∈ m.cells, Selected 0 ul kc.2) :
    replaceMaterial num m new dens 0 ul = (m, some .valueError) :=
  c18_refused num m new dens 0 ul (Or.inr ⟨rfl, hs, by
    rintro ⟨_, q', h2, h3⟩
    rw [hq, Option.some.injEq] at h2
    subst h2
    exact absurd h3 (not_le.mpr h1)⟩)

/-! ### C51: densities -/

/-- **C51**. `scale_densities` multiplies the density of every non-void cell by the factor (rendered
with six digits), leaves void cells and everything else on the cards alone, and keeps the keys. -/
theorem c51_scale (num : Str → Option ℚ) (fmt : ℚ → Str) (f : ℚ) (cells cells' : Dict Str Card)
    (h : scaleDensities num fmt f cells = .ok cells') :
    List.Forall₂ (fun kc kc' => kc'.1 = kc.1 ∧ (kc.2.mat = some 0 → kc'.2 = kc.2) ∧
      (kc.2.mat ≠ some 0 → ∃ d q, kc.2.dens = some d ∧ num d = some q ∧
        kc'.2 = { kc.2 with dens := some (fmt (q * f)) })) cells cells' := by
  induction cells generalizing cells' with
  | nil => simp [scaleDensities] at h; subst h; exact List.Forall₂.nil
  | cons kc r ih =>
    obtain ⟨k, c⟩ := kc
    unfold scaleDensities at h
    by_cases hm : c.mat = some 0
    · rw [if_pos hm] at h
      simp only at h
      cases hr : scaleDensities num fmt f r with
      | error e => simp [hr] at h
      | ok r' =>
        simp only [hr, Except.ok.injEq] at h
        subst h
        exact List.Forall₂.cons ⟨rfl, fun _ => rfl, fun h => absurd hm h⟩ (ih r' hr)
    · rw [if_neg hm] at h
      cases hd : c.dens with
      | none => simp [hd] at h
      | some d =>
        cases hq : num d with
        | none => simp [hd, hq] at h
        | some q =>
          simp only [hd, hq] at h
          cases hr : scaleDensities num fmt f r with
          | error e => simp [hr] at h
          | ok r' =>
            simp only [hr, Except.ok.injEq] at h
            subst h
            exact List.Forall₂.cons ⟨rfl, fun h => absurd h hm, fun _ => ⟨d, q, hd, hq, rfl⟩⟩ (ih r' hr)

/-- **C51** (success). It succeeds if every non-void cell has a readable density. -/
theorem c51_succeeds (num : Str → Option ℚ) (fmt : ℚ → Str) (f : ℚ) (cells : Dict Str Card)
    (h : ∀ kc ∈ cells, kc.2.mat ≠ some 0 → ∃ d q, kc.2.dens = some d ∧ num d = some q) :
    ∃ cells', scaleDensities num fmt f cells = .ok cells' := by
  induction cells with
  | nil => exact ⟨[], rfl⟩
  | cons kc r ih =>
    obtain ⟨k, c⟩ := kc
    obtain ⟨r', hr⟩ := ih (fun x hx => h x (List.mem_cons_of_mem _ hx))
    unfold scaleDensities
    by_cases hm : c.mat = some 0
    · rw [if_pos hm]
      simp only [hr]
      exact ⟨_, rfl⟩
    · obtain ⟨d, q, hd, hq⟩ := h (k, c) (by simp) hm
      have hd : c.dens = some d := hd
      rw [if_neg hm]
      simp only [hd, hq, hr]
      exact ⟨_, rfl⟩

/-- the hypotheses are met: material 7 of cell 2 replaced, cell 4 (void) untouched (example) -/
def matDemo : Deck := { renumDemo with
  cells := [("2".toList, mkCell 2 7 (some "-1.0".toList) [5] [] none none),
            ("3".toList, mkCell 3 7 (some "-2.0".toList) [5] [] (some 9) none),
            ("4".toList, mkCell 4 0 none [5] [] none none)] }

example : replaceMaterial (fun _ => some 8) matDemo 12 "8.0".toList 7 (some [9]) =
    ({ matDemo with
        cells := [("2".toList, mkCell 2 7 (some "-1.0".toList) [5] [] none none),
                  ("3".toList, mkCell 3 12 (some "8.0".toList) [5] [] (some 9) none),
                  ("4".toList, mkCell 4 0 none [5] [] none none)] }, none) ∧
    replaceMaterial (fun _ => some 8) matDemo 0 [] 7 none =
    ({ matDemo with
        cells := [("2".toList, mkCell 2 0 none [5] [] none none),
                  ("3".toList, mkCell 3 0 none [5] [] (some 9) none),
                  ("4".toList, mkCell 4 0 none [5] [] none none)] }, none) ∧
    (replaceMaterial (fun _ => some 8) matDemo 12 "8".toList 0 none).2 = none ∧
    (replaceMaterial (fun _ => some (1/2)) matDemo 12 ".5".toList 0 none).2 = some .valueError := by
  decide +kernel

end F4Enix.Inp
