import Verif.Inp.Assemble
/-!
# Deleting the fill cards of a model (C189)

`Input.delete_fill_cards` (`src/f4enix/input/MCNPinput.py:1762-1774`). Removing the entry from the text of the card (`remove_fill` of numjuggler) and reading the card again is a parameter,
`strip`, of which `FillRemoved` is assumed.
-/
namespace F4Enix.Inp
open F4Enix Relation

/-! ### model -/

/-- `delete_fill_cards` (MCNPinput.py:1762-1774): cards with a fill entry are replaced, through `CardsDict.__setitem__` (MCNPinput.py:63-88), by the card without it. Assigning to an existing key
changes neither the number nor the order of the keys, so the loop over the dictionary is a loop over its list. -/
def deleteFills (strip : Card → Card) : Dict Str Card → Except PyErr (Dict Str Card)
  | [] => .ok []
  | (k, c) :: r =>
    match (if c.fill ≠ none then fixCard .cel (keyNum k) (strip c) else .ok c) with
    | .error e => .error e
    | .ok c' =>
      match deleteFills strip r with
      | .error e => .error e
      | .ok r' => .ok ((k, c') :: r')

/-! ### specification -/

/-- `c'` is the card `c` without its fill entry: no filling universe, the same number, density, cells, surfaces, materials and universe; what else went (the transformation in brackets of
the entry) was on the card. (specification) -/
structure FillRemoved (c c' : Card) : Prop where
  name : c'.name = c.name
  pre : c'.pre = c.pre
  post : c'.post = c.post
  numbered : c'.numbered = c.numbered
  dens : c'.dens = c.dens
  gone : c'.fill = none
  kept : ∀ k, k ≠ Kind.fill → k ≠ Kind.tr → c'.values.filter (fun v => decide (v.2 = k)) = c.values.filter (fun v => decide (v.2 = k))
  fewer : ∀ v ∈ c'.values, v ∈ c.values
  own : ∀ n k rest, c.values = (n, k) :: rest → k ≠ Kind.fill → k ≠ Kind.tr → ∃ rest', c'.values = (n, k) :: rest'

/-- the removal assumed of numjuggler (numjuggler, MCNPinput.py:1762-1773) -/
def Strips (strip : Card → Card) : Prop := ∀ c, c.fill ≠ none → FillRemoved c (strip c)

/-! ### lemmas -/

theorem first_filter (vs : List (ℤ × Kind)) (k : Kind) : first vs k = first (vs.filter (fun v => decide (v.2 = k))) k := by
  induction vs with
  | nil => rfl
  | cons v vs ih =>
    obtain ⟨v, k'⟩ := v
    by_cases h : k' = k
    · subst h; simp [first]
    · simp [first, h, ih]

theorem removed_first {c c' : Card} (h : FillRemoved c c') (k : Kind) (h1 : k ≠ .fill) (h2 : k ≠ .tr) : first c'.values k = first c.values k := by
  rw [first_filter, h.kept k h1 h2, ← first_filter]

theorem removed_mem {c c' : Card} (h : FillRemoved c c') {v : ℤ} {k : Kind} (h1 : k ≠ .fill) (h2 : k ≠ .tr) : (v, k) ∈ c'.values ↔ (v, k) ∈ c.values := by
  have e := h.kept k h1 h2
  have m1 : (v, k) ∈ c'.values.filter (fun v => decide (v.2 = k)) ↔ (v, k) ∈ c'.values := by simp
  have m2 : (v, k) ∈ c.values.filter (fun v => decide (v.2 = k)) ↔ (v, k) ∈ c.values := by simp
  rw [← m1, ← m2, e]

/-- the cards before and after, one by one (specification) -/
def FillCards (d e : Dict Str Card) : Prop :=
  List.Forall₂ (fun x y => y.1 = x.1 ∧ ((x.2.fill = none ∧ y.2 = x.2) ∨ (x.2.fill ≠ none ∧ FillRemoved x.2 y.2))) d e

theorem deleteFills_ok {strip : Card → Card} (hs : Strips strip) {d : Dict Str Card} (h : ∀ kc ∈ d, keyNum kc.1 = intStr kc.2.name) :
    ∃ e, deleteFills strip d = .ok e ∧ FillCards d e := by
  induction d with
  | nil => exact ⟨[], rfl, .nil⟩
  | cons x d ih =>
    obtain ⟨k, c⟩ := x
    obtain ⟨e, h1, h2⟩ := ih (fun q hq => h q (List.mem_cons_of_mem _ hq))
    have hk : keyNum k = intStr c.name := h (k, c) (by simp)
    by_cases hf : c.fill = none
    · refine ⟨(k, c) :: e, ?_, .cons ⟨rfl, Or.inl ⟨hf, rfl⟩⟩ h2⟩
      simp only [deleteFills, if_neg (not_not.2 hf), h1]
    · have hr := hs c hf
      have hx : fixCard .cel (keyNum k) (strip c) = .ok (strip c) := by
        unfold fixCard
        rw [if_pos (by rw [hk, hr.name])]
      refine ⟨(k, strip c) :: e, ?_, .cons ⟨rfl, Or.inr ⟨hf, hr⟩⟩ h2⟩
      simp only [deleteFills, ne_eq, if_pos hf, hx, h1]

theorem fill_keys {d e : Dict Str Card} (h : FillCards d e) : Dict.keys e = Dict.keys d := by
  induction h with
  | nil => rfl
  | cons h1 _ ih => simp only [Dict.keys, List.map_cons] at *; rw [ih, h1.1]

theorem fill_back {d e : Dict Str Card} (h : FillCards d e) {y : Str × Card} (hy : y ∈ e) :
    ∃ x ∈ d, y.1 = x.1 ∧ ((x.2.fill = none ∧ y.2 = x.2) ∨ (x.2.fill ≠ none ∧ FillRemoved x.2 y.2)) := by
  induction h with
  | nil => simp at hy
  | cons h1 _ ih =>
    rcases List.mem_cons.mp hy with rfl | hy
    · exact ⟨_, List.mem_cons_self, h1⟩
    · obtain ⟨x, hx, r⟩ := ih hy
      exact ⟨x, List.mem_cons_of_mem _ hx, r⟩

theorem fill_get {d e : Dict Str Card} (h : FillCards d e) {k : Str} {c : Card} (hc : d.get? k = some c) :
    ∃ c', e.get? k = some c' ∧ ((c.fill = none ∧ c' = c) ∨ (c.fill ≠ none ∧ FillRemoved c c')) := by
  induction h with
  | nil => simp [Dict.get?] at hc
  | @cons x y d e h1 _ ih =>
    obtain ⟨a, x⟩ := x
    obtain ⟨b, y⟩ := y
    obtain ⟨h1a, h1b⟩ := h1
    simp only at h1a h1b
    subst h1a
    simp only [Dict.get?] at hc ⊢
    by_cases hk : b = k
    · rw [if_pos hk] at hc ⊢
      simp only [Option.some.injEq] at hc
      subst hc
      exact ⟨y, rfl, h1b⟩
    · rw [if_neg hk] at hc ⊢
      exact ih hc

theorem nofill_card {d e : Dict Str Card} (h : FillCards d e) : ∀ kc ∈ e, kc.2.fill = none := by
  intro y hy
  obtain ⟨x, -, -, ⟨h1, h2⟩ | ⟨-, h2⟩⟩ := fill_back h hy
  · rw [h2]; exact h1
  · exact h2.gone

/-! ### C189 -/

/-- **C189** (what is deleted). In a complete model `delete_fill_cards` succeeds: the cells keep their keys and order; a cell without fill entry is as before, one with an entry is that cell without it; no cell
has a fill entry afterwards, and the model is complete. -/
theorem fills_deleted {strip : Card → Card} (hs : Strips strip) {m : Deck} (h : Complete m) :
    ∃ cs, deleteFills strip m.cells = .ok cs ∧ Dict.keys cs = Dict.keys m.cells ∧ (∀ kc ∈ cs, kc.2.fill = none) ∧
      (∀ k c, m.cells.get? k = some c → ∃ c', cs.get? k = some c' ∧ ((c.fill = none ∧ c' = c) ∨ (c.fill ≠ none ∧ FillRemoved c c'))) ∧
      Complete { m with cells := cs } := by
  obtain ⟨cs, h1, h2⟩ := deleteFills_ok hs (d := m.cells) (by
    intro kc hkc
    have := h.cells.key kc hkc
    have hp : kc.2.pre = [] := h.cells.mark kc hkc
    rw [this, hp]
    exact no_cell_star _)
  have hwf : cs.WF := by unfold Dict.WF; rw [fill_keys h2]; exact h.cells.wf
  refine ⟨cs, h1, fill_keys h2, nofill_card h2, fun k c hc => fill_get h2 hc, ?_⟩
  have back : ∀ y ∈ cs, ∃ x ∈ m.cells, y.1 = x.1 ∧ y.2.name = x.2.name ∧ y.2.pre = x.2.pre ∧ y.2.post = x.2.post ∧ y.2.numbered = x.2.numbered ∧
      (∀ v ∈ y.2.values, v ∈ x.2.values) ∧ (∀ n rest, x.2.values = (n, Kind.cel) :: rest → ∃ rest', y.2.values = (n, Kind.cel) :: rest') := by
    intro y hy
    obtain ⟨x, hx, e, ⟨-, hc⟩ | ⟨-, hc⟩⟩ := fill_back h2 hy
    · exact ⟨x, hx, e, by rw [hc], by rw [hc], by rw [hc], by rw [hc], by rw [hc]; exact fun _ h => h, by rw [hc]; exact fun _ r h => ⟨r, h⟩⟩
    · exact ⟨x, hx, e, hc.name, hc.pre, hc.post, hc.numbered, hc.fewer, fun n r hr => hc.own n .cel r hr (by decide) (by decide)⟩
  refine ⟨⟨hwf, ?_, ?_, ?_, ?_, ?_⟩, h.surfs, h.once, h.trs, h.mats, ?_, ?_, ?_, ?_, ?_⟩
  · intro y hy; obtain ⟨x, hx, h1, h2, h3, h4, h5, -⟩ := back y hy; rw [h2]; exact h.cells.pos x hx
  · intro y hy; obtain ⟨x, hx, h1, h2, h3, h4, h5, -⟩ := back y hy; rw [h1, h2, h3]; exact h.cells.key x hx
  · intro y hy; obtain ⟨x, hx, h1, h2, h3, h4, h5, -⟩ := back y hy; rw [h3]; exact h.cells.mark x hx
  · intro y hy; obtain ⟨x, hx, h1, h2, h3, h4, h5, -⟩ := back y hy; rw [h4, h5]; exact h.cells.plain x hx
  · intro y hy
    obtain ⟨x, hx, h1, h2, h3, h4, h5, h6, h7⟩ := back y hy
    obtain ⟨rest, hr⟩ := h.cells.own x hx
    rw [h2]; exact h7 _ _ hr
  · intro y hy v hv
    obtain ⟨x, hx, e1, e2, e3, e4, e5, e6, e7⟩ := back y hy
    obtain ⟨v0, d, hd⟩ := h.cellRefs x hx v (e6 _ hv)
    obtain ⟨c', hc', -⟩ := fill_get h2 hd
    exact ⟨v0, c', hc'⟩
  · intro y hy v hv
    rcases hy with hy | hy
    · obtain ⟨x, hx, e1, e2, e3, e4, e5, e6, e7⟩ := back y hy
      exact h.surfRefs x (Or.inl hx) v (e6 _ hv)
    · exact h.surfRefs y (Or.inr hy) v hv
  · intro y hy v hv h0
    obtain ⟨x, hx, e1, e2, e3, e4, e5, e6, e7⟩ := back y hy
    exact h.matRefs x hx v (e6 _ hv) h0
  · intro y hy f hf
    rw [nofill_card h2 y hy] at hf
    cases hf
  · intro y hy v hv h0
    rcases hy with hy | hy
    · obtain ⟨x, hx, e1, e2, e3, e4, e5, e6, e7⟩ := back y hy
      exact h.trRefs x (Or.inl hx) v (e6 _ hv) h0
    · exact h.trRefs y (Or.inr hy) v hv h0

/-- **C189** (once is enough). Deleting again changes nothing. -/
theorem fills_deleted_twice {strip strip' : Card → Card} {d : Dict Str Card} (h : ∀ kc ∈ d, kc.2.fill = none) : deleteFills strip' d = .ok d ∧ deleteFills strip d = .ok d := by
  have : ∀ s : Card → Card, deleteFills s d = .ok d := by
    intro s
    induction d with
    | nil => rfl
    | cons x d ih =>
      obtain ⟨k, c⟩ := x
      have hc : c.fill = none := h (k, c) (by simp)
      simp only [deleteFills, if_neg (not_not.2 hc), ih (fun q hq => h q (List.mem_cons_of_mem _ hq))]
  exact ⟨this _, this _⟩

theorem scan_nofill {cells : Dict Str Card} (h : ∀ kc ∈ cells, kc.2.fill = none) (fr : List ℤ) :
    scanFrontier cells true fr = scanFrontier cells false fr ∧ ∀ new uni, scanFrontier cells true fr = .ok (new, uni) → uni = [] := by
  induction fr with
  | nil => exact ⟨rfl, by intro n u hh; simp only [scanFrontier, Except.ok.injEq, Prod.mk.injEq] at hh; exact hh.2.symm⟩
  | cons n ns ih =>
    unfold scanFrontier
    cases hc : cells.get? (intStr n) with
    | none => exact ⟨rfl, by intro a b hh; cases hh⟩
    | some c =>
      have hf : c.fill = none := h _ (Dict.mem_of_get? hc)
      obtain ⟨i1, i2⟩ := ih
      simp only [← i1, hf]
      cases hs : scanFrontier cells true ns with
      | error e => exact ⟨rfl, by intro a b hh; cases hh⟩
      | ok p =>
        obtain ⟨new, uni⟩ := p
        have := i2 new uni hs
        subst this
        refine ⟨rfl, ?_⟩
        intro a b hh
        simp only [if_true, Except.ok.injEq, Prod.mk.injEq] at hh
        exact hh.2.symm

theorem cellsOf_nil (cells : Dict Str Card) : cellsOfUniverses [] cells = .ok [] := by
  induction cells with
  | nil => rfl
  | cons x d ih =>
    obtain ⟨k, c⟩ := x
    unfold cellsOfUniverses
    cases c.univ with
    | none => exact ih
    | some u => simp [ih]

/-- **C189** (nothing is filled). In a model without fill entries collecting the cells that others need finds the same cells, or fails in the same way, whether filling universes are followed or not: extraction with
and without them is the same. -/
theorem fills_not_followed {m : Deck} (h : ∀ kc ∈ m.cells, kc.2.fill = none) (req : List ℤ) (keep : Bool) (fuel : Nat) :
    extractCells m req keep true fuel = extractCells m req keep false fuel := by
  have loop : ∀ fuel cset fr, collectLoop m.cells true fuel cset fr = collectLoop m.cells false fuel cset fr := by
    intro fuel
    induction fuel with
    | zero => intro cset fr; rfl
    | succ fuel ih =>
      intro cset fr
      unfold collectLoop
      obtain ⟨s1, s2⟩ := scan_nofill h fr
      rw [← s1]
      cases hs : scanFrontier m.cells true fr with
      | error e => rfl
      | ok p =>
        obtain ⟨new, uni⟩ := p
        have := s2 new uni hs
        subst this
        simp only [if_true, cellsOf_nil, if_neg (by decide : ¬ (false = true)), ih]
  unfold extractCells extraction
  rw [loop]

/-- **C189** (extraction afterwards). After deleting the fill entries of a complete model, what `extract_cells` makes of it is complete, whether universes are kept or not, if the partners of periodic surfaces are needed. -/
theorem extracted_after {strip : Card → Card} (hs : Strips strip) {m : Deck} (h : Complete m) {cs : Dict Str Card} (hd : deleteFills strip m.cells = .ok cs)
    (req : List ℤ) (keep : Bool) (fuel : Nat) (hp : PartnersNeeded { m with cells := cs } req) {m' : Deck}
    (he : extractCells { m with cells := cs } req keep true fuel = .ok m') : Complete m' := by
  obtain ⟨cs', h1, -, h3, -, h5⟩ := fills_deleted hs h
  rw [hd] at h1
  simp only [Except.ok.injEq] at h1
  subst h1
  refine extracted_complete_partial h5 req keep fuel (Or.inr ?_) hp he
  intro n c f _ hc hf
  rw [h3 _ (Dict.mem_of_get? hc)] at hf
  cases hf

/-- the models made from complete models by any history of the operations of C186 and deletions of fill entries (specification) -/
inductive AssembledWith (strip : Card → Card) (num : Str → Option ℚ) (fmt : ℚ → Str) : Deck → Prop
  | model {m : Deck} : Complete m → AssembledWith strip num fmt m
  | renumbered {m m' : Deck} {o : Offsets} {all : Option ℤ} : AssembledWith strip num fmt m → Fits m (o.withAll all) →
      renumber m o all true = .ok m' → AssembledWith strip num fmt m'
  | merged {m o m' : Deck} : AssembledWith strip num fmt m → AssembledWith strip num fmt o → Apart m o → mergeUpdated m o = .ok (m', none) →
      AssembledWith strip num fmt m'
  | replaced {m : Deck} {new old : ℤ} {dens : Str} {ul : Option (List ℤ)} : AssembledWith strip num fmt m →
      (new ≠ 0 → ∃ x ∈ m.materials.mats, upper x.name = 'M' :: intStr new) →
      AssembledWith strip num fmt (replaceMaterial num m new dens old ul).1
  | scaled {m : Deck} {f : ℚ} {cs : Dict Str Card} : AssembledWith strip num fmt m → scaleDensities num fmt f m.cells = .ok cs →
      AssembledWith strip num fmt { m with cells := cs }
  | extracted {m m' : Deck} {req : List ℤ} {keep : Bool} {fuel : Nat} : AssembledWith strip num fmt m → FillsStay m req keep → PartnersNeeded m req →
      extractCells m req keep true fuel = .ok m' → AssembledWith strip num fmt m'
  | emptied {m : Deck} {cs : Dict Str Card} : AssembledWith strip num fmt m → deleteFills strip m.cells = .ok cs → AssembledWith strip num fmt { m with cells := cs }

/-- **C186**, **C189** (histories with deletions). However a model was made from complete models by renumbering, merging, replacing materials, scaling densities, deleting
fill entries and extracting cells, in any order, it is complete. -/
theorem assembledWith_complete {strip : Card → Card} (hs : Strips strip) {num : Str → Option ℚ} {fmt : ℚ → Str} {m : Deck} (h : AssembledWith strip num fmt m) :
    Complete m := by
  induction h with
  | model h => exact h
  | renumbered _ hf hr ih => exact assembled_complete (num := num) (fmt := fmt) (.renumbered (.model ih) hf hr)
  | merged _ _ ha hm ih1 ih2 => exact assembled_complete (num := num) (fmt := fmt) (.merged (.model ih1) (.model ih2) ha hm)
  | replaced _ hk ih => exact replaced_complete ih num _ _ _ _ hk
  | scaled _ hd ih => exact scaled_complete ih num fmt _ hd
  | extracted _ h1 h2 he ih => exact extracted_complete_partial ih _ _ _ h1 h2 he
  | emptied _ hd ih =>
    obtain ⟨cs, h1, -, -, -, h5⟩ := fills_deleted hs ih
    rw [hd] at h1
    exact (Except.ok.inj h1) ▸ h5

/-! ### a concrete case -/

/-- a removal as assumed: the fill values and the transformations behind the first of them go (example) -/
def stripDemo (c : Card) : Card :=
  { c with values := c.values.filter (fun v => decide (v.2 ≠ Kind.fill) && decide (v.2 ≠ Kind.tr)) }

theorem stripDemo_ok : Strips stripDemo := by
  intro c _
  refine ⟨rfl, rfl, rfl, rfl, rfl, ?_, ?_, ?_, ?_⟩
  · unfold Card.fill stripDemo
    rw [first_filter, List.filter_filter]
    have : c.values.filter (fun v => decide (v.2 = Kind.fill) && (decide (v.2 ≠ Kind.fill) && decide (v.2 ≠ Kind.tr))) = [] := by
      rw [List.filter_eq_nil_iff]
      intro v _
      by_cases h : v.2 = Kind.fill <;> simp [h]
    rw [this]
    rfl
  · intro k h1 h2
    unfold stripDemo
    rw [List.filter_filter]
    congr 1
    funext v
    by_cases h : v.2 = k
    · simp [h, h1, h2]
    · simp [h]
  · intro v hv
    exact (List.mem_filter.1 hv).1
  · intro n k rest h h1 h2
    unfold stripDemo
    rw [h]
    simp [h1, h2]

/-- a cell of universe 0 filled with universe 7 (transformation 3), and a cell of that universe -/
def fillCells : Dict Str Card :=
  [("1".toList, ⟨1, [], [], true, [(1, .cel), (0, .mat), (5, .sur), (7, .fill), (3, .tr)], none⟩),
   ("2".toList, ⟨2, [], [], true, [(2, .cel), (4, .mat), (5, .sur), (7, .u)], some "-7.8".toList⟩)]

example : deleteFills stripDemo fillCells = .ok
    [("1".toList, ⟨1, [], [], true, [(1, .cel), (0, .mat), (5, .sur)], none⟩),
     ("2".toList, ⟨2, [], [], true, [(2, .cel), (4, .mat), (5, .sur), (7, .u)], some "-7.8".toList⟩)] := by decide +kernel

example : collectLoop fillCells true 5 [1] [1] = .ok [1, 2] ∧ collectLoop fillCells false 5 [1] [1] = .ok [1] := by decide +kernel

/-- the complete model of C186 has a filled cell -/
example : ∃ cs, deleteFills stripDemo asmDemo.cells = .ok cs ∧ cs ≠ asmDemo.cells ∧ Complete { asmDemo with cells := cs } := by
  obtain ⟨cs, h1, -, h3, -, h5⟩ := fills_deleted stripDemo_ok asmDemo_complete
  refine ⟨cs, h1, ?_, h5⟩
  rintro rfl
  revert h3
  decide +kernel

/-- a history: the fill entries of the complete model of C186 are deleted, then everything is renumbered by 100 -/
example (num : Str → Option ℚ) (fmt : ℚ → Str) : ∃ cs m', deleteFills stripDemo asmDemo.cells = .ok cs ∧
    renumber { asmDemo with cells := cs } noOffsets (some 100) true = .ok m' ∧ AssembledWith stripDemo num fmt m' := by
  obtain ⟨cs, h1, -, -, -, h5⟩ := fills_deleted stripDemo_ok asmDemo_complete
  have hc : cs = match deleteFills stripDemo asmDemo.cells with | .ok c => c | .error _ => [] := by rw [h1]
  have hf : Fits { asmDemo with cells := cs } (noOffsets.withAll (some 100)) := by
    subst hc
    exact ⟨by decide +kernel, by decide +kernel, by decide +kernel⟩
  obtain ⟨m1, h6, -⟩ := renumbered_complete h5 noOffsets (some 100) hf
  exact ⟨cs, m1, h1, h6, .renumbered (.emptied (.model asmDemo_complete) h1) hf h6⟩

end F4Enix.Inp
