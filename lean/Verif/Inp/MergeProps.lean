import Verif.Inp.SelfContained
/-!
# Merging (C14, C15), card dictionaries (C17), material lists (C33)
-/
namespace F4Enix.Inp
open F4Enix

/-! ### dictionaries -/

theorem set_absent {ν : Type} (d : Dict Str ν) (k : Str) (v : ν) (h : k ∉ d.keys) : d.set k v = d ++ [(k, v)] := by
  induction d with
  | nil => rfl
  | cons kv r ih =>
    obtain ⟨k', v'⟩ := kv
    simp only [Dict.keys, List.map_cons, List.mem_cons, not_or] at h
    simp only [Dict.set, List.cons_append]
    rw [if_neg (fun e => h.1 e.symm), ih (by simpa [Dict.keys] using h.2)]

theorem get?_append {ν : Type} (d e : Dict Str ν) (k : Str) :
    Dict.get? (d ++ e) k = (d.get? k).or (e.get? k) := by
  induction d with
  | nil => simp
  | cons kv r ih =>
    obtain ⟨k', v'⟩ := kv
    simp only [List.cons_append, Dict.get?]
    by_cases h : k' = k
    · simp [h]
    · simp only [if_neg h]; exact ih

theorem keys_append {ν : Type} (d e : Dict Str ν) : Dict.keys (d ++ e) = d.keys ++ e.keys := by
  simp [Dict.keys]

/-- the union of two dictionaries without common keys (specification) -/
def Disjoint' (d e : Dict Str Card) : Prop := ∀ k ∈ e.keys, k ∉ d.keys

/-- the key names the number of the card, and that is the number printed on the card (specification) -/
def Named (kind : Kind) (d : Dict Str Card) : Prop :=
  ∀ kc ∈ d, parseInt (keyNum kc.1) = some kc.2.name ∧ first kc.2.values kind = some kc.2.name

theorem setFirst_self (vs : List (ℤ × Kind)) (k : Kind) (n : ℤ) (h : first vs k = some n) :
    setFirst vs k n = vs := by
  induction vs with
  | nil => rfl
  | cons v r ih =>
    obtain ⟨w, k'⟩ := v
    unfold setFirst
    by_cases hk : k' = k
    · simp only [first, if_pos hk, Option.some.injEq] at h
      rw [if_pos hk, h, hk]
    · simp only [first, if_neg hk] at h
      rw [if_neg hk, ih h]

theorem fixCard_ok {kind : Kind} {num : Str} {c : Card}
    (h : parseInt num = some c.name ∧ first c.values kind = some c.name) :
    fixCard kind num c = .ok c := by
  unfold fixCard
  by_cases hn : num = intStr c.name
  · rw [if_pos hn]
  · rw [if_neg hn]; simp only [h.1, setFirst_self _ _ _ h.2]

theorem safeUpdateCards_ok (kind : Kind) (d e : Dict Str Card) (he : e.WF) (hk : Named kind e)
    (hd : Disjoint' d e) : safeUpdateCards kind d e = (d ++ e, none) := by
  induction e generalizing d with
  | nil => simp [safeUpdateCards]
  | cons kv r ih =>
    obtain ⟨k, v⟩ := kv
    have h1 : k ∉ d.keys := hd k (by simp [Dict.keys])
    have h2 : d.has k = false := by
      rw [Bool.eq_false_iff]; intro h; exact h1 ((Dict.has_iff d k).mp h)
    have h3 := hk (k, v) (by simp)
    unfold safeUpdateCards
    rw [h2]
    simp only [Bool.false_eq_true, if_false, setItem, fixCard_ok h3]
    rw [set_absent d k v h1]
    simp only [Dict.WF, Dict.keys, List.map_cons, List.nodup_cons] at he
    rw [ih (d ++ [(k, v)]) he.2 (fun x hx => hk x (List.mem_cons_of_mem _ hx))]
    · simp
    · intro k' hk'
      rw [keys_append, List.mem_append, not_or]
      refine ⟨hd k' (by simp only [Dict.keys, List.map_cons, List.mem_cons]; exact Or.inr hk'), ?_⟩
      simp only [Dict.keys, List.map_cons, List.map_nil, List.mem_singleton]
      rintro rfl
      exact he.1 hk'

theorem safeUpdate_ok (d e : Dict Str Card) (he : e.WF) (hd : Disjoint' d e) :
    safeUpdate d e = (d ++ e, none) := by
  induction e generalizing d with
  | nil => simp [safeUpdate]
  | cons kv r ih =>
    obtain ⟨k, v⟩ := kv
    have h1 : k ∉ d.keys := hd k (by simp [Dict.keys])
    have h2 : d.has k = false := by
      rw [Bool.eq_false_iff]; intro h; exact h1 ((Dict.has_iff d k).mp h)
    unfold safeUpdate
    rw [h2]
    simp only [Bool.false_eq_true, if_false]
    rw [set_absent d k v h1]
    simp only [Dict.WF, Dict.keys, List.map_cons, List.nodup_cons] at he
    rw [ih (d ++ [(k, v)]) he.2]
    · simp
    · intro k' hk'
      rw [keys_append, List.mem_append, not_or]
      refine ⟨hd k' (by simp only [Dict.keys, List.map_cons, List.mem_cons]; exact Or.inr hk'), ?_⟩
      simp only [Dict.keys, List.map_cons, List.map_nil, List.mem_singleton]
      rintro rfl
      exact he.1 hk'

/-- a common key is always detected -/
theorem safeUpdateCards_clash (kind : Kind) (d e : Dict Str Card) (hk : Named kind e)
    (k : Str) (h1 : k ∈ e.keys) (h2 : k ∈ d.keys) : (safeUpdateCards kind d e).2 = some .keyError := by
  induction e generalizing d with
  | nil => simp [Dict.keys] at h1
  | cons kv r ih =>
    obtain ⟨k', v⟩ := kv
    unfold safeUpdateCards
    by_cases hh : d.has k' = true
    · rw [if_pos hh]
    · rw [if_neg hh]
      have h3 := hk (k', v) (by simp)
      simp only [setItem, fixCard_ok h3]
      have hne : k ≠ k' := by rintro rfl; exact hh ((Dict.has_iff d k).mpr h2)
      simp only [Dict.keys, List.map_cons, List.mem_cons] at h1
      rcases h1 with h1 | h1
      · exact absurd h1 hne
      · exact ih _ (fun x hx => hk x (List.mem_cons_of_mem _ hx)) h1 (by
          rw [Dict.mem_keys_set]; exact Or.inr h2)

theorem safeUpdate_clash (d e : Dict Str Card)
    (k : Str) (h1 : k ∈ e.keys) (h2 : k ∈ d.keys) : (safeUpdate d e).2 = some .keyError := by
  induction e generalizing d with
  | nil => simp [Dict.keys] at h1
  | cons kv r ih =>
    obtain ⟨k', v⟩ := kv
    unfold safeUpdate
    by_cases hh : d.has k' = true
    · rw [if_pos hh]
    · rw [if_neg hh]
      have hne : k ≠ k' := by rintro rfl; exact hh ((Dict.has_iff d k).mpr h2)
      simp only [Dict.keys, List.map_cons, List.mem_cons] at h1
      rcases h1 with h1 | h1
      · exact absurd h1 hne
      · exact ih _ h1 (by rw [Dict.mem_keys_set]; exact Or.inr h2)

/-- cards already there are never touched -/
theorem safeUpdateCards_keeps (kind : Kind) (d e : Dict Str Card) (k : Str) (c : Card)
    (h : d.get? k = some c) : (safeUpdateCards kind d e).1.get? k = some c := by
  induction e generalizing d with
  | nil => simpa [safeUpdateCards] using h
  | cons kv r ih =>
    obtain ⟨k', v⟩ := kv
    unfold safeUpdateCards
    by_cases hh : d.has k' = true
    · rw [if_pos hh]; exact h
    · rw [if_neg hh]
      cases hs : setItem kind d k' v with
      | error e => exact h
      | ok d' =>
        refine ih d' ?_
        unfold setItem at hs
        cases hf : fixCard kind (keyNum k') v with
        | error e => simp [hf] at hs
        | ok v' =>
          simp only [hf, Except.ok.injEq] at hs
          subst hs
          rw [Dict.get?_set]
          split
          · rename_i e
            subst e
            exfalso
            apply hh
            simp [Dict.has, h]
          · exact h

theorem safeUpdate_keeps (d e : Dict Str Card) (k : Str) (c : Card)
    (h : d.get? k = some c) : (safeUpdate d e).1.get? k = some c := by
  induction e generalizing d with
  | nil => simpa [safeUpdate] using h
  | cons kv r ih =>
    obtain ⟨k', v⟩ := kv
    unfold safeUpdate
    by_cases hh : d.has k' = true
    · rw [if_pos hh]; exact h
    · rw [if_neg hh]
      refine ih _ ?_
      rw [Dict.get?_set]
      split
      · rename_i e
        subst e
        exfalso
        apply hh
        simp [Dict.has, h]
      · exact h

/-! ### C14 -/

/-- a model whose card dictionaries are as F4Enix keeps them: keys distinct and naming the cards (specification) -/
structure Consistent (m : Deck) : Prop where
  cells : m.cells.WF
  surfs : m.surfs.WF
  trs : m.transformations.WF
  other : m.other.WF
  cellKeys : Named .cel m.cells
  surfKeys : Named .sur m.surfs

/-- `u` is the union of `d` and `e`: every key of either, with the card it has there (specification) -/
def IsUnion (u d e : Dict Str Card) : Prop :=
  (∀ k c, u.get? k = some c ↔ d.get? k = some c ∨ e.get? k = some c) ∧ u.keys = d.keys ++ e.keys

theorem isUnion_append (d e : Dict Str Card) (hd : Disjoint' d e) : IsUnion (d ++ e) d e := by
  refine ⟨fun k c => ?_, keys_append d e⟩
  rw [get?_append]
  cases h1 : d.get? k with
  | none => simp
  | some c' =>
    have : e.get? k = none := by
      rw [Dict.get?_eq_none_iff]
      intro hk
      have h2 : d.get? k = none := (Dict.get?_eq_none_iff d k).mpr (hd k hk)
      rw [h1] at h2; simp at h2
    simp [this]

/-- **C14**. If no number is used by both models, `merge` succeeds and cells, surfaces and
transformations are exactly the union of both, each with the card it had; the materials of the other
model whose names are new are added after the old ones, data cards of the other model win. -/
theorem c14_merge (m o : Deck) (ho : Consistent o) (h1 : Disjoint' m.cells o.cells)
    (h2 : Disjoint' m.surfs o.surfs) (h3 : Disjoint' m.transformations o.transformations) :
    ∃ m', merge m o = (m', none) ∧ IsUnion m'.cells m.cells o.cells ∧ IsUnion m'.surfs m.surfs o.surfs ∧
      IsUnion m'.transformations m.transformations o.transformations ∧
      m'.materials.mats = m.materials.mats ++
        o.materials.mats.filter (fun x => !m.materials.dic.has (upper x.name)) ∧
      (∀ k, m'.other.get? k = (o.other.get? k).or (m.other.get? k)) ∧
      m'.tallyKeys = m.tallyKeys ++ o.tallyKeys ∧ m'.fmeshKeys = m.fmeshKeys ++ o.fmeshKeys ∧
      m'.header = m.header := by
  refine ⟨{ m with
    cells := m.cells ++ o.cells, surfs := m.surfs ++ o.surfs,
    materials := m.materials.extend o.materials.mats,
    transformations := m.transformations ++ o.transformations,
    other := m.other.update o.other, tallyKeys := m.tallyKeys ++ o.tallyKeys,
    fmeshKeys := m.fmeshKeys ++ o.fmeshKeys }, ?_, ?_⟩
  · unfold merge
    rw [safeUpdateCards_ok .cel _ _ ho.cells ho.cellKeys h1]
    simp only
    rw [safeUpdateCards_ok .sur _ _ ho.surfs ho.surfKeys h2]
    simp only
    rw [safeUpdate_ok _ _ ho.trs h3]
  · refine ⟨isUnion_append _ _ h1, isUnion_append _ _ h2, isUnion_append _ _ h3, rfl, ?_, rfl, rfl, rfl⟩
    intro k
    simp only
    rw [Dict.get?_update _ ho.other]

/-- **C14** (refusals). If a cell, surface or transformation number is used by both models, `merge`
raises `KeyError`. -/
theorem c14_refused (m o : Deck) (ho : Consistent o) (k : Str)
    (h : (k ∈ o.cells.keys ∧ k ∈ m.cells.keys) ∨ (k ∈ o.surfs.keys ∧ k ∈ m.surfs.keys) ∨
      (k ∈ o.transformations.keys ∧ k ∈ m.transformations.keys)) :
    (merge m o).2 = some .keyError := by
  by_cases hc : ∃ k, k ∈ o.cells.keys ∧ k ∈ m.cells.keys
  · obtain ⟨k', a, b⟩ := hc
    have := safeUpdateCards_clash .cel m.cells o.cells ho.cellKeys k' a b
    unfold merge
    rcases hs : safeUpdateCards .cel m.cells o.cells with ⟨d, e⟩
    rw [hs] at this
    simp only at this
    subst this
    rfl
  · have h1 : Disjoint' m.cells o.cells := fun k hk hk' => hc ⟨k, hk, hk'⟩
    unfold merge
    rw [safeUpdateCards_ok .cel _ _ ho.cells ho.cellKeys h1]
    simp only
    by_cases hs : ∃ k, k ∈ o.surfs.keys ∧ k ∈ m.surfs.keys
    · obtain ⟨k', a, b⟩ := hs
      have := safeUpdateCards_clash .sur m.surfs o.surfs ho.surfKeys k' a b
      rcases hs : safeUpdateCards .sur m.surfs o.surfs with ⟨d, e⟩
      rw [hs] at this
      simp only at this
      subst this
      rfl
    · have h2 : Disjoint' m.surfs o.surfs := fun k hk hk' => hs ⟨k, hk, hk'⟩
      rw [safeUpdateCards_ok .sur _ _ ho.surfs ho.surfKeys h2]
      simp only
      rcases h with h | h | h
      · exact absurd ⟨k, h⟩ hc
      · exact absurd ⟨k, h⟩ hs
      · have := safeUpdate_clash m.transformations o.transformations k h.1 h.2
        rcases hs : safeUpdate m.transformations o.transformations with ⟨d, e⟩
        rw [hs] at this
        simp only at this
        subst this
        rfl

/-! ### C15 -/

/-- **C15** (the part that is true). A refused merge loses nothing: every cell, surface and
transformation of the model is still there with its card, its materials are still there in order, its
other data, tallies and meshes are untouched. (Missing for the full property: the model may have gained cards of the other
one, see `c15_not_atomic`.) -/
theorem c15_keeps_partial (m o : Deck) (m' : Deck) (e : PyErr) (h : merge m o = (m', some e)) :
    (∀ k c, m.cells.get? k = some c → m'.cells.get? k = some c) ∧
    (∀ k c, m.surfs.get? k = some c → m'.surfs.get? k = some c) ∧
    (∀ k c, m.transformations.get? k = some c → m'.transformations.get? k = some c) ∧
    (∃ l, m'.materials.mats = m.materials.mats ++ l) ∧
    m'.other = m.other ∧ m'.tallyKeys = m.tallyKeys ∧ m'.fmeshKeys = m.fmeshKeys ∧ m'.header = m.header := by
  have k1 := safeUpdateCards_keeps .cel m.cells o.cells
  have k2 := safeUpdateCards_keeps .sur m.surfs o.surfs
  have k3 := safeUpdate_keeps m.transformations o.transformations
  unfold merge at h
  rcases hc : safeUpdateCards .cel m.cells o.cells with ⟨dc, ec⟩
  rw [hc] at h k1
  cases ec with
  | some e1 =>
    simp only [Prod.mk.injEq] at h
    obtain ⟨rfl, _⟩ := h
    exact ⟨k1, fun _ _ h => h, fun _ _ h => h, ⟨[], by simp⟩, rfl, rfl, rfl, rfl⟩
  | none =>
    simp only at h
    rcases hs : safeUpdateCards .sur m.surfs o.surfs with ⟨ds, es⟩
    rw [hs] at h k2
    cases es with
    | some e1 =>
      simp only [Prod.mk.injEq] at h
      obtain ⟨rfl, _⟩ := h
      exact ⟨k1, k2, fun _ _ h => h, ⟨[], by simp⟩, rfl, rfl, rfl, rfl⟩
    | none =>
      simp only at h
      rcases ht : safeUpdate m.transformations o.transformations with ⟨dt, et⟩
      rw [ht] at h k3
      cases et with
      | some e1 =>
        simp only [Prod.mk.injEq] at h
        obtain ⟨rfl, _⟩ := h
        exact ⟨k1, k2, k3, ⟨_, rfl⟩, rfl, rfl, rfl, rfl⟩
      | none => simp at h

/-- **C15** (the true part, unchanged models). If the very first cell of the other model is the one
that clashes, the refused merge changes nothing. -/
theorem c15_first_clash_partial (m o : Deck) (k : Str) (c : Card) (r : Dict Str Card)
    (ho : o.cells = (k, c) :: r) (hk : k ∈ m.cells.keys) : merge m o = (m, some .keyError) := by
  unfold merge
  rw [ho]
  unfold safeUpdateCards
  rw [if_pos ((Dict.has_iff m.cells k).mpr hk)]

/-- two models with different cells but a common surface (example) -/
def mergeDemo (cell surf : ℤ) : Deck where
  cells := [(intStr cell, mkCell cell 0 none [surf] [] none none)]
  surfs := [(intStr surf, ⟨surf, [], [], true, [(surf, .sur)], none⟩)]
  materials := mkMatList []
  transformations := []
  other := []
  tallyKeys := []
  fmeshKeys := []
  header := []

theorem c15_demo_consistent (cell surf : ℤ) (hc : '*' ∉ intStr cell) (hs : '*' ∉ intStr surf) :
    Consistent (mergeDemo cell surf) := by
  refine ⟨by simp [Dict.WF, Dict.keys, mergeDemo], by simp [Dict.WF, Dict.keys, mergeDemo],
    by simp [Dict.WF, Dict.keys, mergeDemo], by simp [Dict.WF, Dict.keys, mergeDemo], ?_, ?_⟩
  · intro kc h; simp only [mergeDemo, List.mem_singleton] at h; subst h; simp [keyNum, hc, mkCell, parseInt_intStr, first]
  · intro kc h; simp only [mergeDemo, List.mem_singleton] at h; subst h; simp [keyNum, hs, parseInt_intStr, first]

/-- **C15** is false of the code: a merge refused because of a common surface has already added the
cells. -/
theorem c15_not_atomic : ∃ m o m', Consistent m ∧ Consistent o ∧ merge m o = (m', some .keyError) ∧
    m' ≠ m ∧ m'.cells.keys = m.cells.keys ++ o.cells.keys := by
  refine ⟨mergeDemo 1 5, mergeDemo 2 5, (merge (mergeDemo 1 5) (mergeDemo 2 5)).1,
    c15_demo_consistent 1 5 (by decide) (by decide), c15_demo_consistent 2 5 (by decide) (by decide), ?_, ?_, ?_⟩
  · decide +kernel
  · decide +kernel
  · decide +kernel

/-- the hypotheses of `c14_merge` are met by models with different numbers -/
example : Disjoint' (mergeDemo 1 5).cells (mergeDemo 2 6).cells ∧ Consistent (mergeDemo 2 6) ∧
    (merge (mergeDemo 1 5) (mergeDemo 2 6)).2 = none := by
  exact ⟨by unfold Disjoint'; decide, c15_demo_consistent 2 6 (by decide) (by decide), by decide +kernel⟩

/-! ### C17 -/

/-- operations on a card dictionary of a model (specification) -/
inductive DictOp where
  | set (key : Str) (card : Card)
  | del (key : Str)
  | assign (cards : Dict Str Card)
  /-- `dict.update(other)` (MCNPinput.py:58-61) -/
  | update (cards : Dict Str Card)

/-- `CardsDict.update` (MCNPinput.py:58-61): item by item; stops at the first error -/
def updateItems (kind : Kind) (d : Dict Str Card) : Dict Str Card → Dict Str Card × Option PyErr
  | [] => (d, none)
  | (k, c) :: r =>
    match setItem kind d k c with
    | .error e => (d, some e)
    | .ok d => updateItems kind d r

/-- one operation; the dictionary as it is afterwards and the exception, if any
(`del d[k]` raises `KeyError`) (specification) -/
def dictStep (kind : Kind) (numOf : Str → Str) (d : Dict Str Card) : DictOp → Dict Str Card × Option PyErr
  | .set k c => match setItem kind d k c with
    | .error e => (d, some e)
    | .ok d => (d, none)
  | .del k => if d.has k then (d.del k, none) else (d, some .keyError)
  | .assign cs => match setCards kind numOf cs with
    | .error e => (d, some e)
    | .ok cs => (cs, none)
  | .update cs => updateItems kind d cs

/-- the card carries its number consistently (specification) -/
def CardOk (kind : Kind) (c : Card) : Prop := first c.values kind = some c.name

/-- the cards given to the operation are well formed (specification) -/
def DictOp.Ok (kind : Kind) : DictOp → Prop
  | .set _ c => CardOk kind c
  | .del _ => True
  | .assign cs => ∀ kc ∈ cs, CardOk kind kc.2
  | .update cs => ∀ kc ∈ cs, CardOk kind kc.2

theorem first_setFirst (vs : List (ℤ × Kind)) (k : Kind) (n : ℤ) (h : (first vs k).isSome) :
    first (setFirst vs k n) k = some n := by
  induction vs with
  | nil => simp [first] at h
  | cons v r ih =>
    obtain ⟨w, k'⟩ := v
    unfold setFirst
    by_cases hk : k' = k
    · simp [hk, first]
    · rw [if_neg hk]
      simp only [first, if_neg hk] at h ⊢
      exact ih h

theorem fixCard_named {kind : Kind} {num : Str} {c c' : Card} (hc : CardOk kind c)
    (h : fixCard kind num c = .ok c') :
    parseInt num = some c'.name ∧ first c'.values kind = some c'.name := by
  unfold fixCard at h
  by_cases hn : num = intStr c.name
  · rw [if_pos hn] at h
    simp only [Except.ok.injEq] at h
    subst h
    exact ⟨by rw [hn, parseInt_intStr], hc⟩
  · rw [if_neg hn] at h
    cases hp : parseInt num with
    | none => simp [hp] at h
    | some n =>
      simp only [hp, Except.ok.injEq] at h
      subst h
      exact ⟨rfl, first_setFirst _ _ _ (by rw [hc]; rfl)⟩

theorem named_set {kind : Kind} {d : Dict Str Card} (hd : Named kind d) {k : Str} {c : Card}
    (h : parseInt (keyNum k) = some c.name ∧ first c.values kind = some c.name) : Named kind (d.set k c) := by
  intro kc hkc
  have : kc = (k, c) ∨ kc ∈ d := by
    clear hd h
    induction d with
    | nil => simp [Dict.set] at hkc; exact Or.inl hkc
    | cons kv r ih =>
      obtain ⟨k', v⟩ := kv
      unfold Dict.set at hkc
      by_cases hk : k' = k
      · rw [if_pos hk] at hkc
        rcases List.mem_cons.mp hkc with h | h
        · left; rw [h, hk]
        · right; exact List.mem_cons_of_mem _ h
      · rw [if_neg hk] at hkc
        rcases List.mem_cons.mp hkc with h | h
        · right; rw [h]; simp
        · rcases ih h with h | h
          · exact Or.inl h
          · exact Or.inr (List.mem_cons_of_mem _ h)
  rcases this with rfl | h'
  · exact h
  · exact hd kc h'

theorem setItem_named {kind : Kind} {d d' : Dict Str Card} (hd : Named kind d) {k : Str} {c : Card}
    (hc : CardOk kind c) (h : setItem kind d k c = .ok d') : Named kind d' := by
  unfold setItem at h
  cases hf : fixCard kind (keyNum k) c with
  | error e => simp [hf] at h
  | ok c' =>
    simp only [hf, Except.ok.injEq] at h
    subst h
    exact named_set hd (fixCard_named hc hf)

theorem setCards_named {kind : Kind} {numOf : Str → Str}
    (hnum : ∀ k n, parseInt (numOf k) = some n → parseInt (keyNum k) = some n)
    (cs cs' : Dict Str Card) (hc : ∀ kc ∈ cs, CardOk kind kc.2) (h : setCards kind numOf cs = .ok cs') :
    Named kind cs' := by
  induction cs generalizing cs' with
  | nil => simp [setCards] at h; subst h; simp [Named]
  | cons kc r ih =>
    obtain ⟨k, c⟩ := kc
    unfold setCards at h
    cases hf : fixCard kind (numOf k) c with
    | error e => simp [hf] at h
    | ok c' =>
      simp only [hf] at h
      cases hr : setCards kind numOf r with
      | error e => simp [hr] at h
      | ok r' =>
        simp only [hr, Except.ok.injEq] at h
        subst h
        intro x hx
        rcases List.mem_cons.mp hx with rfl | hx
        · have := fixCard_named (hc (k, c) (by simp)) hf
          exact ⟨hnum k _ this.1, this.2⟩
        · exact ih r' (fun y hy => hc y (List.mem_cons_of_mem _ hy)) hr x hx

theorem dictStep_named {kind : Kind} {numOf : Str → Str}
    (hnum : ∀ k n, parseInt (numOf k) = some n → parseInt (keyNum k) = some n)
    (d : Dict Str Card) (hd : Named kind d) (op : DictOp) (hop : op.Ok kind) :
    Named kind (dictStep kind numOf d op).1 := by
  cases op with
  | set k c =>
    cases h : setItem kind d k c with
    | error e => simp only [dictStep, h]; exact hd
    | ok d' => simp only [dictStep, h]; exact setItem_named hd hop h
  | del k =>
    unfold dictStep
    by_cases hh : d.has k = true
    · simp only [hh, if_true]
      intro kc hkc
      refine hd kc ?_
      clear hd hh
      induction d with
      | nil => simp [Dict.del] at hkc
      | cons kv r ih =>
        obtain ⟨k', v⟩ := kv
        unfold Dict.del at hkc
        by_cases hk : k' = k
        · rw [if_pos hk] at hkc; exact List.mem_cons_of_mem _ hkc
        · rw [if_neg hk] at hkc
          rcases List.mem_cons.mp hkc with h | h
          · rw [h]; simp
          · exact List.mem_cons_of_mem _ (ih h)
    · simp only [hh]; exact hd
  | assign cs =>
    cases h : setCards kind numOf cs with
    | error e => simp only [dictStep, h]; exact hd
    | ok cs' => simp only [dictStep, h]; exact setCards_named hnum cs cs' hop h
  | update cs =>
    unfold dictStep
    simp only
    have hop' : ∀ kc ∈ cs, CardOk kind kc.2 := hop
    clear hop
    induction cs generalizing d with
    | nil => simpa [updateItems] using hd
    | cons kc r ih =>
      obtain ⟨k, c⟩ := kc
      unfold updateItems
      cases h : setItem kind d k c with
      | error e => exact hd
      | ok d' =>
        exact ih d' (setItem_named hd (hop' (k, c) (by simp)) h) (fun y hy => hop' y (List.mem_cons_of_mem _ hy))

theorem keyNum_id_ok (k : Str) (n : ℤ) (h : parseInt k = some n) : parseInt (keyNum k) = some n := by
  unfold keyNum
  by_cases hs : '*' ∈ k
  · exfalso
    have hstrip : '*' ∈ strip k := by
      have hd : ∀ s : Str, '*' ∈ s → '*' ∈ s.dropWhile isSpace := by
        intro s hs
        induction s with
        | nil => simp at hs
        | cons c s ih =>
          by_cases hc : isSpace c = true
          · rw [List.dropWhile_cons_of_pos hc]
            rcases List.mem_cons.mp hs with h | h
            · subst h; simp [isSpace] at hc
            · exact ih h
          · rw [List.dropWhile_cons_of_neg hc]; exact hs
      unfold strip rstrip lstrip
      rw [List.mem_reverse]
      exact hd _ (by rw [List.mem_reverse]; exact hd _ hs)
    have nodig : ∀ l : Str, '*' ∈ l → l.all isDigit = false := by
      intro l hl
      rw [Bool.eq_false_iff]
      intro hall
      have := List.all_eq_true.mp hall '*' hl
      simp [isDigit] at this
    unfold parseInt at h
    cases hk : strip k with
    | nil => rw [hk] at hstrip; simp at hstrip
    | cons c cs =>
      rw [hk] at hstrip h
      simp only at h
      have tail : c ≠ '*' → '*' ∈ cs := fun hne => by
        rcases List.mem_cons.mp hstrip with e | e
        · exact absurd e.symm hne
        · exact e
      by_cases h1 : c = '-'
      · rw [if_pos h1, if_neg] at h
        · simp at h
        · rintro ⟨_, h2⟩; rw [nodig cs (tail (by rw [h1]; decide))] at h2; simp at h2
      · rw [if_neg h1] at h
        by_cases h3 : c = '+'
        · rw [if_pos h3, if_neg] at h
          · simp at h
          · rintro ⟨_, h2⟩; rw [nodig cs (tail (by rw [h3]; decide))] at h2; simp at h2
        · rw [if_neg h3, if_neg] at h
          · simp at h
          · rw [nodig _ hstrip]; simp
  · rw [if_neg hs]; exact h

/-- **C17**. After any sequence of item assignments, deletions, updates and whole-dictionary
assignments on the cells (`numOf = id`) or the surfaces (`numOf = keyNum`) of a model, successful or
refused, every key names the number of the card stored there and that is the number on the card. -/
theorem c17_named (kind : Kind) (numOf : Str → Str) (hnum : numOf = id ∨ numOf = keyNum)
    (d : Dict Str Card) (hd : Named kind d) (ops : List DictOp) (hops : ∀ op ∈ ops, op.Ok kind) :
    Named kind (ops.foldl (fun d op => (dictStep kind numOf d op).1) d) := by
  have hn : ∀ k n, parseInt (numOf k) = some n → parseInt (keyNum k) = some n := by
    rcases hnum with rfl | rfl
    · exact keyNum_id_ok
    · exact fun _ _ h => h
  induction ops generalizing d with
  | nil => exact hd
  | cons op ops ih =>
    exact ih _ (dictStep_named hn d hd op (hops op (by simp))) (fun o ho => hops o (List.mem_cons_of_mem _ ho))

/-- assigning a card under another number renumbers the card; a key without a number is refused -/
example : dictStep .cel id [] (.set "12".toList (mkCell 3 0 none [5] [] none none)) =
      ([("12".toList, mkCell 12 0 none [5] [] none none)], none) ∧
    dictStep .cel id [] (.set "abc".toList (mkCell 3 0 none [5] [] none none)) = ([], some .valueError) ∧
    (dictStep .sur keyNum [] (.set "*12".toList ⟨3, [], [], true, [(3, .sur)], none⟩)).1 =
      [("*12".toList, ⟨12, [], [], true, [(12, .sur)], none⟩)] := by decide +kernel

/-! ### C33 -/

/-- operations on a list of materials (specification) -/
inductive MatOp where
  | append (m : Mat)
  | extend (ms : List Mat)
  | remove (m : Mat)

/-- one operation; a refused one leaves the list as it is (specification) -/
def matStep (l : MatList) : MatOp → MatList
  | .append m => l.append m
  | .extend ms => l.extend ms
  | .remove m => match l.remove m with
    | .ok l => l
    | .error _ => l

theorem computeDic_spec (ms : List Mat) (d : Dict Str Mat) (k : Str) :
    (ms.foldl (fun d m => d.set (upper m.name) m) d).get? k =
      ((ms.reverse.find? (fun m => upper m.name = k)).or (d.get? k)) := by
  induction ms generalizing d with
  | nil => simp
  | cons m ms ih =>
    simp only [List.foldl_cons, List.reverse_cons, List.find?_append]
    rw [ih, Dict.get?_set]
    cases h : ms.reverse.find? (fun m => decide (upper m.name = k)) with
    | some x => simp
    | none =>
      by_cases hk : upper m.name = k
      · simp [hk]
      · simp [hk]

/-- the dictionary is the one of the list (specification) -/
def MatList.Synced (l : MatList) : Prop := l.dic = computeDic l.mats

/-- **C33**. After any sequence of append, extend and remove operations, looking a name up
(case-insensitively) succeeds exactly if the list has a material of that name, and gives the last one;
looking an index up gives the list element. -/
theorem c33_lookup (ms : List Mat) (ops : List MatOp) :
    let l := ops.foldl matStep (mkMatList ms)
    (∀ k x, l.byName k = .ok x → x ∈ l.mats ∧ upper x.name = upper k) ∧
    (∀ k, (∃ x ∈ l.mats, upper x.name = upper k) → ∃ x, l.byName k = .ok x) ∧
    (∀ pre x post, l.mats = pre ++ x :: post → (∀ y ∈ post, upper y.name ≠ upper x.name) →
      l.byName x.name = .ok x) ∧
    (∀ i : Nat, ∀ x, l.byIndex i = .ok x ↔ l.mats[i]? = some x) := by
  have synced : ∀ (ops : List MatOp) (l : MatList), l.Synced → (ops.foldl matStep l).Synced := by
    intro ops
    induction ops with
    | nil => intro l h; exact h
    | cons op ops ih =>
      intro l h
      refine ih _ ?_
      cases op with
      | append m => rfl
      | extend ms => rfl
      | remove m =>
        unfold matStep MatList.remove
        by_cases hm : m ∈ l.mats
        · simp only [if_pos hm]; rfl
        · simp only [if_neg hm]; exact h
  intro l
  have hl : l.Synced := synced ops _ rfl
  have get : ∀ k, l.dic.get? k = l.mats.reverse.find? (fun m => upper m.name = k) := by
    intro k
    rw [hl]
    unfold computeDic
    rw [computeDic_spec]
    simp
  refine ⟨?_, ?_, ?_, ?_⟩
  · intro k x h
    unfold MatList.byName at h
    rw [get] at h
    cases hf : l.mats.reverse.find? (fun m => upper m.name = upper k) with
    | none => simp [hf] at h
    | some y =>
      simp only [hf, Except.ok.injEq] at h
      subst h
      exact ⟨List.mem_reverse.mp (List.mem_of_find?_eq_some hf), by simpa using List.find?_some hf⟩
  · rintro k ⟨x, hx, he⟩
    unfold MatList.byName
    rw [get]
    cases hf : l.mats.reverse.find? (fun m => upper m.name = upper k) with
    | none =>
      have := List.find?_eq_none.mp hf x (List.mem_reverse.mpr hx)
      simp [he] at this
    | some y => exact ⟨y, rfl⟩
  · intro pre x post heq hpost
    unfold MatList.byName
    rw [get, heq]
    have : (pre ++ x :: post).reverse.find? (fun m => upper m.name = upper x.name) = some x := by
      rw [List.reverse_append, List.reverse_cons, List.append_assoc, List.find?_append]
      have hn : post.reverse.find? (fun m => decide (upper m.name = upper x.name)) = none := by
        rw [List.find?_eq_none]
        intro y hy
        simpa using hpost y (List.mem_reverse.mp hy)
      rw [hn]
      simp
    rw [this]
  · intro i x
    unfold MatList.byIndex
    have h0 : ¬ ((i : ℤ) < 0) := by omega
    simp only [if_neg h0, Int.toNat_natCast]
    cases l.mats[i]? with
    | none => simp
    | some y => simp

/-- **C33** (extend). Extending never adds a material whose name was present, adds all the others in
order, and keeps the old ones. -/
theorem c33_extend (ms : List Mat) (new : List Mat) :
    ((mkMatList ms).extend new).mats =
      ms ++ new.filter (fun m => decide (∀ x ∈ ms, upper x.name ≠ upper m.name)) := by
  unfold MatList.extend mkMatList
  simp only
  congr 1
  apply List.filter_congr
  intro m _
  unfold Dict.has computeDic
  rw [computeDic_spec]
  simp only [Dict.get?_nil, Option.or_none]
  cases hf : ms.reverse.find? (fun x => decide (upper x.name = upper m.name)) with
  | none =>
    have := List.find?_eq_none.mp hf
    simp only [Option.isSome_none, Bool.not_false]
    symm
    rw [decide_eq_true_iff]
    intro x hx
    simpa using this x (List.mem_reverse.mpr hx)
  | some y =>
    simp only [Option.isSome_some, Bool.not_true]
    symm
    rw [decide_eq_false_iff_not]
    intro hall
    exact hall y (List.mem_reverse.mp (List.mem_of_find?_eq_some hf)) (by simpa using List.find?_some hf)

/-- **C33** (a hole). Two new materials with the same name are both added by one `extend`: the
duplicate check only looks at the names present before. -/
theorem c33_extend_duplicates (m : Mat) : ((mkMatList []).extend [m, m]).mats = [m, m] := by
  rw [c33_extend]; simp

example : (mkMatList [⟨"m1".toList, []⟩]).byName "M1".toList = .ok ⟨"m1".toList, []⟩ ∧
    ((mkMatList [⟨"m1".toList, []⟩]).extend [⟨"M1".toList, ['x']⟩, ⟨"m2".toList, []⟩]).mats =
      [⟨"m1".toList, []⟩, ⟨"m2".toList, []⟩] := by decide +kernel

end F4Enix.Inp
