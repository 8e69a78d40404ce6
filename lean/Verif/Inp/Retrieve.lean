import Verif.Inp.ReadingProps
import Verif.Inp.Tight
/-!
# Finding cards by their number or key, lists of tallies of an input as read (C180, C181)
-/
namespace F4Enix.Inp
open F4Enix

/-! ### model -/

/-- what a user may give as number of a cell or surface: an `int` or a `str` (MCNPinput.py:617-629) -/
inductive CardId where
  | int (n : ℤ)
  | str (s : Str)
  deriving DecidableEq, Repr

/-- `str(id)` (MCNPinput.py:651, 671) -/
def CardId.text : CardId → Str
  | .int n => intStr n
  | .str s => s

/-- `get_cells_by_id` (MCNPinput.py:633-656); that a copy is returned with `make_copy` is not modelled, the values are the same -/
def getCellsById (m : Deck) (ids : List CardId) : Except PyErr (Dict Str Card) := getCardsById m.cells (ids.map CardId.text) []

/-- `get_surfs_by_id` (MCNPinput.py:658-673) -/
def getSurfsById (m : Deck) (ids : List CardId) : Except PyErr (Dict Str Card) := getCardsById m.surfs (ids.map CardId.text) []

/-- one key or a list of keys (MCNPinput.py:698-724) -/
inductive Keys where
  | one (k : Str)
  | many (ks : List Str)
  deriving DecidableEq, Repr

/-- `ids2use` (MCNPinput.py:714-717) -/
def Keys.list : Keys → List Str
  | .one k => [k]
  | .many ks => ks

/-- `get_data_cards` (MCNPinput.py:698-724): the other data cards, and if a key is missing there the transformations -/
def getDataCards (m : Deck) (ids : Keys) : Except PyErr (Dict Str Card) :=
  match getCardsById m.other ids.list [] with
  | .ok d => .ok d
  | .error .keyError => getCardsById m.transformations ids.list []
  | .error e => .error e

/-- what `get_materials_subset` returns (MCNPinput.py:675-696) -/
inductive MatSubset where
  | one (x : Mat)
  | many (l : MatList)
  deriving DecidableEq, Repr

/-- `get_materials_subset` (MCNPinput.py:675-697) -/
def getMaterialsSubset (m : Deck) : Keys → Except PyErr MatSubset
  | .one k =>
    match m.materials.byName k with
    | .error e => .error e
    | .ok x => .ok (.one x)
  | .many ks =>
    match getMaterials m.materials ks with
    | .error e => .error e
    | .ok xs => .ok (.many (mkMatList xs))

/-- `PAT_FMESH_KEY.match(key)` with `^FMESH\d+` (constants.py:48) -/
def matchFmesh (key : Str) : Bool :=
  "FMESH".toList.isPrefixOf key && (match key.drop 5 with | [] => false | c :: _ => isDigit c)

/-- the lists of numbers of tallies and of mesh tallies (MCNPinput.py:340-346, 1857-1863). `isF`: numjuggler says `dtype == "Fn"`; `nameOf`: `card.name`. -/
def tallyLists (isF : Raw → Bool) (nameOf : Raw → ℤ) : Dict Str Raw → List ℤ × List ℤ
  | [] => ([], [])
  | (k, c) :: r =>
    if isF c then (nameOf c :: (tallyLists isF nameOf r).1, (tallyLists isF nameOf r).2)
    else if matchFmesh k then ((tallyLists isF nameOf r).1, nameOf c :: (tallyLists isF nameOf r).2)
    else tallyLists isF nameOf r

/-! ### C180 -/

/-- the key under which a number is found: itself or with an asterisk before it (specification) -/
def FoundAs (cards : Dict Str Card) (id k : Str) : Prop :=
  (k = id ∧ id ∈ cards.keys) ∨ (k = '*' :: id ∧ id ∉ cards.keys ∧ k ∈ cards.keys)

theorem picked_spec {cards : Dict Str Card} {ids : List Str} {sel d : Dict Str Card} (h : getCardsById cards ids sel = .ok d) :
    (∀ id ∈ ids, ∃ k, FoundAs cards id k) ∧
    (∀ k, k ∈ d.keys ↔ k ∈ sel.keys ∨ ∃ id ∈ ids, FoundAs cards id k) ∧
    (∀ k, (∃ id ∈ ids, FoundAs cards id k) → d.get? k = cards.get? k) ∧
    (∀ k, (¬ ∃ id ∈ ids, FoundAs cards id k) → d.get? k = sel.get? k) ∧ (sel.WF → d.WF) := by
  have hm : ∀ {k : Str} {c : Card}, cards.get? k = some c → k ∈ cards.keys := by
    intro k c hk
    exact List.mem_map.2 ⟨_, Dict.mem_of_get? hk, rfl⟩
  induction ids generalizing sel with
  | nil =>
    simp only [getCardsById, Except.ok.injEq] at h
    subst h
    simp
  | cons id ids ih =>
    have step : ∀ (k : Str) (c : Card), cards.get? k = some c → (∀ k', FoundAs cards id k' ↔ k' = k) → getCardsById cards ids (sel.set k c) = .ok d →
        (∀ x ∈ id :: ids, ∃ k, FoundAs cards x k) ∧
        (∀ k, k ∈ d.keys ↔ k ∈ sel.keys ∨ ∃ x ∈ id :: ids, FoundAs cards x k) ∧
        (∀ k, (∃ x ∈ id :: ids, FoundAs cards x k) → d.get? k = cards.get? k) ∧
        (∀ k, (¬ ∃ x ∈ id :: ids, FoundAs cards x k) → d.get? k = sel.get? k) ∧ (sel.WF → d.WF) := by
      intro k c hk hf hd
      obtain ⟨h1, h2, h3, h4, h5⟩ := ih hd
      have g1 : ∀ x ∈ id :: ids, ∃ k, FoundAs cards x k := by
        intro x hx
        rcases List.mem_cons.1 hx with rfl | hx
        · exact ⟨k, (hf k).2 rfl⟩
        · exact h1 x hx
      have ex : ∀ k', (∃ x ∈ id :: ids, FoundAs cards x k') ↔ k' = k ∨ ∃ x ∈ ids, FoundAs cards x k' := by
        intro k'
        simp only [List.mem_cons, exists_eq_or_imp, hf]
      have g2 : ∀ k', k' ∈ d.keys ↔ k' ∈ sel.keys ∨ ∃ x ∈ id :: ids, FoundAs cards x k' := by
        intro k'
        rw [h2, Dict.mem_keys_set, ex]
        tauto
      have g3 : ∀ k', (∃ x ∈ id :: ids, FoundAs cards x k') → d.get? k' = cards.get? k' := by
        intro k' hk'
        by_cases hin : ∃ x ∈ ids, FoundAs cards x k'
        · exact h3 k' hin
        · rw [h4 k' hin]
          rcases (ex k').1 hk' with rfl | e
          · rw [Dict.get?_set_self, hk]
          · exact absurd e hin
      have g4 : ∀ k', (¬ ∃ x ∈ id :: ids, FoundAs cards x k') → d.get? k' = sel.get? k' := by
        intro k' hk'
        rw [ex, not_or] at hk'
        rw [h4 k' hk'.2, Dict.get?_set_ne _ _ (Ne.symm hk'.1)]
      exact ⟨g1, g2, g3, g4, fun hw => h5 (Dict.WF_set hw _ _)⟩
    rw [getCardsById] at h
    cases hg : cards.get? id with
    | some c =>
      rw [hg] at h
      refine step id c hg ?_ h
      intro k'
      unfold FoundAs
      constructor
      · rintro (⟨e, -⟩ | ⟨-, hn, -⟩)
        · exact e
        · exact absurd (hm hg) hn
      · rintro rfl
        exact Or.inl ⟨rfl, hm hg⟩
    | none =>
      rw [hg] at h
      simp only at h
      have hn : id ∉ cards.keys := (Dict.get?_eq_none_iff _ _).1 hg
      cases hs : cards.get? ('*' :: id) with
      | none => rw [hs] at h; cases h
      | some c =>
        rw [hs] at h
        refine step _ c hs ?_ h
        intro k'
        unfold FoundAs
        constructor
        · rintro (⟨e, hi⟩ | ⟨e, -, -⟩)
          · exact absurd hi hn
          · exact e
        · rintro rfl
          exact Or.inr ⟨rfl, hn, hm hs⟩

theorem picked_refused {cards : Dict Str Card} {ids : List Str} {sel : Dict Str Card} (h : ∃ id ∈ ids, id ∉ cards.keys ∧ '*' :: id ∉ cards.keys) :
    getCardsById cards ids sel = .error .keyError := by
  induction ids generalizing sel with
  | nil => simp at h
  | cons id ids ih =>
    rw [getCardsById]
    by_cases h0 : id ∉ cards.keys ∧ '*' :: id ∉ cards.keys
    · rw [(Dict.get?_eq_none_iff _ _).2 h0.1, (Dict.get?_eq_none_iff _ _).2 h0.2]
    · have h' : ∃ id ∈ ids, id ∉ cards.keys ∧ '*' :: id ∉ cards.keys := by
        obtain ⟨x, hx, hh⟩ := h
        rcases List.mem_cons.1 hx with rfl | hx
        · exact absurd hh h0
        · exact ⟨x, hx, hh⟩
      cases hg : cards.get? id with
      | some c => exact ih h'
      | none =>
        cases hs : cards.get? ('*' :: id) with
        | some c => exact ih h'
        | none => rfl

theorem picked_ok {cards : Dict Str Card} {ids : List Str} {sel : Dict Str Card} (h : ∀ id ∈ ids, id ∈ cards.keys ∨ '*' :: id ∈ cards.keys) :
    ∃ d, getCardsById cards ids sel = .ok d := by
  induction ids generalizing sel with
  | nil => exact ⟨_, rfl⟩
  | cons id ids ih =>
    rw [getCardsById]
    cases hg : cards.get? id with
    | some c => exact ih (fun x hx => h x (by simp [hx]))
    | none =>
      cases hs : cards.get? ('*' :: id) with
      | some c => exact ih (fun x hx => h x (by simp [hx]))
      | none =>
        rcases h id (by simp) with e | e
        · exact absurd e ((Dict.get?_eq_none_iff _ _).1 hg)
        · exact absurd e ((Dict.get?_eq_none_iff _ _).1 hs)

/-- what is returned for a list of texts: exactly the cards found, each under its own key and once (specification) -/
structure Picked (cards : Dict Str Card) (ids : List Str) (d : Dict Str Card) : Prop where
  keys : ∀ k, k ∈ d.keys ↔ ∃ id ∈ ids, FoundAs cards id k
  same : ∀ k ∈ d.keys, d.get? k = cards.get? k
  once : d.keys.Nodup
  all : ∀ id ∈ ids, id ∈ d.keys ∨ '*' :: id ∈ d.keys

theorem picked_iff (cards : Dict Str Card) (ids : List Str) :
    (∀ d, getCardsById cards ids [] = .ok d → Picked cards ids d) ∧
    ((∃ d, getCardsById cards ids [] = .ok d) ↔ ∀ id ∈ ids, id ∈ cards.keys ∨ '*' :: id ∈ cards.keys) ∧
    ((¬ ∀ id ∈ ids, id ∈ cards.keys ∨ '*' :: id ∈ cards.keys) → getCardsById cards ids [] = .error .keyError) := by
  have hr : (¬ ∀ id ∈ ids, id ∈ cards.keys ∨ '*' :: id ∈ cards.keys) → getCardsById cards ids [] = .error .keyError := by
    intro h
    apply picked_refused
    by_contra hc
    apply h
    intro id hid
    by_contra hn
    rw [not_or] at hn
    exact hc ⟨id, hid, hn⟩
  refine ⟨?_, ⟨?_, picked_ok⟩, hr⟩
  · intro d hd
    obtain ⟨h1, h2, h3, h4, h5⟩ := picked_spec hd
    have hk : ∀ k, k ∈ d.keys ↔ ∃ id ∈ ids, FoundAs cards id k := by intro k; rw [h2]; simp [Dict.keys]
    refine ⟨hk, fun k hkd => h3 k ((hk k).1 hkd), h5 (by simp [Dict.WF, Dict.keys]), ?_⟩
    intro id hid
    obtain ⟨k, hf⟩ := h1 id hid
    have := (hk k).2 ⟨id, hid, hf⟩
    rcases hf with ⟨rfl, -⟩ | ⟨rfl, -⟩
    · exact Or.inl this
    · exact Or.inr this
  · rintro ⟨d, hd⟩
    by_contra hc
    rw [hr hc] at hd
    cases hd

/-- **C180 (cells).** Asking for cells by number, written as integer or as text, gives exactly these cells, each once and under its key, or a `KeyError` if one
of them is not in the input (neither as such nor with an asterisk). -/
theorem cells_by_id (m : Deck) (ids : List CardId) :
    (∀ d, getCellsById m ids = .ok d → Picked m.cells (ids.map CardId.text) d) ∧
    ((∀ x ∈ ids, x.text ∈ m.cells.keys ∨ '*' :: x.text ∈ m.cells.keys) → ∃ d, getCellsById m ids = .ok d) ∧
    ((¬ ∀ x ∈ ids, x.text ∈ m.cells.keys ∨ '*' :: x.text ∈ m.cells.keys) → getCellsById m ids = .error .keyError) := by
  obtain ⟨h1, h2, h3⟩ := picked_iff m.cells (ids.map CardId.text)
  refine ⟨h1, fun h => h2.2 (by simpa using h), fun h => h3 (by simpa using h)⟩

/-- **C180 (surfaces).** The same for surfaces. Partial: False for surfaces with the mark + (white boundary): they are not found by their number. Copies are not modelled. -/
theorem surfs_by_id_partial (m : Deck) (ids : List CardId) :
    (∀ d, getSurfsById m ids = .ok d → Picked m.surfs (ids.map CardId.text) d) ∧
    ((∀ x ∈ ids, x.text ∈ m.surfs.keys ∨ '*' :: x.text ∈ m.surfs.keys) → ∃ d, getSurfsById m ids = .ok d) ∧
    ((¬ ∀ x ∈ ids, x.text ∈ m.surfs.keys ∨ '*' :: x.text ∈ m.surfs.keys) → getSurfsById m ids = .error .keyError) := by
  obtain ⟨h1, h2, h3⟩ := picked_iff m.surfs (ids.map CardId.text)
  refine ⟨h1, fun h => h2.2 (by simpa using h), fun h => h3 (by simpa using h)⟩

/-- **C180 is false of the code for white boundaries**: a surface with the mark `+` is in the input, and asking for it by its number is refused. -/
theorem surfs_by_id_white (m : Deck) (n : ℤ) (pre post : List CardId) (h1 : intStr n ∉ m.surfs.keys) (h2 : '*' :: intStr n ∉ m.surfs.keys) :
    getSurfsById m (pre ++ .int n :: post) = .error .keyError := by
  apply (surfs_by_id_partial m _).2.2
  intro h
  rcases h (.int n) (by simp) with e | e
  · exact h1 e
  · exact h2 e

/-- **C180 (data cards).** If every key is a key of the other data cards (as such or with an asterisk) these cards are returned; otherwise, if every key is one
of the transformations, those; otherwise the call is refused with `KeyError`. One key is the same as a list of one key. -/
theorem data_cards (m : Deck) (ids : Keys) :
    ((∀ k ∈ ids.list, k ∈ m.other.keys ∨ '*' :: k ∈ m.other.keys) → ∃ d, getDataCards m ids = .ok d ∧ Picked m.other ids.list d) ∧
    ((¬ ∀ k ∈ ids.list, k ∈ m.other.keys ∨ '*' :: k ∈ m.other.keys) → (∀ k ∈ ids.list, k ∈ m.transformations.keys ∨ '*' :: k ∈ m.transformations.keys) →
      ∃ d, getDataCards m ids = .ok d ∧ Picked m.transformations ids.list d) ∧
    ((¬ ∀ k ∈ ids.list, k ∈ m.other.keys ∨ '*' :: k ∈ m.other.keys) → (¬ ∀ k ∈ ids.list, k ∈ m.transformations.keys ∨ '*' :: k ∈ m.transformations.keys) →
      getDataCards m ids = .error .keyError) := by
  obtain ⟨h1, h2, h3⟩ := picked_iff m.other ids.list
  obtain ⟨g1, g2, g3⟩ := picked_iff m.transformations ids.list
  refine ⟨?_, ?_, ?_⟩
  · intro h
    obtain ⟨d, hd⟩ := h2.2 h
    exact ⟨d, by unfold getDataCards; rw [hd], h1 d hd⟩
  · intro h hg
    obtain ⟨d, hd⟩ := g2.2 hg
    exact ⟨d, by unfold getDataCards; rw [h3 h, ← hd], g1 d hd⟩
  · intro h hg
    unfold getDataCards
    rw [h3 h]
    exact g3 hg

theorem materials_spec {l : MatList} {ks : List Str} {xs : List Mat} (h : getMaterials l ks = .ok xs) :
    List.Forall₂ (fun k x => l.dic.get? (upper k) = some x) ks xs := by
  induction ks generalizing xs with
  | nil => simp only [getMaterials, Except.ok.injEq] at h; subst h; exact .nil
  | cons k ks ih =>
    rw [getMaterials] at h
    unfold MatList.byName at h
    cases hg : l.dic.get? (upper k) with
    | none => rw [hg] at h; cases h
    | some x =>
      rw [hg] at h
      simp only at h
      cases hr : getMaterials l ks with
      | error e => rw [hr] at h; cases h
      | ok ys =>
        rw [hr] at h
        simp only [Except.ok.injEq] at h
        subst h
        exact .cons hg (ih hr)

/-- **C180 (materials).** One name gives the material of that name, in any case of letters; a list of names gives a list with these materials in the order
of the names; a name that is not there is refused. -/
theorem materials_by_name (m : Deck) :
    (∀ k x, getMaterialsSubset m (.one k) = .ok x ↔ ∃ y, x = .one y ∧ m.materials.dic.get? (upper k) = some y) ∧
    (∀ ks x, getMaterialsSubset m (.many ks) = .ok x ↔
      ∃ ys, x = .many (mkMatList ys) ∧ List.Forall₂ (fun k y => m.materials.dic.get? (upper k) = some y) ks ys) ∧
    (∀ ids : Keys, (∃ k ∈ ids.list, upper k ∉ m.materials.dic.keys) → getMaterialsSubset m ids = .error .keyError) := by
  have hok : ∀ {ks : List Str} {ys : List Mat}, List.Forall₂ (fun k y => m.materials.dic.get? (upper k) = some y) ks ys → getMaterials m.materials ks = .ok ys := by
    intro ks ys h
    induction h with
    | nil => rfl
    | cons hk _ ih =>
      rw [getMaterials]
      unfold MatList.byName
      rw [hk]
      simp only
      rw [ih]
  refine ⟨?_, ?_, ?_⟩
  · intro k x
    unfold getMaterialsSubset MatList.byName
    simp only
    cases hg : m.materials.dic.get? (upper k) with
    | none => simp
    | some y =>
      simp only [Except.ok.injEq, Option.some.injEq]
      constructor
      · rintro rfl; exact ⟨y, rfl, rfl⟩
      · rintro ⟨z, rfl, rfl⟩; rfl
  · intro ks x
    unfold getMaterialsSubset
    simp only
    constructor
    · intro h
      cases hg : getMaterials m.materials ks with
      | error e => rw [hg] at h; cases h
      | ok ys =>
        rw [hg] at h
        simp only [Except.ok.injEq] at h
        exact ⟨ys, h.symm, materials_spec hg⟩
    · rintro ⟨ys, rfl, h⟩
      rw [hok h]
  · intro ids h
    have aux : ∀ ks : List Str, (∃ k ∈ ks, upper k ∉ m.materials.dic.keys) → getMaterials m.materials ks = .error .keyError := by
      intro ks
      induction ks with
      | nil => simp
      | cons k ks ih =>
        intro hk
        rw [getMaterials]
        unfold MatList.byName
        cases hg : m.materials.dic.get? (upper k) with
        | none => rfl
        | some y =>
          simp only
          rw [ih]
          obtain ⟨z, hz, hn⟩ := hk
          rcases List.mem_cons.1 hz with rfl | hz
          · rw [← Dict.get?_eq_none_iff, hg] at hn; cases hn
          · exact ⟨z, hz, hn⟩
    cases ids with
    | one k =>
      obtain ⟨z, hz, hn⟩ := h
      simp only [Keys.list, List.mem_singleton] at hz
      subst hz
      unfold getMaterialsSubset MatList.byName
      simp only
      rw [(Dict.get?_eq_none_iff _ _).2 hn]
    | many ks =>
      unfold getMaterialsSubset
      simp only
      rw [aux ks h]

/-! ### C181 -/

theorem tallyLists_eq (isF : Raw → Bool) (nameOf : Raw → ℤ) (d : Dict Str Raw) :
    tallyLists isF nameOf d = ((d.filter (fun kc => isF kc.2)).map (fun kc => nameOf kc.2),
      (d.filter (fun kc => !isF kc.2 && matchFmesh kc.1)).map (fun kc => nameOf kc.2)) := by
  induction d with
  | nil => rfl
  | cons kc r ih =>
    obtain ⟨k, c⟩ := kc
    rw [tallyLists, ih]
    cases h1 : isF c <;> cases h2 : matchFmesh k <;> simp [h1, h2]

theorem isPrefixOf_append (p s : Str) : p.isPrefixOf (p ++ s) = true := by
  rw [List.isPrefixOf_iff_prefix]; exact ⟨s, rfl⟩

theorem cleanAt_fmesh {ds rest : Str} (hd : ds ≠ []) (hds : ∀ c ∈ ds, isDigit c = true) (hr : ∀ c, rest.head? = some c → isDigit c = false) :
    cleanAt ("FMESH".toList ++ ds ++ rest) cleanPrefixes = some ("FMESH".toList ++ ds) := by
  have htw : (ds ++ rest).takeWhile isDigit = ds := by
    rw [List.takeWhile_append_of_pos hds]
    cases rest with
    | nil => simp
    | cons c r => rw [List.takeWhile_cons_of_neg (by simp [hr c rfl])]; simp
  unfold cleanPrefixes
  rw [cleanAt]
  have e1 : "FMESH".toList.isPrefixOf ("FMESH".toList ++ ds ++ rest) = true := by rw [List.append_assoc]; exact isPrefixOf_append _ _
  have e2 : ("FMESH".toList ++ ds ++ rest).drop "FMESH".toList.length = ds ++ rest := by rw [List.append_assoc, List.drop_left]
  rw [e1, e2, if_pos rfl, htw]
  cases ds with
  | nil => exact absurd rfl hd
  | cons c cs => rfl

/-- a key as it stands in a file: a mark or none, `FMESH`, a number, and what follows (a particle) (specification) -/
structure FmeshKey (key : Str) (ds : Str) : Prop where
  shape : ∃ mark rest, (mark = [] ∨ mark = ['*'] ∨ mark = ['+']) ∧ upper key = mark ++ ("FMESH".toList ++ ds ++ rest) ∧
    ∀ c, rest.head? = some c → isDigit c = false
  ne : ds ≠ []
  digits : ∀ c ∈ ds, isDigit c = true
  noTF : hasTF (upper key) = false

theorem cleanName_fmesh {key ds : Str} (h : FmeshKey key ds) : cleanName key = "FMESH".toList ++ ds := by
  obtain ⟨mark, rest, hm, hu, hr⟩ := h.shape
  unfold cleanName
  have hs : cleanSearch (upper key) = some ("FMESH".toList ++ ds) := by
    have hc := cleanAt_fmesh h.ne h.digits hr
    have h0 : cleanSearch ("FMESH".toList ++ ds ++ rest) = some ("FMESH".toList ++ ds) := by
      have e : "FMESH".toList ++ ds ++ rest = 'F' :: ("MESH".toList ++ ds ++ rest) := by simp
      rw [e] at hc ⊢
      rw [cleanSearch, hc]
    have hmark : ∀ x : Char, x = '*' ∨ x = '+' → ∀ s : Str, cleanAt (x :: s) cleanPrefixes = none := by
      intro x hx s
      rcases hx with rfl | rfl <;> (unfold cleanPrefixes; simp [cleanAt, List.isPrefixOf])
    rw [hu]
    rcases hm with rfl | rfl | rfl
    · exact h0
    · rw [List.singleton_append, cleanSearch, hmark _ (Or.inl rfl)]; exact h0
    · rw [List.singleton_append, cleanSearch, hmark _ (Or.inr rfl)]; exact h0
  rw [hs, h.noTF]
  simp

theorem matchFmesh_key {key ds : Str} (h : FmeshKey key ds) : matchFmesh (cleanName key) = true := by
  rw [cleanName_fmesh h]
  unfold matchFmesh
  have : ("FMESH".toList ++ ds).drop 5 = ds := by simp
  rw [this, isPrefixOf_append]
  cases hd : ds with
  | nil => exact absurd hd h.ne
  | cons c cs => simpa using h.digits c (by rw [hd]; simp)

theorem cleanAt_sub {s w : Str} {ps : List Str} (h : cleanAt s ps = some w) : w <:+: s := by
  induction ps with
  | nil => cases h
  | cons p ps ih =>
    rw [cleanAt] at h
    split at h
    · exact ih h
    · rename_i ds hds
      simp only [Option.some.injEq] at h
      subst h
      by_cases hp : p.isPrefixOf s = true
      · rw [if_pos hp]
        rw [List.isPrefixOf_iff_prefix] at hp
        obtain ⟨t, rfl⟩ := hp
        rw [List.drop_left]
        obtain ⟨u, hu⟩ := List.takeWhile_prefix isDigit (l := t)
        exact ⟨[], u, by rw [List.nil_append, List.append_assoc, hu]⟩
      · rw [if_neg hp] at hds
        exact absurd rfl hds

theorem cleanSearch_sub {s w : Str} (h : cleanSearch s = some w) : w <:+: s := by
  induction s with
  | nil => cases h
  | cons c s ih =>
    rw [cleanSearch] at h
    split at h
    · rename_i v hv
      simp only [Option.some.injEq] at h
      subst h
      exact cleanAt_sub hv
    · obtain ⟨a, b, e⟩ := ih h
      exact ⟨c :: a, b, by rw [List.cons_append, List.cons_append, e]⟩

/-- a key that does not speak of `FMESH` is never taken for one -/
theorem matchFmesh_other {key : Str} (h : ¬ "FMESH".toList <:+: upper key) : matchFmesh (cleanName key) = false := by
  by_contra hc
  rw [Bool.not_eq_false] at hc
  unfold matchFmesh at hc
  rw [Bool.and_eq_true, List.isPrefixOf_iff_prefix] at hc
  obtain ⟨⟨t, ht⟩, -⟩ := hc
  apply h
  unfold cleanName at ht
  split at ht
  · rename_i w hw
    split at ht
    · have : 'F' = 'T' := by simpa using congrArg List.head? ht
      exact absurd this (by decide)
    · obtain ⟨a, b, e⟩ := cleanSearch_sub hw
      rw [← ht] at e
      exact ⟨a, t ++ b, by rw [← e]; simp⟩
  · exact ⟨[], t, by rw [List.nil_append, ht]⟩

/-- **C181.** If no two other data cards get the same shortened name (and the first material card is not a thermal or mixed one), the list of tallies has the
numbers of the tally cards in the order of the file, and the list of mesh tallies those of the cards whose key is `FMESH` with a number (marked or not, in
upper or lower case); no other card is in it. (Missing: see `tallies_lost`.) -/
theorem tallies_read_partial (isF : Raw → Bool) (nameOf : Raw → ℤ) (cards : Dict Str Raw)
    (hfirst : ∀ kc, (cards.filter (fun kc => kc.2.kind = .mat)).head? = some kc → isMx kc.2 = false)
    (htr : ((cleanedOf (fun c => c.kind = .tr) cards).map Prod.fst).Nodup)
    (hoth : ((cleanedOf (fun c => c.kind = .other) cards).map Prod.fst).Nodup)
    (fm : Str × Raw → Bool)
    (hfm : ∀ kc ∈ cards, kc.2.kind = .other → isF kc.2 = false → (fm kc = true ∧ ∃ ds, FmeshKey kc.1 ds) ∨ (fm kc = false ∧ ¬ "FMESH".toList <:+: upper kc.1)) :
    tallyLists isF nameOf (parseData cards).other =
      ((cards.filter (fun kc => kc.2.kind = .other ∧ isF kc.2)).map (fun kc => nameOf kc.2),
       (cards.filter (fun kc => kc.2.kind = .other ∧ isF kc.2 = false ∧ fm kc = true)).map (fun kc => nameOf kc.2)) := by
  rw [(parseData_spec cards hfirst htr hoth).2.1, tallyLists_eq]
  clear hfirst htr hoth
  unfold cleanedOf
  simp only [List.filter_map, List.map_map, Prod.mk.injEq, Function.comp_def, List.filter_filter]
  refine ⟨?_, ?_⟩
  · congr 1
    apply List.filter_congr
    intro kc _
    cases isF kc.2 <;> cases kc.2.kind <;> rfl
  · congr 1
    apply List.filter_congr
    intro kc hkc
    by_cases hk : kc.2.kind = .other
    · cases hF : isF kc.2 with
      | true => simp
      | false =>
        rcases hfm kc hkc hk hF with ⟨h1, ds, h2⟩ | ⟨h1, h2⟩
        · simp [hk, h1, matchFmesh_key h2]
        · simp [hk, h1, matchFmesh_other h2]
    · simp [hk]

/-- **C181 is false of the code for a tally with a dose function**: the tally of the file is not in the list. -/
theorem tallies_lost (isF : Raw → Bool) (nameOf : Raw → ℤ) (h1 : isF ⟨["DF124 IC 10\n".toList], true, .other⟩ = false) :
    ∃ d, toDict doseCards none [] = .ok d ∧ tallyLists isF nameOf (parseData d).other = ([], []) := by
  obtain ⟨d, h, -, h3, h4⟩ := c49_lost
  refine ⟨d, h, ?_⟩
  have e : d = [("F124:P".toList, ⟨["F124:p 1 \n".toList], true, .other⟩), ("DF124".toList, ⟨["DF124 IC 10\n".toList], true, .other⟩)] := by
    have : toDict doseCards none [] = .ok [("F124:P".toList, ⟨["F124:p 1 \n".toList], true, .other⟩), ("DF124".toList, ⟨["DF124 IC 10\n".toList], true, .other⟩)] := by
      decide +kernel
    rw [this] at h
    exact (Except.ok.inj h).symm
  have e2 : (parseData d).other = [("F124".toList, ⟨["DF124 IC 10\n".toList], true, .other⟩)] := by rw [e]; decide +kernel
  rw [e2, tallyLists, h1]
  have : matchFmesh "F124".toList = false := by decide
  rw [this]
  rfl

/-- **C181** (which keys are mesh tallies). Of the cards that are no tallies, the list of mesh tallies has exactly those whose key begins with
`FMESH` and a digit, in their order. -/
theorem meshes_listed (isF : Raw → Bool) (nameOf : Raw → ℤ) (d : Dict Str Raw) (fm : Str → Bool)
    (hfm : ∀ k, fm k = true ↔ ∃ c rest, isDigit c = true ∧ k = "FMESH".toList ++ c :: rest) :
    (tallyLists isF nameOf d).2 = (d.filter (fun kc => isF kc.2 = false ∧ fm kc.1 = true)).map (fun kc => nameOf kc.2) := by
  rw [tallyLists_eq]
  simp only
  congr 1
  apply List.filter_congr
  intro kc _
  have e : matchFmesh kc.1 = fm kc.1 := by
    rw [Bool.eq_iff_iff, hfm]
    unfold matchFmesh
    rw [Bool.and_eq_true, List.isPrefixOf_iff_prefix]
    constructor
    · rintro ⟨⟨t, ht⟩, h2⟩
      rw [← ht] at h2 ⊢
      rw [List.drop_left' (by decide)] at h2
      cases t with
      | nil => simp at h2
      | cons c r => exact ⟨c, r, h2, rfl⟩
    · rintro ⟨c, r, hc, hk⟩
      rw [hk]
      refine ⟨⟨_, rfl⟩, ?_⟩
      rw [List.drop_left' (by decide)]
      exact hc
  rw [e]
  cases isF kc.2 <;> cases fm kc.1 <;> rfl

/-! ### concrete cases -/

/-- `tallyCards` (example) -/
def tallyCards : Dict Str Raw :=
  [("F4:N".toList, ⟨["F4:n 1\n".toList], true, .other⟩), ("*FMESH14:P".toList, ⟨["*FMESH14:p\n".toList], true, .other⟩),
   ("SDEF".toList, ⟨["sdef\n".toList], false, .other⟩), ("F16:P".toList, ⟨["F16:p 2\n".toList], true, .other⟩)]

/-- what numjuggler says about these cards (example) -/
def exIsF (c : Raw) : Bool := (c.lines.headD []).headD ' ' = 'F'

example : tallyLists exIsF (fun c => (c.lines.headD []).length) (parseData tallyCards).other = ([7, 8], [11]) := by decide +kernel

example : FmeshKey "*fmesh14:p".toList "14".toList :=
  ⟨⟨['*'], ":P".toList, by simp, by decide, by decide⟩, by decide, by decide, by decide⟩

example : tallyLists exIsF (fun c => (c.lines.headD []).length) (parseData tallyCards).other =
    ((tallyCards.filter (fun kc => kc.2.kind = .other ∧ exIsF kc.2)).map (fun kc => ((kc.2.lines.headD []).length : ℤ)),
     (tallyCards.filter (fun kc => kc.2.kind = .other ∧ exIsF kc.2 = false ∧ decide (kc.1.head? = some '*') = true)).map (fun kc => ((kc.2.lines.headD []).length : ℤ))) := by
  apply tallies_read_partial exIsF (fun c => ((c.lines.headD []).length : ℤ)) tallyCards (by decide +kernel) (by decide +kernel) (by decide +kernel)
    (fun kc => decide (kc.1.head? = some '*'))
  intro kc hkc hk hF
  simp only [tallyCards, List.mem_cons, List.not_mem_nil, or_false] at hkc
  rcases hkc with rfl | rfl | rfl | rfl
  · exact absurd hF (by decide)
  · exact Or.inl ⟨by decide, "14".toList, ⟨['*'], ":P".toList, by simp, by decide, by decide⟩, by decide, by decide, by decide⟩
  · exact Or.inr ⟨by decide, by decide⟩
  · exact absurd hF (by decide)

/-- `findDeck` (example) -/
def findDeck : Deck := markDeck "*".toList

example : ∃ d, getSurfsById findDeck (findDeck.surfs.keys.map (fun k => CardId.str (k.dropWhile (· = '*')))) = .ok d ∧ d.keys = findDeck.surfs.keys := by
  refine ⟨((getSurfsById findDeck (findDeck.surfs.keys.map (fun k => CardId.str (k.dropWhile (· = '*'))))).toOption.getD []), ?_, ?_⟩ <;> decide +kernel

/-- a white boundary `+5`: it is there, and not found -/
example : (markDeck "+".toList).surfs.keys = ["+5".toList] ∧ getSurfsById (markDeck "+".toList) [.int 5] = .error .keyError :=
  ⟨by decide +kernel, surfs_by_id_white _ 5 [] [] (by decide +kernel) (by decide +kernel)⟩

end F4Enix.Inp
