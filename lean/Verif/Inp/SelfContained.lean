import Verif.Inp.ExtractProps
import Mathlib.Data.List.Sort
/-!
# The extracted model is self-contained (C12); range checks (C13)
-/
namespace F4Enix.Inp
open F4Enix Relation

/-- the card of a surface under its number: the plain key, or the key with an asterisk (specification) -/
def SurfCard (surfs : Dict Str Card) (v : ℤ) (key : Str) (card : Card) : Prop :=
  (key = intStr v ∧ surfs.get? key = some card) ∨
  (key = '*' :: intStr v ∧ surfs.get? (intStr v) = none ∧ surfs.get? key = some card)

theorem getCardsById_spec (cards : Dict Str Card) (ids : List Str) (sel res : Dict Str Card)
    (h : getCardsById cards ids sel = .ok res) :
    (∀ k, res.get? k =
      if k ∈ ids ∧ (cards.get? k).isSome then cards.get? k
      else if (∃ id ∈ ids, k = '*' :: id ∧ cards.get? id = none) then cards.get? k
      else sel.get? k) ∧
    (∀ id ∈ ids, (cards.get? id).isSome ∨ (cards.get? ('*' :: id)).isSome) ∧
    (sel.WF → res.WF) := by
  induction ids generalizing sel with
  | nil => simp [getCardsById] at h; subst h; simp
  | cons id ids ih =>
    unfold getCardsById at h
    cases hc : cards.get? id with
    | some c =>
      simp only [hc] at h
      obtain ⟨i1, i2, i3⟩ := ih _ h
      refine ⟨?_, ?_, fun hw => i3 (Dict.WF_set hw _ _)⟩
      · intro k
        rw [i1 k]
        by_cases h1 : k ∈ ids ∧ (cards.get? k).isSome
        · rw [if_pos h1, if_pos ⟨List.mem_cons_of_mem _ h1.1, h1.2⟩]
        · rw [if_neg h1]
          by_cases hk : k = id
          · subst hk
            rw [if_pos (show k ∈ k :: ids ∧ _ from ⟨by simp, by simp [hc]⟩)]
            by_cases h2 : ∃ id ∈ ids, k = '*' :: id ∧ cards.get? id = none
            · rw [if_pos h2]
            · rw [if_neg h2, Dict.get?_set_self, hc]
          · have e1 : (k ∈ id :: ids ∧ (cards.get? k).isSome) ↔ (k ∈ ids ∧ (cards.get? k).isSome) := by
              simp [hk]
            rw [if_neg (fun h => h1 (e1.mp h))]
            have e2 : (∃ i ∈ id :: ids, k = '*' :: i ∧ cards.get? i = none) ↔
                (∃ i ∈ ids, k = '*' :: i ∧ cards.get? i = none) := by
              constructor
              · rintro ⟨i, hi, h2, h3⟩
                rcases List.mem_cons.mp hi with rfl | hi
                · rw [hc] at h3; simp at h3
                · exact ⟨i, hi, h2, h3⟩
              · rintro ⟨i, hi, h2⟩; exact ⟨i, List.mem_cons_of_mem _ hi, h2⟩
            by_cases h2 : ∃ i ∈ ids, k = '*' :: i ∧ cards.get? i = none
            · rw [if_pos h2, if_pos (e2.mpr h2)]
            · rw [if_neg h2, if_neg (fun h => h2 (e2.mp h)), Dict.get?_set_ne _ _ (Ne.symm hk)]
      · intro i hi
        rcases List.mem_cons.mp hi with rfl | hi
        · left; simp [hc]
        · exact i2 i hi
    | none =>
      simp only [hc] at h
      cases hs : cards.get? ('*' :: id) with
      | none => simp [hs] at h
      | some c =>
        simp only [hs] at h
        obtain ⟨i1, i2, i3⟩ := ih _ h
        refine ⟨?_, ?_, fun hw => i3 (Dict.WF_set hw _ _)⟩
        · intro k
          rw [i1 k]
          by_cases h1 : k ∈ ids ∧ (cards.get? k).isSome
          · rw [if_pos h1, if_pos ⟨List.mem_cons_of_mem _ h1.1, h1.2⟩]
          · rw [if_neg h1]
            have e1 : ¬ (k ∈ id :: ids ∧ (cards.get? k).isSome) := by
              rintro ⟨hk, hk2⟩
              rcases List.mem_cons.mp hk with rfl | hk
              · simp [hc] at hk2
              · exact h1 ⟨hk, hk2⟩
            rw [if_neg e1]
            by_cases hk : k = '*' :: id
            · subst hk
              rw [if_pos (show ∃ i ∈ id :: ids, '*' :: id = '*' :: i ∧ cards.get? i = none from
                ⟨id, by simp, rfl, hc⟩)]
              by_cases h2 : ∃ i ∈ ids, '*' :: id = '*' :: i ∧ cards.get? i = none
              · rw [if_pos h2]
              · rw [if_neg h2, Dict.get?_set_self, hs]
            · have e2 : (∃ i ∈ id :: ids, k = '*' :: i ∧ cards.get? i = none) ↔
                  (∃ i ∈ ids, k = '*' :: i ∧ cards.get? i = none) := by
                constructor
                · rintro ⟨i, hi, h2, h3⟩
                  rcases List.mem_cons.mp hi with rfl | hi
                  · exact absurd h2 hk
                  · exact ⟨i, hi, h2, h3⟩
                · rintro ⟨i, hi, h2⟩; exact ⟨i, List.mem_cons_of_mem _ hi, h2⟩
              by_cases h2 : ∃ i ∈ ids, k = '*' :: i ∧ cards.get? i = none
              · rw [if_pos h2, if_pos (e2.mpr h2)]
              · rw [if_neg h2, if_neg (fun h => h2 (e2.mp h)), Dict.get?_set_ne _ _ (Ne.symm hk)]
        · intro i hi
          rcases List.mem_cons.mp hi with rfl | hi
          · right; simp [hs]
          · exact i2 i hi

theorem getCardsById_ok (cards : Dict Str Card) (ids : List Str) (sel : Dict Str Card)
    (h : ∀ id ∈ ids, (cards.get? id).isSome ∨ (cards.get? ('*' :: id)).isSome) :
    ∃ res, getCardsById cards ids sel = .ok res := by
  induction ids generalizing sel with
  | nil => exact ⟨_, rfl⟩
  | cons id ids ih =>
    unfold getCardsById
    cases hc : cards.get? id with
    | some c => exact ih _ (fun i hi => h i (List.mem_cons_of_mem _ hi))
    | none =>
      simp only
      rcases h id (by simp) with h' | h'
      · simp [hc] at h'
      · obtain ⟨c, hs⟩ := Option.isSome_iff_exists.mp h'
        simp only [hs]
        exact ih _ (fun i hi => h i (List.mem_cons_of_mem _ hi))

theorem getCardsById_error (cards : Dict Str Card) (ids : List Str) (sel : Dict Str Card) (id : Str)
    (hid : id ∈ ids) (h1 : cards.get? id = none) (h2 : cards.get? ('*' :: id) = none) :
    getCardsById cards ids sel = .error .keyError := by
  induction ids generalizing sel with
  | nil => simp at hid
  | cons i ids ih =>
    unfold getCardsById
    cases hc : cards.get? i with
    | some c =>
      simp only
      rcases List.mem_cons.mp hid with rfl | hid
      · rw [h1] at hc; simp at hc
      · exact ih _ hid
    | none =>
      simp only
      cases hs : cards.get? ('*' :: i) with
      | none => rfl
      | some c =>
        simp only
        rcases List.mem_cons.mp hid with rfl | hid
        · rw [h2] at hs; simp at hs
        · exact ih _ hid

theorem mem_numbersOf (k : Kind) (cs : Dict Str Card) (v : ℤ) :
    v ∈ numbersOf k cs ↔ ∃ key c, (key, c) ∈ cs ∧ (v, k) ∈ c.values := by
  unfold numbersOf
  rw [List.mem_dedup, List.mem_flatMap]
  constructor
  · rintro ⟨⟨key, c⟩, h1, h2⟩
    simp only [List.mem_filterMap] at h2
    obtain ⟨⟨w, k'⟩, h3, h4⟩ := h2
    by_cases hk : k' = k
    · subst hk; simp at h4; subst h4; exact ⟨key, c, h1, h3⟩
    · simp [hk] at h4
  · rintro ⟨key, c, h1, h2⟩
    exact ⟨(key, c), h1, by simp only [List.mem_filterMap]; exact ⟨_, h2, by simp⟩⟩

theorem mem_sortInts (l : List ℤ) (x : ℤ) : x ∈ sortInts l ↔ x ∈ l := by simp [sortInts]

/-- stripping universes: key by key -/
theorem stripUniverses_spec (keep : Bool) (req : List ℤ) (cs cs' : Dict Str Card)
    (h : stripUniverses keep req cs = .ok cs') :
    (∀ k, cs'.get? k = (cs.get? k).map (fun c =>
      if keep = false ∧ (∃ n ∈ req, c.num = .ok n) then removeU c else c)) ∧ cs'.keys = cs.keys := by
  induction cs generalizing cs' with
  | nil => unfold stripUniverses at h; simp at h; subst h; simp
  | cons kc r ih =>
    obtain ⟨k', c⟩ := kc
    unfold stripUniverses at h
    have hc : ∀ c', (if keep then .ok c
           else match c.num with
             | .error e => .error e
             | .ok n => .ok (if n ∈ req then removeU c else c) : Except PyErr Card) = .ok c' →
        c' = if keep = false ∧ (∃ n ∈ req, c.num = .ok n) then removeU c else c := by
      intro c' h
      cases keep with
      | true => simp at h; simp [h]
      | false =>
        simp only [Bool.false_eq_true, if_false] at h
        cases hn : c.num with
        | error e => simp [hn] at h
        | ok n =>
          simp only [hn, Except.ok.injEq] at h
          subst h
          by_cases hm : n ∈ req <;> simp [hm]
    generalize hx : (if keep then .ok c
           else match c.num with
             | .error e => .error e
             | .ok n => .ok (if n ∈ req then removeU c else c) : Except PyErr Card) = x at h hc
    cases x with
    | error e => simp at h
    | ok c' =>
      simp only at h
      cases hr : stripUniverses keep req r with
      | error e => simp [hr] at h
      | ok r' =>
        simp only [hr, Except.ok.injEq] at h
        subst h
        obtain ⟨i1, i2⟩ := ih r' hr
        refine ⟨fun k => ?_, by simp only [Dict.keys, List.map_cons] at i2 ⊢; rw [i2]⟩
        by_cases hk : k' = k
        · simp only [Dict.get?, if_pos hk, Option.map_some]
          rw [← hc c' rfl]
        · simp only [Dict.get?, if_neg hk]
          exact i1 k

theorem stripUniverses_ok (keep : Bool) (req : List ℤ) (cs : Dict Str Card)
    (h : ∀ kc ∈ cs, kc.2.values ≠ []) : ∃ cs', stripUniverses keep req cs = .ok cs' := by
  induction cs with
  | nil => exact ⟨[], rfl⟩
  | cons kc r ih =>
    obtain ⟨k, c⟩ := kc
    obtain ⟨r', hr⟩ := ih (fun x hx => h x (List.mem_cons_of_mem _ hx))
    obtain ⟨n, hn⟩ : ∃ n, c.num = .ok n := by
      unfold Card.num
      cases hv : c.values with
      | nil => exact absurd hv (h (k, c) (by simp))
      | cons v vs => exact ⟨_, rfl⟩
    unfold stripUniverses
    cases keep with
    | true => simp only [if_true, hr]; exact ⟨_, rfl⟩
    | false => simp only [Bool.false_eq_true, if_false, hn, hr]; exact ⟨_, rfl⟩

theorem getMaterials_spec (l : MatList) (ks : List Str) (ms : List Mat) (h : getMaterials l ks = .ok ms) :
    (∀ m ∈ ms, ∃ k ∈ ks, l.byName k = .ok m) ∧ (∀ k ∈ ks, ∃ m ∈ ms, l.byName k = .ok m) := by
  induction ks generalizing ms with
  | nil => simp [getMaterials] at h; subst h; simp
  | cons k ks ih =>
    unfold getMaterials at h
    cases hk : l.byName k with
    | error e => simp [hk] at h
    | ok m =>
      simp only [hk] at h
      cases hr : getMaterials l ks with
      | error e => simp [hr] at h
      | ok ms' =>
        simp only [hr, Except.ok.injEq] at h
        subst h
        obtain ⟨i1, i2⟩ := ih ms' hr
        constructor
        · intro x hx
          rcases List.mem_cons.mp hx with rfl | hx
          · exact ⟨k, by simp, hk⟩
          · obtain ⟨k', h1, h2⟩ := i1 x hx; exact ⟨k', List.mem_cons_of_mem _ h1, h2⟩
        · intro x hx
          rcases List.mem_cons.mp hx with rfl | hx
          · exact ⟨m, by simp, hk⟩
          · obtain ⟨m', h1, h2⟩ := i2 x hx; exact ⟨m', List.mem_cons_of_mem _ h1, h2⟩

theorem getMaterials_ok (l : MatList) (ks : List Str) (h : ∀ k ∈ ks, ∃ m, l.byName k = .ok m) :
    ∃ ms, getMaterials l ks = .ok ms := by
  induction ks with
  | nil => exact ⟨_, rfl⟩
  | cons k ks ih =>
    obtain ⟨m, hm⟩ := h k (by simp)
    obtain ⟨ms, hms⟩ := ih (fun k' hk => h k' (List.mem_cons_of_mem _ hk))
    unfold getMaterials
    simp only [hm, hms]
    exact ⟨_, rfl⟩

theorem get?_isSome_mem_keys (d : Dict Str Card) (k : Str) : (d.get? k).isSome ↔ k ∈ d.keys := by
  have := Dict.get?_eq_none_iff d k
  cases h : d.get? k with
  | none => simp [this.mp h]
  | some c =>
    simp
    by_contra hn
    rw [this.mpr hn] at h; simp at h

/-- the card of a needed cell as it appears in the extracted model (specification) -/
def extracted (keep : Bool) (req : List ℤ) (c : Card) : Card :=
  if keep = false ∧ (∃ n ∈ req, c.num = .ok n) then removeU c else c

/-- the cards selected by the extraction, before universes are removed -/
theorem selected_cells (m : Deck) (req res : List ℤ) (fillers : Bool) (fuel : Nat) (cs : Dict Str Card)
    (h1 : collectLoop m.cells fillers fuel req.dedup req.dedup = .ok res)
    (h2 : getCardsById m.cells ((sortInts res).map intStr) [] = .ok cs) :
    cs.WF ∧ (∀ k c, cs.get? k = some c ↔
      ∃ n, k = intStr n ∧ Closure m.cells fillers req n ∧ m.cells.get? (intStr n) = some c) := by
  obtain ⟨c1, c2, c3⟩ := c10_closure m.cells fillers req res fuel h1
  obtain ⟨s1, s2, s3⟩ := getCardsById_spec _ _ _ _ h2
  refine ⟨s3 (by simp [Dict.WF, Dict.keys]), ?_⟩
  intro k c
  have nostar : ¬ ∃ id ∈ (sortInts res).map intStr, k = '*' :: id ∧ m.cells.get? id = none := by
    rintro ⟨id, hid, _, hn⟩
    obtain ⟨n, hn', rfl⟩ := List.mem_map.mp hid
    obtain ⟨c, hc⟩ := c3 n ((mem_sortInts _ _).mp hn')
    rw [hc] at hn; simp at hn
  rw [s1 k]
  constructor
  · intro h
    by_cases hk : k ∈ (sortInts res).map intStr ∧ (m.cells.get? k).isSome
    · rw [if_pos hk] at h
      obtain ⟨n, hn, rfl⟩ := List.mem_map.mp hk.1
      exact ⟨n, rfl, (c1 n).mp ((mem_sortInts _ _).mp hn), h⟩
    · rw [if_neg hk, if_neg nostar] at h; simp at h
  · rintro ⟨n, rfl, hn, hc⟩
    rw [if_pos ⟨List.mem_map.mpr ⟨n, (mem_sortInts _ _).mpr ((c1 n).mpr hn), rfl⟩, by simp [hc]⟩]
    exact hc

/-- **C12**. Whenever the extraction succeeds:
(1) its cells are exactly the needed ones, each under its own number with its card (without the
universe if it was requested and universes are not kept);
(2) every surface on a needed cell is there, with the card it has in the model;
(3) and no surface is there that is on none of them;
(4) the material of every needed non-void cell is there, and (5) no other material. -/
theorem c12_self_contained (m : Deck) (req : List ℤ) (keep fillers : Bool) (fuel : Nat)
    (cs ss : Dict Str Card) (ml : MatList) (h : extraction m req keep fillers fuel = .ok (cs, ss, ml)) :
    (∀ k c', cs.get? k = some c' ↔ ∃ n c, k = intStr n ∧ Closure m.cells fillers req n ∧
        m.cells.get? (intStr n) = some c ∧ c' = extracted keep req c) ∧
    (∀ n c v, Closure m.cells fillers req n → m.cells.get? (intStr n) = some c → (v, Kind.sur) ∈ c.values →
        ∃ key card, SurfCard m.surfs v key card ∧ ss.get? key = some card) ∧
    (∀ key card, ss.get? key = some card → ∃ n c v, Closure m.cells fillers req n ∧
        m.cells.get? (intStr n) = some c ∧ (v, Kind.sur) ∈ c.values ∧ SurfCard m.surfs v key card) ∧
    (∀ n c v, Closure m.cells fillers req n → m.cells.get? (intStr n) = some c → (v, Kind.mat) ∈ c.values →
        v ≠ 0 → ∃ mat ∈ ml.mats, m.materials.byName ('M' :: intStr v) = .ok mat) ∧
    (∀ mat ∈ ml.mats, ∃ n c v, Closure m.cells fillers req n ∧ m.cells.get? (intStr n) = some c ∧
        (v, Kind.mat) ∈ c.values ∧ v ≠ 0 ∧ m.materials.byName ('M' :: intStr v) = .ok mat) := by
  unfold extraction at h
  cases e1 : collectLoop m.cells fillers fuel req.dedup req.dedup with
  | error e => simp [e1] at h
  | ok res =>
    simp only [e1] at h
    cases e2 : getCardsById m.cells ((sortInts res).map intStr) [] with
    | error e => simp [e2] at h
    | ok cs0 =>
      simp only [e2] at h
      cases e3 : stripUniverses keep req cs0 with
      | error e => simp [e3] at h
      | ok cs1 =>
        simp only [e3] at h
        cases e4 : getCardsById m.surfs ((sortInts (numbersOf .sur cs0)).map intStr) [] with
        | error e => simp [e4] at h
        | ok ss0 =>
          simp only [e4] at h
          cases e5 : getMaterials m.materials
              (((numbersOf .mat cs0).filter (fun n => n ≠ 0)).map (fun n => 'M' :: intStr n)) with
          | error e => simp only [e5] at h; simp at h
          | ok ms =>
            simp only [e5, Except.ok.injEq, Prod.mk.injEq] at h
            obtain ⟨rfl, rfl, rfl⟩ := h
            obtain ⟨w0, sel⟩ := selected_cells m req res fillers fuel cs0 e1 e2
            have strip := (stripUniverses_spec keep req cs0 cs1 e3).1
            obtain ⟨s1, s2, s3⟩ := getCardsById_spec _ _ _ _ e4
            obtain ⟨m1, m2⟩ := getMaterials_spec _ _ _ e5
            have num : ∀ k v, v ∈ numbersOf k cs0 ↔ ∃ n c, Closure m.cells fillers req n ∧
                m.cells.get? (intStr n) = some c ∧ (v, k) ∈ c.values := by
              intro k v
              rw [mem_numbersOf]
              constructor
              · rintro ⟨key, c, hm, hv⟩
                obtain ⟨n, rfl, hn, hc⟩ := (sel key c).mp (Dict.get?_of_mem w0 hm)
                exact ⟨n, c, hn, hc, hv⟩
              · rintro ⟨n, c, hn, hc, hv⟩
                exact ⟨intStr n, c, Dict.mem_of_get? ((sel _ _).mpr ⟨n, rfl, hn, hc⟩), hv⟩
            refine ⟨?_, ?_, ?_, ?_, ?_⟩
            · intro k c'
              rw [strip k]
              constructor
              · intro hk
                cases hc : cs0.get? k with
                | none => simp [hc] at hk
                | some c =>
                  rw [hc] at hk
                  simp only [Option.map_some, Option.some.injEq] at hk
                  obtain ⟨n, rfl, hn, hc'⟩ := (sel _ _).mp hc
                  exact ⟨n, c, rfl, hn, hc', hk.symm⟩
              · rintro ⟨n, c, rfl, hn, hc, rfl⟩
                rw [(sel _ _).mpr ⟨n, rfl, hn, hc⟩]
                rfl
            · intro n c v hn hc hv
              have hmem : intStr v ∈ (sortInts (numbersOf .sur cs0)).map intStr :=
                List.mem_map.mpr ⟨v, (mem_sortInts _ _).mpr ((num _ _).mpr ⟨n, c, hn, hc, hv⟩), rfl⟩
              cases hs : m.surfs.get? (intStr v) with
              | some card =>
                refine ⟨intStr v, card, Or.inl ⟨rfl, hs⟩, ?_⟩
                rw [s1, if_pos ⟨hmem, by simp [hs]⟩, hs]
              | none =>
                rcases s2 _ hmem with h' | h'
                · simp [hs] at h'
                · obtain ⟨card, hcard⟩ := Option.isSome_iff_exists.mp h'
                  refine ⟨'*' :: intStr v, card, Or.inr ⟨rfl, hs, hcard⟩, ?_⟩
                  rw [s1]
                  by_cases hx : '*' :: intStr v ∈ (sortInts (numbersOf .sur cs0)).map intStr ∧
                      (m.surfs.get? ('*' :: intStr v)).isSome
                  · rw [if_pos hx, hcard]
                  · rw [if_neg hx, if_pos ⟨_, hmem, rfl, hs⟩, hcard]
            · intro key card hk
              rw [s1] at hk
              by_cases hx : key ∈ (sortInts (numbersOf .sur cs0)).map intStr ∧ (m.surfs.get? key).isSome
              · rw [if_pos hx] at hk
                obtain ⟨v, hv, rfl⟩ := List.mem_map.mp hx.1
                obtain ⟨n, c, hn, hc, hv'⟩ := (num _ _).mp ((mem_sortInts _ _).mp hv)
                exact ⟨n, c, v, hn, hc, hv', Or.inl ⟨rfl, hk⟩⟩
              · rw [if_neg hx] at hk
                by_cases hy : ∃ id ∈ (sortInts (numbersOf .sur cs0)).map intStr,
                    key = '*' :: id ∧ m.surfs.get? id = none
                · rw [if_pos hy] at hk
                  obtain ⟨id, hid, rfl, hnone⟩ := hy
                  obtain ⟨v, hv, rfl⟩ := List.mem_map.mp hid
                  obtain ⟨n, c, hn, hc, hv'⟩ := (num _ _).mp ((mem_sortInts _ _).mp hv)
                  exact ⟨n, c, v, hn, hc, hv', Or.inr ⟨rfl, hnone, hk⟩⟩
                · rw [if_neg hy] at hk; simp at hk
            · intro n c v hn hc hv h0
              have : 'M' :: intStr v ∈
                  ((numbersOf .mat cs0).filter (fun n => n ≠ 0)).map (fun n => 'M' :: intStr n) :=
                List.mem_map.mpr ⟨v, List.mem_filter.mpr ⟨(num _ _).mpr ⟨n, c, hn, hc, hv⟩, by simpa using h0⟩, rfl⟩
              obtain ⟨mat, hm, hb⟩ := m2 _ this
              exact ⟨mat, hm, hb⟩
            · intro mat hm
              obtain ⟨k, hk, hb⟩ := m1 mat hm
              obtain ⟨v, hv, rfl⟩ := List.mem_map.mp hk
              rw [List.mem_filter] at hv
              obtain ⟨n, c, hn, hc, hv'⟩ := (num _ _).mp hv.1
              exact ⟨n, c, v, hn, hc, hv', by simpa using hv.2, hb⟩

/-- the extraction succeeds if the collection ends and everything that is needed exists -/
theorem c12_succeeds_of_ends (m : Deck) (req : List ℤ) (keep fillers : Bool) (fuel : Nat)
    (hnd : collectLoop m.cells fillers fuel req.dedup req.dedup ≠ .error .diverges)
    (hcell : ∀ n, Closure m.cells fillers req n → ∃ c, m.cells.get? (intStr n) = some c ∧ c.values ≠ [])
    (hsurf : ∀ n c v, Closure m.cells fillers req n → m.cells.get? (intStr n) = some c →
      (v, Kind.sur) ∈ c.values → ∃ key card, SurfCard m.surfs v key card)
    (hmat : ∀ n c v, Closure m.cells fillers req n → m.cells.get? (intStr n) = some c →
      (v, Kind.mat) ∈ c.values → v ≠ 0 → ∃ mat, m.materials.byName ('M' :: intStr v) = .ok mat) :
    ∃ r, extraction m req keep fillers fuel = .ok r := by
  cases e1 : collectLoop m.cells fillers fuel req.dedup req.dedup with
  | error e =>
    exfalso
    rw [e1] at hnd
    obtain ⟨_, b, hb, hn⟩ := c10_refused m.cells fillers req fuel e e1 (by intro h; exact hnd (by rw [h]))
    obtain ⟨c, hc, _⟩ := hcell b hb
    rw [hc] at hn; simp at hn
  | ok res =>
    obtain ⟨c1, c2, c3⟩ := c10_closure m.cells fillers req res fuel e1
    obtain ⟨cs0, e2⟩ := getCardsById_ok m.cells ((sortInts res).map intStr) [] (by
      intro id hid
      obtain ⟨n, hn, rfl⟩ := List.mem_map.mp hid
      obtain ⟨c, hc⟩ := c3 n ((mem_sortInts _ _).mp hn)
      left; simp [hc])
    obtain ⟨w0, sel⟩ := selected_cells m req res fillers fuel cs0 e1 e2
    obtain ⟨cs1, e3⟩ := stripUniverses_ok keep req cs0 (by
      rintro ⟨k, c⟩ hkc
      obtain ⟨n, rfl, hn, hc⟩ := (sel k c).mp (Dict.get?_of_mem w0 hkc)
      obtain ⟨c', hc', hv⟩ := hcell n hn
      rw [hc] at hc'; cases hc'; exact hv)
    obtain ⟨ss, e4⟩ := getCardsById_ok m.surfs ((sortInts (numbersOf .sur cs0)).map intStr) [] (by
      intro id hid
      obtain ⟨v, hv, rfl⟩ := List.mem_map.mp hid
      obtain ⟨key, c, hm, hv'⟩ := (mem_numbersOf _ _ _).mp ((mem_sortInts _ _).mp hv)
      obtain ⟨n, rfl, hn, hc⟩ := (sel key c).mp (Dict.get?_of_mem w0 hm)
      obtain ⟨k, card, ⟨rfl, h⟩ | ⟨rfl, _, h⟩⟩ := hsurf n c v hn hc hv'
      · left; simp [h]
      · right; simp [h])
    obtain ⟨ms, e5⟩ := getMaterials_ok m.materials
      (((numbersOf .mat cs0).filter (fun n => n ≠ 0)).map (fun n => 'M' :: intStr n)) (by
      intro k hk
      obtain ⟨v, hv, rfl⟩ := List.mem_map.mp hk
      rw [List.mem_filter] at hv
      obtain ⟨key, c, hm, hv'⟩ := (mem_numbersOf _ _ _).mp hv.1
      obtain ⟨n, rfl, hn, hc⟩ := (sel key c).mp (Dict.get?_of_mem w0 hm)
      exact hmat n c v hn hc hv' (by simpa using hv.2))
    exact ⟨_, by simp only [extraction, e1, e2, e3, e4, e5]; rfl⟩

/-- **C12** (it succeeds when it should). If no cell needs itself through others and every needed
cell, its surfaces (plain or with an asterisk) and its materials exist, the extraction succeeds. -/
theorem c12_succeeds (m : Deck) (req : List ℤ) (keep fillers : Bool) (fuel : Nat)
    (hac : Acyclic m.cells fillers) (hf : m.cells.length < fuel)
    (hcell : ∀ n, Closure m.cells fillers req n → ∃ c, m.cells.get? (intStr n) = some c ∧ c.values ≠ [])
    (hsurf : ∀ n c v, Closure m.cells fillers req n → m.cells.get? (intStr n) = some c →
      (v, Kind.sur) ∈ c.values → ∃ key card, SurfCard m.surfs v key card)
    (hmat : ∀ n c v, Closure m.cells fillers req n → m.cells.get? (intStr n) = some c →
      (v, Kind.mat) ∈ c.values → v ≠ 0 → ∃ mat, m.materials.byName ('M' :: intStr v) = .ok mat) :
    ∃ r, extraction m req keep fillers fuel = .ok r :=
  c12_succeeds_of_ends m req keep fillers fuel
    (c11_terminates_partial m.cells fillers hac req fuel hf) hcell hsurf hmat

/-- **C12** (a case that is refused). A needed cell that uses a surface which the model stores under
a key with `+` only (a white boundary) makes the extraction raise `KeyError`. -/
theorem c12_white_surface_refused (m : Deck) (req : List ℤ) (keep fillers : Bool) (fuel : Nat)
    (n v : ℤ) (c : Card) (hn : Closure m.cells fillers req n) (hc : m.cells.get? (intStr n) = some c)
    (hv : (v, Kind.sur) ∈ c.values) (h1 : m.surfs.get? (intStr v) = none)
    (h2 : m.surfs.get? ('*' :: intStr v) = none) :
    ∃ e, extraction m req keep fillers fuel = .error e := by
  cases h : extraction m req keep fillers fuel with
  | error e => exact ⟨e, rfl⟩
  | ok r =>
    exfalso
    obtain ⟨cs, ss, ml⟩ := r
    obtain ⟨-, hs, -⟩ := c12_self_contained m req keep fillers fuel cs ss ml h
    obtain ⟨key, card, ⟨rfl, h'⟩ | ⟨rfl, _, h'⟩, _⟩ := hs n c v hn hc hv
    · rw [h1] at h'; simp at h'
    · rw [h2] at h'; simp at h'

/-! ### the written model -/

/-- A dictionary of cards whose keys name the numbers on the cards (specification) -/
def KeysOk (numOf : Str → Str) (d : Dict Str Card) : Prop := ∀ kc ∈ d, numOf kc.1 = intStr kc.2.name

theorem setCards_id (kind : Kind) (numOf : Str → Str) (d : Dict Str Card) (h : KeysOk numOf d) :
    setCards kind numOf d = .ok d := by
  induction d with
  | nil => rfl
  | cons kc r ih =>
    obtain ⟨k, c⟩ := kc
    have h1 : numOf k = intStr c.name := h (k, c) (by simp)
    unfold setCards
    rw [show fixCard kind (numOf k) c = .ok c from by unfold fixCard; rw [if_pos h1]]
    simp only [ih (fun x hx => h x (List.mem_cons_of_mem _ hx))]

theorem extraction_surfs_mem (m : Deck) (req : List ℤ) (keep fillers : Bool) (fuel : Nat)
    (cs ss : Dict Str Card) (ml : MatList) (h : extraction m req keep fillers fuel = .ok (cs, ss, ml)) :
    (∀ k c, (k, c) ∈ cs → cs.get? k = some c) ∧ (∀ k c, (k, c) ∈ ss → ss.get? k = some c) := by
  unfold extraction at h
  cases e1 : collectLoop m.cells fillers fuel req.dedup req.dedup with
  | error e => simp [e1] at h
  | ok res =>
    simp only [e1] at h
    cases e2 : getCardsById m.cells ((sortInts res).map intStr) [] with
    | error e => simp [e2] at h
    | ok cs0 =>
      simp only [e2] at h
      cases e3 : stripUniverses keep req cs0 with
      | error e => simp [e3] at h
      | ok cs1 =>
        simp only [e3] at h
        cases e4 : getCardsById m.surfs ((sortInts (numbersOf .sur cs0)).map intStr) [] with
        | error e => simp [e4] at h
        | ok ss0 =>
          simp only [e4] at h
          cases e5 : getMaterials m.materials
              (((numbersOf .mat cs0).filter (fun n => n ≠ 0)).map (fun n => 'M' :: intStr n)) with
          | error e => simp only [e5] at h; simp at h
          | ok ms =>
            simp only [e5, Except.ok.injEq, Prod.mk.injEq] at h
            obtain ⟨rfl, rfl, rfl⟩ := h
            have w0 := (getCardsById_spec _ _ _ _ e2).2.2 (by simp [Dict.WF, Dict.keys])
            have w1 := (getCardsById_spec _ _ _ _ e4).2.2 (by simp [Dict.WF, Dict.keys])
            have keys : cs1.keys = cs0.keys := (stripUniverses_spec keep req cs0 cs1 e3).2
            refine ⟨fun k c hm => Dict.get?_of_mem ?_ hm, fun k c hm => Dict.get?_of_mem w1 hm⟩
            unfold Dict.WF
            rw [keys]
            exact w0

/-- **C12** (the written file). On a model whose keys name the numbers of the cards, the model that
`extract_cells` writes has exactly the extracted cells, surfaces and materials, and all the
transformations and other data of the original. -/
theorem c12_written (m : Deck) (req : List ℤ) (keep fillers : Bool) (fuel : Nat)
    (hc : KeysOk id m.cells) (hs : KeysOk keyNum m.surfs)
    (cs ss : Dict Str Card) (ml : MatList) (h : extraction m req keep fillers fuel = .ok (cs, ss, ml)) :
    extractCells m req keep fillers fuel = .ok { m with cells := cs, surfs := ss, materials := ml } := by
  obtain ⟨h1, _, h3, _, _⟩ := c12_self_contained m req keep fillers fuel cs ss ml h
  obtain ⟨wc, ws⟩ := extraction_surfs_mem m req keep fillers fuel cs ss ml h
  have k1 : KeysOk id cs := by
    rintro ⟨k, c'⟩ hkc
    obtain ⟨n, c, rfl, _, hc', rfl⟩ := (h1 k c').mp (wc k c' hkc)
    have := hc (intStr n, c) (Dict.mem_of_get? hc')
    simp only [id] at this ⊢
    rw [this]
    unfold extracted
    split
    · rfl
    · rfl
  have k2 : KeysOk keyNum ss := by
    rintro ⟨k, c⟩ hkc
    obtain ⟨n, c', v, _, _, _, ⟨rfl, hx⟩ | ⟨rfl, _, hx⟩⟩ := h3 k c (ws k c hkc)
    · exact hs (_, c) (Dict.mem_of_get? hx)
    · exact hs (_, c) (Dict.mem_of_get? hx)
  simp only [extractCells, h, setCards_id _ _ _ k1, setCards_id _ _ _ k2]

/-- a complete small model: two extracted cells, one with a reflecting surface (example) -/
def demoDeck : Deck where
  cells := demoCells
  surfs := [("5".toList, ⟨5, [], [], true, [(5, .sur)], none⟩),
            ("*6".toList, ⟨6, ['*'], [], true, [(6, .sur)], none⟩),
            ("8".toList, ⟨8, [], [], true, [(8, .sur)], none⟩),
            ("9".toList, ⟨9, [], [], true, [(9, .sur)], none⟩)]
  materials := mkMatList [⟨"m3".toList, []⟩, ⟨"M4".toList, []⟩, ⟨"m5".toList, []⟩]
  transformations := []
  other := []
  tallyKeys := []
  fmeshKeys := []
  header := []

example : (extraction demoDeck [1] true true 5).map (fun r => (r.1.keys, r.2.1.keys, r.2.2.mats.map Mat.name)) =
    .ok (["1".toList, "2".toList, "3".toList], ["5".toList, "*6".toList, "8".toList],
      ["m3".toList, "M4".toList]) := by decide +kernel

/-! ### C13 -/

/-- **C13**. `check_range` answers True exactly when no number of the range is the number of a key of
the model (asterisks and plus signs ignored), and refuses any other kind of card. -/
theorem c13_check_range (m : Deck) (range : List ℤ) (who : Str) :
    (who ≠ "cell".toList → who ≠ "surf".toList → checkRange m range who = .error .valueError) ∧
    (∀ used, (who = "cell".toList ∧ used = m.cells.keys ∨ who = "surf".toList ∧ used = m.surfs.keys) →
      ∃ b, checkRange m range who = .ok b ∧
        (b = true ↔ ∀ i ∈ range, ∀ k ∈ used, intStr i ≠ k.filter (fun c => c ≠ '*' ∧ c ≠ '+'))) := by
  constructor
  · intro h1 h2
    unfold checkRange
    rw [if_neg h1, if_neg h2]
  · intro used hu
    have hsel : (if who = "cell".toList then some m.cells.keys
         else if who = "surf".toList then some m.surfs.keys else none) = some used := by
      rcases hu with ⟨rfl, rfl⟩ | ⟨rfl, rfl⟩
      · rw [if_pos rfl]
      · rw [if_neg (by decide), if_pos rfl]
    unfold checkRange
    rw [hsel]
    refine ⟨_, rfl, ?_⟩
    rw [List.all_eq_true]
    refine forall_congr' fun i => forall_congr' fun _ => ?_
    rw [List.all_eq_true]
    refine forall_congr' fun k => forall_congr' fun _ => ?_
    rw [List.filter_filter, decide_eq_true_iff]
    have : (fun c : Char => decide (c ≠ '+') && decide (c ≠ '*')) = (fun c => decide (c ≠ '*' ∧ c ≠ '+')) := by
      funext c; simp [Bool.and_comm]
    rw [this]

/-- **C13** (in terms of numbers). For surfaces stored under their number, plain or marked with an
asterisk or a plus sign, the answer is True exactly when no number of the range is used. -/
theorem c13_surfaces (m : Deck) (range : List ℤ)
    (hk : ∀ k ∈ m.surfs.keys, ∃ n : ℤ, k = intStr n ∨ k = '*' :: intStr n ∨ k = '+' :: intStr n) :
    checkRange m range "surf".toList = .ok true ↔
      ∀ i ∈ range, intStr i ∉ m.surfs.keys ∧ '*' :: intStr i ∉ m.surfs.keys ∧ '+' :: intStr i ∉ m.surfs.keys := by
  have digits : ∀ n : ℤ, (intStr n).filter (fun c => decide (c ≠ '*' ∧ c ≠ '+')) = intStr n := by
    intro n
    rw [List.filter_eq_self]
    intro c hc
    have dig : ∀ k : Nat, ∀ c ∈ natStr k, c ≠ '*' ∧ c ≠ '+' := by
      intro k c hc
      have := natStr_all_digit k c hc
      constructor <;> (rintro rfl; simp [isDigit] at this)
    cases n with
    | ofNat k => simpa using dig k c hc
    | negSucc k =>
      simp only [intStr, List.mem_cons] at hc
      rcases hc with rfl | hc
      · decide
      · simpa using dig _ c hc
  obtain ⟨b, hb, hiff⟩ := (c13_check_range m range "surf".toList).2 m.surfs.keys (Or.inr ⟨rfl, rfl⟩)
  rw [hb, Except.ok.injEq, hiff]
  refine forall_congr' fun i => forall_congr' fun _ => ?_
  constructor
  · intro h
    refine ⟨fun hm => h _ hm (digits i).symm, fun hm => h _ hm ?_, fun hm => h _ hm ?_⟩
    · rw [List.filter_cons_of_neg (by simp), digits]
    · rw [List.filter_cons_of_neg (by simp), digits]
  · rintro ⟨h1, h2, h3⟩ k hk' he
    obtain ⟨n, rfl | rfl | rfl⟩ := hk k hk'
    · rw [digits] at he; rw [intStr_inj he] at h1; exact h1 hk'
    · rw [List.filter_cons_of_neg (by simp), digits] at he; rw [intStr_inj he] at h2; exact h2 hk'
    · rw [List.filter_cons_of_neg (by simp), digits] at he; rw [intStr_inj he] at h3; exact h3 hk'

example : checkRange demoDeck [1, 7] "surf".toList = .ok true ∧ checkRange demoDeck [7, 6] "surf".toList = .ok false ∧
    checkRange demoDeck [4] "cell".toList = .ok false ∧ checkRange demoDeck [4] "mat".toList = .error .valueError := by
  decide +kernel

end F4Enix.Inp
