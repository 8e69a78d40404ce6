import Verif.Mat.Spec
import Mathlib.Data.List.Dedup
import Mathlib.Algebra.BigOperators.Ring.List
import Mathlib.Tactic.Ring
import Mathlib.Tactic.Linarith
/-!
# C27: collapsing zaids into elements
-/
namespace F4Enix.Mat
open F4Enix

/-! ### reading a zaid name back -/

theorem splitDot_no {s : Str} (h : '.' ∉ s) : splitDot s = [s] := by
  induction s with
  | nil => rfl
  | cons c s ih =>
    simp only [List.mem_cons, not_or] at h
    simp only [splitDot, if_neg (Ne.symm h.1), ih h.2]

theorem splitDot_append {s t : Str} (h : '.' ∉ s) : splitDot (s ++ '.' :: t) = s :: splitDot t := by
  induction s with
  | nil => simp [splitDot]
  | cons c s ih =>
    simp only [List.mem_cons, not_or] at h
    simp only [List.cons_append, splitDot, if_neg (Ne.symm h.1), ih h.2]

theorem dropLast3_num {z : Zaid} (h : Canon z) : dropLast3 z.num = z.element := by
  rcases h.isotopeLen with h3 | ⟨he, h3⟩
  · simp [dropLast3, Zaid.num, h3]
  · have : z.isotope.length - 3 = 0 := by omega
    simp [dropLast3, Zaid.num, he, this]

theorem last3_num {z : Zaid} (h : Canon z) : last3 z.num = z.isotope := by
  rcases h.isotopeLen with h3 | ⟨he, h3⟩
  · simp [last3, Zaid.num, h3]
  · have : z.isotope.length - 3 = 0 := by omega
    simp [last3, Zaid.num, he, this]

theorem num_noDot {z : Zaid} (h : Canon z) : '.' ∉ z.num := by
  simp only [Zaid.num, List.mem_append, not_or]; exact ⟨h.elementDot, h.isotopeDot⟩

/-- **C27 (text form of a zaid).** Rebuilding a zaid from its name and a fraction gives the same
element, isotope and library. -/
theorem fromString_name {z : Zaid} (h : Canon z) (f : ℚ) :
    fromString z.name f = { z with fraction := f } := by
  have h1 := num_noDot h
  cases hl : z.library with
  | none =>
    simp only [Zaid.name, hl, fromString, splitDot_no h1, dropLast3_num h, last3_num h]
  | some l =>
    simp only [Zaid.name, hl, fromString, splitDot_append h1, splitDot_no (h.libraryDot l hl),
      dropLast3_num h, last3_num h]

theorem name_inj {z y : Zaid} (hz : Canon z) (hy : Canon y) (h : z.name = y.name) :
    z.element = y.element ∧ z.isotope = y.isotope ∧ z.library = y.library := by
  have h1 := fromString_name hz 0
  have h2 := fromString_name hy 0
  rw [h, h2] at h1
  have := h1
  simp only [Zaid.mk.injEq, true_and] at this
  exact ⟨this.1.symm, this.2.1.symm, this.2.2.symm⟩

theorem name_withFraction (z : Zaid) (f : ℚ) : ({ z with fraction := f } : Zaid).name = z.name := rfl

/-! ### sums -/

/-- a sum over a list (proof) -/
def sumOf {α : Type} (l : List α) (h : α → ℚ) : ℚ := (l.map h).sum

@[simp] theorem sumOf_nil {α : Type} (h : α → ℚ) : sumOf [] h = 0 := rfl
@[simp] theorem sumOf_cons {α : Type} (a : α) (l : List α) (h : α → ℚ) :
    sumOf (a :: l) h = h a + sumOf l h := by simp [sumOf]
@[simp] theorem sumOf_append {α : Type} (l l' : List α) (h : α → ℚ) :
    sumOf (l ++ l') h = sumOf l h + sumOf l' h := by simp [sumOf]

theorem sumOf_congr {α : Type} {l : List α} {h h' : α → ℚ} (hc : ∀ a ∈ l, h a = h' a) :
    sumOf l h = sumOf l h' := by
  unfold sumOf
  rw [List.map_congr_left hc]

theorem sumOf_map {α β : Type} (l : List α) (g : α → β) (h : β → ℚ) :
    sumOf (l.map g) h = sumOf l (fun a => h (g a)) := by simp [sumOf, Function.comp_def]

theorem sumOf_flatMap {α β : Type} (l : List α) (g : α → List β) (h : β → ℚ) :
    sumOf (l.flatMap g) h = sumOf l (fun a => sumOf (g a) h) := by
  induction l with
  | nil => rfl
  | cons a l ih => simp [ih]

theorem total_eq_sumOf (zs : List Zaid) : total zs = sumOf zs Zaid.fraction := rfl

theorem total_filter (zs : List Zaid) (p : Zaid → Bool) :
    total (zs.filter p) = sumOf zs (fun z => (if p z then 1 else 0) * z.fraction) := by
  induction zs with
  | nil => rfl
  | cons z zs ih =>
    rw [sumOf_cons, ← ih]
    by_cases hp : p z
    · simp [hp, total]
    · simp [hp]

/-! ### the summing dictionary -/

theorem sumOf_set_some {κ ν : Type} [DecidableEq κ] (d : Dict κ ν) (h : κ × ν → ℚ) {k : κ} {v v' : ν}
    (hg : Dict.get? d k = some v) :
    sumOf (Dict.set d k v') h = sumOf d h - h (k, v) + h (k, v') := by
  induction d with
  | nil => simp at hg
  | cons p d ih =>
    obtain ⟨a, b⟩ := p
    by_cases hk : a = k
    · simp only [Dict.get?, hk, if_true, Option.some.injEq] at hg
      subst hk; subst hg
      simp [Dict.set]; ring
    · simp only [Dict.get?, if_neg hk] at hg
      simp only [Dict.set, if_neg hk, sumOf_cons, ih hg]; ring

theorem sumOf_set_none {κ ν : Type} [DecidableEq κ] (d : Dict κ ν) (h : κ × ν → ℚ) {k : κ} {v' : ν}
    (hg : Dict.get? d k = none) : sumOf (Dict.set d k v') h = sumOf d h + h (k, v') := by
  induction d with
  | nil => simp [Dict.set]
  | cons p d ih =>
    obtain ⟨a, b⟩ := p
    by_cases hk : a = k
    · simp [Dict.get?, hk] at hg
    · simp only [Dict.get?, if_neg hk] at hg
      simp only [Dict.set, if_neg hk, sumOf_cons, ih hg]; ring

theorem sumNames_weighted (w : Str → ℚ) (zs : List Zaid) (d : Dict Str ℚ) :
    sumOf (sumNames d zs) (fun p => w p.1 * p.2) =
      sumOf d (fun p => w p.1 * p.2) + sumOf zs (fun z => w z.name * z.fraction) := by
  induction zs generalizing d with
  | nil => simp [sumNames]
  | cons z zs ih =>
    cases hg : Dict.get? d z.name with
    | none =>
      simp only [sumNames, hg]
      rw [ih, sumOf_set_none d _ hg, sumOf_cons]; ring
    | some f =>
      simp only [sumNames, hg]
      rw [ih, sumOf_set_some d _ hg, sumOf_cons]; ring

theorem sumNames_WF (zs : List Zaid) (d : Dict Str ℚ) (h : Dict.WF d) :
    Dict.WF (sumNames d zs) := by
  induction zs generalizing d with
  | nil => exact h
  | cons z zs ih =>
    cases hg : Dict.get? d z.name with
    | none => simp only [sumNames, hg]; exact ih _ (Dict.WF_set h _ _)
    | some f => simp only [sumNames, hg]; exact ih _ (Dict.WF_set h _ _)

theorem mem_keys_sumNames (zs : List Zaid) (d : Dict Str ℚ) (n : Str) :
    n ∈ Dict.keys (sumNames d zs) ↔ n ∈ Dict.keys d ∨ ∃ z ∈ zs, z.name = n := by
  induction zs generalizing d with
  | nil => simp [sumNames]
  | cons z zs ih =>
    have key : ∀ v, n ∈ Dict.keys (sumNames (Dict.set d z.name v) zs) ↔
        n ∈ Dict.keys d ∨ ∃ y ∈ z :: zs, y.name = n := by
      intro v
      rw [ih, Dict.mem_keys_set]
      simp only [List.mem_cons, exists_eq_or_imp]
      constructor
      · rintro ((rfl | h) | h)
        · exact Or.inr (Or.inl rfl)
        · exact Or.inl h
        · exact Or.inr (Or.inr h)
      · rintro (h | h | h)
        · exact Or.inl (Or.inr h)
        · exact Or.inl (Or.inl h.symm)
        · exact Or.inr h
    cases hg : Dict.get? d z.name with
    | none => simp only [sumNames, hg]; exact key _
    | some f => simp only [sumNames, hg]; exact key _

/-! ### the grouping dictionary -/

theorem groupBy_sum (h : Zaid → ℚ) (zs : List Zaid) (d : Dict Str (List Zaid)) :
    sumOf (groupByElement d zs) (fun p => sumOf p.2 h) =
      sumOf d (fun p => sumOf p.2 h) + sumOf zs h := by
  induction zs generalizing d with
  | nil => simp [groupByElement]
  | cons z zs ih =>
    cases hg : Dict.get? d z.element with
    | none =>
      simp only [groupByElement, hg]
      rw [ih, sumOf_set_none d _ hg, sumOf_cons]; simp; ring
    | some l =>
      simp only [groupByElement, hg]
      rw [ih, sumOf_set_some d _ hg, sumOf_cons]; simp; ring

/-- every group holds the zaids of its element, and is not empty -/
theorem groupBy_inv (zs all : List Zaid) (d : Dict Str (List Zaid))
    (hd : ∀ p ∈ d, p.2 ≠ [] ∧ ∀ z ∈ p.2, z.element = p.1 ∧ z ∈ all) (hs : ∀ z ∈ zs, z ∈ all)
    (hw : Dict.WF d) :
    Dict.WF (groupByElement d zs) ∧
    ∀ p ∈ groupByElement d zs, p.2 ≠ [] ∧ ∀ z ∈ p.2, z.element = p.1 ∧ z ∈ all := by
  induction zs generalizing d with
  | nil => exact ⟨hw, hd⟩
  | cons z zs ih =>
    have key : ∀ l, l ≠ [] → (∀ y ∈ l, y.element = z.element ∧ y ∈ all) →
        Dict.WF (groupByElement (Dict.set d z.element l) zs) ∧
        ∀ p ∈ groupByElement (Dict.set d z.element l) zs,
          p.2 ≠ [] ∧ ∀ y ∈ p.2, y.element = p.1 ∧ y ∈ all := by
      intro l hne hl
      refine ih _ ?_ (fun y hy => hs y (List.mem_cons_of_mem _ hy)) (Dict.WF_set hw _ _)
      intro p hp
      have hget := Dict.get?_of_mem (Dict.WF_set hw z.element l) (k := p.1) (v := p.2) hp
      rw [Dict.get?_set] at hget
      by_cases he : z.element = p.1
      · rw [if_pos he] at hget
        simp only [Option.some.injEq] at hget
        rw [← hget, ← he]; exact ⟨hne, hl⟩
      · rw [if_neg he] at hget
        exact hd p (Dict.mem_of_get? hget)
    cases hg : Dict.get? d z.element with
    | none =>
      simp only [groupByElement, hg]
      exact key _ (by simp) (by
        intro y hy; simp only [List.mem_singleton] at hy; subst hy
        exact ⟨rfl, hs _ (by simp)⟩)
    | some l =>
      simp only [groupByElement, hg]
      refine key _ (by simp) ?_
      intro y hy
      simp only [List.mem_append, List.mem_singleton] at hy
      rcases hy with hy | rfl
      · exact (hd _ (Dict.mem_of_get? hg)).2 y hy
      · exact ⟨rfl, hs _ (by simp)⟩

theorem firstOccurrences_snoc (l : List Str) (a : Str) :
    firstOccurrences (l ++ [a]) =
      if a ∈ l then firstOccurrences l else firstOccurrences l ++ [a] := by
  unfold firstOccurrences
  simp only [List.reverse_append, List.reverse_cons, List.reverse_nil, List.nil_append,
    List.singleton_append]
  by_cases h : a ∈ l
  · rw [if_pos h, List.dedup_cons_of_mem (by simpa using h)]
  · rw [if_neg h, List.dedup_cons_of_notMem (by simpa using h), List.reverse_cons]

theorem mem_firstOccurrences (l : List Str) (a : Str) : a ∈ firstOccurrences l ↔ a ∈ l := by
  simp [firstOccurrences]

theorem groupBy_keys (zs done : List Zaid) (d : Dict Str (List Zaid))
    (hd : Dict.keys d = firstOccurrences (done.map Zaid.element)) :
    Dict.keys (groupByElement d zs) = firstOccurrences ((done ++ zs).map Zaid.element) := by
  induction zs generalizing d done with
  | nil => simpa [groupByElement] using hd
  | cons z zs ih =>
    have key : ∀ l, Dict.keys (groupByElement (Dict.set d z.element l) zs) =
        firstOccurrences ((done ++ z :: zs).map Zaid.element) := by
      intro l
      have := ih (done ++ [z]) (Dict.set d z.element l) (by
        rw [Dict.keys_set, List.map_append, List.map_singleton, firstOccurrences_snoc, hd]
        simp only [mem_firstOccurrences])
      simpa using this
    cases hg : Dict.get? d z.element with
    | none => simp only [groupByElement, hg]; exact key _
    | some l => simp only [groupByElement, hg]; exact key _

/-! ### elements -/

theorem lastElement_const {zs : List Zaid} {e : Str} (hne : zs ≠ [])
    (h : ∀ z ∈ zs, z.element = e) : lastElement zs = e := by
  induction zs with
  | nil => exact absurd rfl hne
  | cons z zs ih =>
    cases zs with
    | nil => exact h z (by simp)
    | cons y ys => exact ih (by simp) (fun x hx => h x (List.mem_cons_of_mem _ hx))

/-- the zaids of an element rebuilt from the summing dictionary -/
theorem mkElement_zaids {zs : List Zaid} (hc : ∀ z ∈ zs, Canon z) :
    ∀ y ∈ (mkElement zs).zaids, ∃ z ∈ zs, y.name = z.name ∧ y.element = z.element ∧
      y.isotope = z.isotope ∧ y.library = z.library := by
  intro y hy
  simp only [mkElement, List.mem_map] at hy
  obtain ⟨p, hp, rfl⟩ := hy
  have : p.1 ∈ Dict.keys (sumNames [] zs) := List.mem_map.mpr ⟨p, hp, rfl⟩
  rw [mem_keys_sumNames] at this
  rcases this with h | ⟨z, hz, hn⟩
  · simp [Dict.keys] at h
  · refine ⟨z, hz, ?_⟩
    rw [← hn, fromString_name (hc z hz)]
    exact ⟨rfl, rfl, rfl, rfl⟩

theorem mkElement_names {zs : List Zaid} (hc : ∀ z ∈ zs, Canon z) :
    (mkElement zs).zaids.map Zaid.name = Dict.keys (sumNames [] zs) := by
  simp only [mkElement, List.map_map, Dict.keys]
  apply List.map_congr_left
  intro p hp
  have : p.1 ∈ Dict.keys (sumNames [] zs) := List.mem_map.mpr ⟨p, hp, rfl⟩
  rw [mem_keys_sumNames] at this
  rcases this with h | ⟨z, hz, hn⟩
  · simp [Dict.keys] at h
  · simp only [Function.comp, ← hn, fromString_name (hc z hz), name_withFraction]

theorem mkElement_weighted {zs : List Zaid} (hc : ∀ z ∈ zs, Canon z) (w : Str → ℚ) :
    sumOf (mkElement zs).zaids (fun z => w z.name * z.fraction) =
      sumOf zs (fun z => w z.name * z.fraction) := by
  have h := sumNames_weighted w zs []
  simp only [sumOf_nil, zero_add] at h
  rw [← h]
  simp only [mkElement, sumOf_map]
  apply sumOf_congr
  intro p hp
  have : p.1 ∈ Dict.keys (sumNames [] zs) := List.mem_map.mpr ⟨p, hp, rfl⟩
  rw [mem_keys_sumNames] at this
  rcases this with h | ⟨z, hz, hn⟩
  · simp [Dict.keys] at h
  · rw [← hn, fromString_name (hc z hz), name_withFraction]

/-! ### C27 -/

/-- all zaids of a list of elements -/
theorem mem_groups {zs : List Zaid} :
    Dict.WF (groupByElement [] zs) ∧
    ∀ p ∈ groupByElement [] zs, p.2 ≠ [] ∧ ∀ z ∈ p.2, z.element = p.1 ∧ z ∈ zs :=
  groupBy_inv zs zs [] (by simp) (fun _ h => h) (by simp [Dict.WF, Dict.keys])

/-- Any weighting of the zaid names gives the same sum before and after collapsing. -/
theorem collapse_weighted {zs : List Zaid} (hc : ∀ z ∈ zs, Canon z) (w : Str → ℚ) :
    sumOf ((collapse zs).flatMap Element.zaids) (fun z => w z.name * z.fraction) =
      sumOf zs (fun z => w z.name * z.fraction) := by
  have h := groupBy_sum (fun z => w z.name * z.fraction) zs []
  simp only [sumOf_nil, zero_add] at h
  rw [← h, sumOf_flatMap, collapse, sumOf_map]
  apply sumOf_congr
  intro p hp
  exact mkElement_weighted (fun z hz => hc z ((mem_groups.2 p hp).2 z hz).2) w

/-- **C27.** Collapsing keeps, for every zaid name, the sum of its fractions. -/
theorem collapse_amount {zs : List Zaid} (hc : ∀ z ∈ zs, Canon z) (n : Str) :
    amount n ((collapse zs).flatMap Element.zaids) = amount n zs := by
  unfold amount
  rw [total_filter, total_filter]
  have := collapse_weighted hc (fun m => if decide (m = n) = true then 1 else 0)
  exact this

/-- **C27.** Collapsing preserves the total fraction. -/
theorem collapse_total {zs : List Zaid} (hc : ∀ z ∈ zs, Canon z) :
    total ((collapse zs).flatMap Element.zaids) = total zs := by
  have := collapse_weighted hc (fun _ => 1)
  simpa [total_eq_sumOf] using this

theorem collapse_z {zs : List Zaid} :
    (collapse zs).map Element.z = Dict.keys (groupByElement [] zs) := by
  simp only [collapse, List.map_map, Dict.keys]
  apply List.map_congr_left
  intro p hp
  have := mem_groups.2 p hp
  exact lastElement_const this.1 (fun z hz => (this.2 z hz).1)

/-- **C27.** The elements are the elements of the zaids, each once, in the order in which they first
appear. -/
theorem collapse_elements (zs : List Zaid) :
    (collapse zs).map Element.z = firstOccurrences (zs.map Zaid.element) := by
  rw [collapse_z, groupBy_keys zs [] [] rfl]; rfl

/-- **C27.** Each element is listed once. -/
theorem collapse_elements_nodup (zs : List Zaid) : ((collapse zs).map Element.z).Nodup := by
  rw [collapse_elements]; simp [firstOccurrences, List.nodup_dedup]

/-- **C27.** An element holds only zaids of that element, and every one of them has the name of a zaid
of the list. -/
theorem collapse_groups {zs : List Zaid} (hc : ∀ z ∈ zs, Canon z) :
    ∀ e ∈ collapse zs, ∀ y ∈ e.zaids, y.element = e.z ∧
      ∃ z ∈ zs, y.name = z.name ∧ y.element = z.element ∧ y.isotope = z.isotope ∧
        y.library = z.library := by
  intro e he y hy
  simp only [collapse, List.mem_map] at he
  obtain ⟨p, hp, rfl⟩ := he
  have hinv := mem_groups.2 p hp
  obtain ⟨z, hz, h⟩ := mkElement_zaids (fun z hz => hc z (hinv.2 z hz).2) y hy
  refine ⟨?_, z, (hinv.2 z hz).2, h⟩
  have : (mkElement p.2).z = p.1 := lastElement_const hinv.1 (fun z hz => (hinv.2 z hz).1)
  rw [this, h.2.1, (hinv.2 z hz).1]

theorem canon_of_same {z y : Zaid} (hz : Canon z) (he : y.element = z.element)
    (hi : y.isotope = z.isotope) (hl : y.library = z.library) : Canon y :=
  ⟨he ▸ hz.elementDot, hi ▸ hz.isotopeDot, hl ▸ hz.libraryDot, by rw [he, hi]; exact hz.isotopeLen⟩

theorem collapse_canon {zs : List Zaid} (hc : ∀ z ∈ zs, Canon z) :
    ∀ y ∈ (collapse zs).flatMap Element.zaids, Canon y := by
  intro y hy
  simp only [List.mem_flatMap] at hy
  obtain ⟨e, he, hy⟩ := hy
  obtain ⟨_, z, hz, _, h1, h2, h3⟩ := collapse_groups hc e he y hy
  exact canon_of_same (hc z hz) h1 h2 h3

/-- **C27.** After collapsing each zaid name occurs once, over all elements. -/
theorem collapse_names_nodup {zs : List Zaid} (hc : ∀ z ∈ zs, Canon z) :
    (((collapse zs).flatMap Element.zaids).map Zaid.name).Nodup := by
  rw [List.map_flatMap, List.nodup_flatMap]
  constructor
  · intro e he
    simp only [collapse, List.mem_map] at he
    obtain ⟨p, hp, rfl⟩ := he
    rw [mkElement_names (fun z hz => hc z ((mem_groups.2 p hp).2 z hz).2)]
    exact sumNames_WF _ _ (by simp [Dict.WF, Dict.keys])
  · have hnd := collapse_elements_nodup zs
    rw [List.nodup_iff_pairwise_ne, List.pairwise_map] at hnd
    refine List.Pairwise.imp_of_mem ?_ hnd
    intro a b ha hb hab
    simp only [Function.onFun, List.Disjoint]
    intro n hna hnb
    simp only [List.mem_map] at hna hnb
    obtain ⟨x, hx, rfl⟩ := hna
    obtain ⟨y, hy, hxy⟩ := hnb
    have cx := collapse_canon hc x (List.mem_flatMap.mpr ⟨a, ha, hx⟩)
    have cy := collapse_canon hc y (List.mem_flatMap.mpr ⟨b, hb, hy⟩)
    have h1 := (collapse_groups hc a ha x hx).1
    have h2 := (collapse_groups hc b hb y hy).1
    have := (name_inj cy cx hxy).1
    exact hab (by rw [← h1, ← h2, this])

/-- **C27.** Exactly the zaid names of the list occur. -/
theorem collapse_names {zs : List Zaid} (hc : ∀ z ∈ zs, Canon z) (n : Str) :
    n ∈ ((collapse zs).flatMap Element.zaids).map Zaid.name ↔ n ∈ zs.map Zaid.name := by
  constructor
  · intro h
    simp only [List.mem_map, List.mem_flatMap] at h ⊢
    obtain ⟨y, ⟨e, he, hy⟩, rfl⟩ := h
    obtain ⟨_, z, hz, h, _⟩ := collapse_groups hc e he y hy
    exact ⟨z, hz, h.symm⟩
  · intro h
    by_contra hn
    simp only [List.mem_map] at h
    obtain ⟨z, hz, rfl⟩ := h
    have hkey : z.element ∈ Dict.keys (groupByElement [] zs) := by
      rw [groupBy_keys zs [] [] rfl, mem_firstOccurrences]
      exact List.mem_map.mpr ⟨z, by simpa using hz, rfl⟩
    simp only [Dict.keys, List.mem_map] at hkey
    -- use the weighted sums of a list where only the name counts
    have key : ∀ (l : List Zaid) (d : Dict Str (List Zaid)), z ∈ l ∨ (∃ p ∈ d, z ∈ p.2) →
        ∃ p ∈ groupByElement d l, z ∈ p.2 := by
      intro l
      induction l with
      | nil => intro d h; simpa [groupByElement] using h
      | cons y l ih =>
        intro d h
        have hset : ∀ (e : Str) (v : List Zaid), (∀ u, Dict.get? d e = some u → u ⊆ v) →
            (∃ p ∈ d, z ∈ p.2) → ∃ p ∈ Dict.set d e v, z ∈ p.2 := by
          intro e v hv
          clear ih h
          induction d with
          | nil => simp
          | cons q d ihd =>
            obtain ⟨a, b⟩ := q
            rintro ⟨p, hp, hzp⟩
            by_cases ha : a = e
            · subst ha
              simp only [Dict.set, if_true]
              simp only [List.mem_cons] at hp
              rcases hp with rfl | hp
              · exact ⟨(a, v), by simp, hv b (by simp [Dict.get?]) hzp⟩
              · exact ⟨p, List.mem_cons_of_mem _ hp, hzp⟩
            · simp only [Dict.set, if_neg ha]
              simp only [List.mem_cons] at hp
              rcases hp with rfl | hp
              · exact ⟨(a, b), by simp, hzp⟩
              · obtain ⟨p', hp', hz'⟩ := ihd (fun u hu => hv u (by simp [Dict.get?, ha, hu]))
                  ⟨p, hp, hzp⟩
                exact ⟨p', List.mem_cons_of_mem _ hp', hz'⟩
        have hnew : ∀ (e : Str) (v : List Zaid), z ∈ v → ∃ p ∈ Dict.set d e v, z ∈ p.2 := by
          intro e v hv
          exact ⟨(e, v), Dict.mem_of_get? (Dict.get?_set_self d e v), hv⟩
        cases hg : Dict.get? d y.element with
        | none =>
          simp only [groupByElement, hg]
          apply ih
          rcases h with h | h
          · simp only [List.mem_cons] at h
            rcases h with rfl | h
            · exact Or.inr (hnew _ _ (by simp))
            · exact Or.inl h
          · exact Or.inr (hset _ _ (by intro u hu; rw [hg] at hu; cases hu) h)
        | some u =>
          simp only [groupByElement, hg]
          apply ih
          rcases h with h | h
          · simp only [List.mem_cons] at h
            rcases h with rfl | h
            · exact Or.inr (hnew _ _ (by simp))
            · exact Or.inl h
          · refine Or.inr (hset _ _ ?_ h)
            intro u' hu'
            rw [hg] at hu'; cases hu'
            simp
    obtain ⟨p, hp, hzp⟩ := key zs [] (Or.inl hz)
    apply hn
    rw [List.map_flatMap, List.mem_flatMap]
    refine ⟨mkElement p.2, List.mem_map.mpr ⟨p, hp, rfl⟩, ?_⟩
    rw [mkElement_names (fun x hx => hc x ((mem_groups.2 p hp).2 x hx).2), mem_keys_sumNames]
    exact Or.inr ⟨z, hzp, rfl⟩

/-- Non-vacuity: hydrogen twice, split around oxygen, and with two libraries. (example) -/
def sampleZaids : List Zaid :=
  [⟨1, "1".toList, "001".toList, some "31c".toList⟩, ⟨2, "8".toList, "016".toList, some "31c".toList⟩,
   ⟨3, "1".toList, "001".toList, some "31c".toList⟩, ⟨4, "1".toList, "001".toList, none⟩]

theorem sampleZaids_canon : ∀ z ∈ sampleZaids, Canon z := by
  intro z hz
  simp only [sampleZaids, List.mem_cons, List.not_mem_nil, or_false] at hz
  rcases hz with rfl | rfl | rfl | rfl <;>
    exact ⟨by decide, by decide, (by intro l hl; first | (cases hl; decide) | cases hl), by decide⟩

theorem sampleZaids_collapse : collapse sampleZaids =
    [⟨"1".toList, [⟨4, "1".toList, "001".toList, some "31c".toList⟩,
        ⟨4, "1".toList, "001".toList, none⟩]⟩,
     ⟨"8".toList, [⟨2, "8".toList, "016".toList, some "31c".toList⟩]⟩] := by decide +kernel

end F4Enix.Mat
