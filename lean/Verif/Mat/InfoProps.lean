import Verif.Mat.Info
import Verif.Mat.MixProps
import Verif.Out.PathwaysGet
/-!
# The tables of elements of `get_info` (C170)
-/
namespace F4Enix.MatInfo
open F4Enix F4Enix.Mat

/-! ### specification -/

/-- the name under which a zaid is shown: the symbol of its element (what stands before a dash) (specification) -/
def Shown (lm : LibMan) (z : Zaid) (n : Str) : Prop :=
  ∃ i sym, parseInt z.element = some i ∧ lm.symbolOf i = some sym ∧ n = beforeDash sym

/-- the same, computed (proof) -/
def symName (lm : LibMan) (el : Str) : Option Str := (parseInt el).bind (fun i => (lm.symbolOf i).map beforeDash)

theorem shown_iff (lm : LibMan) (z : Zaid) (n : Str) : Shown lm z n ↔ symName lm z.element = some n := by
  unfold Shown symName
  cases parseInt z.element with
  | none => simp
  | some i =>
    cases h : lm.symbolOf i with
    | none => simp [h]
    | some sym => simp [h, eq_comm]

open Classical in
/-- sum of a quantity over the zaids shown under a name (specification) -/
noncomputable def shownSum (lm : LibMan) (n : Str) (g : Zaid → ℚ) (zs : List Zaid) : ℚ := ((zs.filter (fun z => decide (Shown lm z n))).map g).sum

theorem shownSum_eq (lm : LibMan) (n : Str) (g : Zaid → ℚ) (zs : List Zaid) :
    shownSum lm n g zs = sumOf zs (fun z => if symName lm z.element = some n then g z else 0) := by
  unfold shownSum
  induction zs with
  | nil => rfl
  | cons z zs ih =>
    rw [sumOf_cons, ← ih]
    by_cases h : symName lm z.element = some n
    · simp [h, (shown_iff lm z n).2 h]
    · have h' : ¬ Shown lm z n := fun hh => h ((shown_iff lm z n).1 hh)
      simp [h, h']

/-! ### rows -/

theorem beforeDash_append (s t : Str) : beforeDash (s ++ '-' :: t) = beforeDash s := by
  unfold beforeDash
  induction s with
  | nil => simp
  | cons c s ih =>
    rw [List.cons_append, List.takeWhile_cons, List.takeWhile_cons, ih]

theorem fullName_sym {lm : LibMan} {z : Zaid} {n : Str} (h : fullName lm z = .ok n) : symName lm z.element = some (beforeDash n) := by
  unfold fullName at h
  unfold symName
  cases hp : parseInt z.element with
  | none => simp [hp] at h
  | some i =>
    simp only [hp] at h
    cases hs : lm.symbolOf i with
    | none => simp [hs] at h
    | some sym =>
      simp only [hs] at h
      cases hq : parseInt z.isotope with
      | none => simp [hq] at h
      | some a =>
        simp only [hq] at h
        split_ifs at h with h0
        · cases h; simp [hs, beforeDash_append]
        · cases h; simp [hs]

/-- the label of a zaid in the tables (proof) -/
def labelOf (lm : LibMan) (z : Zaid) : Str :=
  match fullName lm z with
  | .ok n => n ++ " [".toList ++ z.element ++ z.isotope ++ [']']
  | .error _ => []

/-- the row of a zaid (proof) -/
def rowOf (lm : LibMan) (z : Zaid) : Row := ⟨(symName lm z.element).getD [], some (labelOf lm z), z.fraction⟩

theorem zaidRow_ok {lm : LibMan} {z : Zaid} {r : Row} (h : zaidRow lm z = .ok r) :
    r = rowOf lm z ∧ ∃ n, symName lm z.element = some n := by
  unfold zaidRow at h
  cases hf : fullName lm z with
  | error e => simp [hf] at h
  | ok n =>
    simp only [hf] at h
    cases h
    unfold rowOf labelOf
    rw [hf, fullName_sym hf]
    exact ⟨rfl, _, rfl⟩

theorem zaidRows_ok {lm : LibMan} {zs : List Zaid} {rs : List Row} (h : mapE (zaidRow lm) zs = .ok rs) :
    rs = zs.map (rowOf lm) ∧ ∀ z ∈ zs, ∃ n, symName lm z.element = some n := by
  have hf := mapE_ok h
  clear h
  induction hf with
  | nil => simp
  | cons h1 _ ih =>
    obtain ⟨e, hn⟩ := zaidRow_ok h1
    refine ⟨by rw [e, ih.1]; rfl, ?_⟩
    intro z hz
    rcases List.mem_cons.1 hz with rfl | hz
    · exact hn
    · exact ih.2 z hz

/-- the row of an element (proof) -/
def elRowOf (lm : LibMan) (e : Element) : Row := ⟨(symName lm e.z).getD [], none, e.fraction⟩

/-- an element as `collapse` makes it (proof) -/
def Good (e : Element) : Prop := e.zaids ≠ [] ∧ ∀ y ∈ e.zaids, y.element = e.z

theorem elementLoop_ok {lm : LibMan} (es : List Element) (prev : Option Str) {er zr : List Row} (hg : ∀ e ∈ es, Good e)
    (h : elementLoop lm prev es = .ok (er, zr)) :
    er = es.map (elRowOf lm) ∧ zr = (es.flatMap Element.zaids).map (rowOf lm) ∧ ∀ e ∈ es, ∃ n, symName lm e.z = some n := by
  induction es generalizing prev er zr with
  | nil =>
    simp only [elementLoop, Except.ok.injEq, Prod.mk.injEq] at h
    obtain ⟨rfl, rfl⟩ := h
    simp
  | cons e es ih =>
    unfold elementLoop at h
    cases hm : mapE (zaidRow lm) e.zaids with
    | error x => simp [hm] at h
    | ok rs =>
      simp only [hm] at h
      obtain ⟨hrs, hk⟩ := zaidRows_ok hm
      obtain ⟨hne, hz⟩ := hg e (by simp)
      obtain ⟨y, hy⟩ : ∃ y, e.zaids.getLast? = some y := by
        cases hl : e.zaids.getLast? with
        | none => exact absurd (List.getLast?_eq_none_iff.1 hl) hne
        | some y => exact ⟨y, rfl⟩
      have hym : y ∈ e.zaids := List.mem_of_getLast? hy
      obtain ⟨n, hn⟩ := hk y hym
      have hlast : lastName prev rs = some n := by
        unfold lastName
        rw [hrs, List.getLast?_map, hy]
        simp [rowOf, hn]
      rw [hlast] at h
      simp only at h
      cases hl : elementLoop lm (some n) es with
      | error x => simp [hl] at h
      | ok p =>
        obtain ⟨er', zr'⟩ := p
        simp only [hl, Except.ok.injEq, Prod.mk.injEq] at h
        obtain ⟨rfl, rfl⟩ := h
        obtain ⟨h1, h2, h3⟩ := ih (some n) (fun e he => hg e (List.mem_cons_of_mem _ he)) hl
        have hez : symName lm e.z = some n := by rw [← hz y hym]; exact hn
        refine ⟨?_, ?_, ?_⟩
        · rw [h1, List.map_cons]
          unfold elRowOf
          rw [hez]; rfl
        · rw [h2, hrs, List.flatMap_cons, List.map_append]
        · intro e' he'
          rcases List.mem_cons.1 he' with rfl | he'
          · exact ⟨n, hez⟩
          · exact h3 e' he'

theorem collapse_good {zs : List Zaid} (hc : ∀ z ∈ zs, Canon z) : ∀ e ∈ collapse zs, Good e := by
  intro e he
  refine ⟨?_, fun y hy => (collapse_groups hc e he y hy).1⟩
  simp only [collapse, List.mem_map] at he
  obtain ⟨p, hp, rfl⟩ := he
  have := (mem_groups.2 p hp).1
  obtain ⟨z, hz⟩ := List.exists_mem_of_ne_nil _ this
  have hk : z.name ∈ Dict.keys (sumNames [] p.2) := (mem_keys_sumNames p.2 [] z.name).2 (Or.inr ⟨z, hz, rfl⟩)
  unfold mkElement
  intro hnil
  simp only [List.map_eq_nil_iff] at hnil
  rw [hnil] at hk
  simp [Dict.keys] at hk

/-- sums over zaids of a weight of the element are the same before and after collapsing -/
theorem collapse_el {zs : List Zaid} (hc : ∀ z ∈ zs, Canon z) (w : Str → ℚ) :
    sumOf ((collapse zs).flatMap Element.zaids) (fun z => w z.element * z.fraction) = sumOf zs (fun z => w z.element * z.fraction) := by
  have h := collapse_weighted hc (fun nm => w (fromString nm 0).element)
  rw [sumOf_congr (l := (collapse zs).flatMap Element.zaids) (h' := fun z => w z.element * z.fraction)] at h
  · rw [h]
    apply sumOf_congr
    intro z hz
    rw [fromString_name (hc z hz)]
  · intro y hy
    rw [fromString_name (collapse_canon hc y hy)]

theorem ofName_sum (n : Str) (rs : List Row) : rowSum (ofName n rs) = sumOf rs (fun r => if r.element = n then r.fraction else 0) := by
  unfold rowSum ofName
  induction rs with
  | nil => rfl
  | cons r rs ih =>
    rw [sumOf_cons, ← ih]
    by_cases h : r.element = n
    · simp [h]
    · simp [h]

/-- **the rows of a submaterial**: whether by element or by zaid, the sums by element are those of the zaids -/
theorem subInfo_sums {lm : LibMan} {zaids : Bool} {s : SubMat} {rs : List Row} (hc : ∀ z ∈ s.zaids, Canon z)
    (he : s.elements = collapse s.zaids) (h : subInfo lm zaids s = .ok rs) :
    (∀ n, rowSum (ofName n rs) = sumOf s.zaids (fun z => if symName lm z.element = some n then z.fraction else 0)) ∧
    rowSum rs = total s.zaids ∧ (∀ n, n ∈ rs.map Row.element ↔ ∃ z ∈ s.zaids, symName lm z.element = some n) ∧
    (∀ z ∈ s.zaids, ∃ n, symName lm z.element = some n) ∧
    rs = if zaids then ((collapse s.zaids).flatMap Element.zaids).map (rowOf lm) else (collapse s.zaids).map (elRowOf lm) := by
  unfold subInfo at h
  cases hl : elementLoop lm none s.elements with
  | error e => simp [hl] at h
  | ok p =>
    obtain ⟨er, zr⟩ := p
    simp only [hl, Except.ok.injEq] at h
    rw [he] at hl
    have hgood := collapse_good hc
    obtain ⟨h1, h2, h3⟩ := elementLoop_ok _ none hgood hl
    have hall : ∀ z ∈ s.zaids, ∃ e ∈ collapse s.zaids, e.z = z.element := by
      intro z hz
      have : z.element ∈ (collapse s.zaids).map Element.z := by
        rw [collapse_elements, mem_firstOccurrences]
        exact List.mem_map_of_mem hz
      obtain ⟨e, he, h⟩ := List.mem_map.1 this
      exact ⟨e, he, h⟩
    have hback : ∀ e ∈ collapse s.zaids, ∃ z ∈ s.zaids, z.element = e.z := by
      intro e he
      have : e.z ∈ (collapse s.zaids).map Element.z := List.mem_map_of_mem he
      rw [collapse_elements, mem_firstOccurrences] at this
      obtain ⟨z, hz, h⟩ := List.mem_map.1 this
      exact ⟨z, hz, h⟩
    have hknown : ∀ z ∈ s.zaids, ∃ n, symName lm z.element = some n := by
      intro z hz
      obtain ⟨e, he, h⟩ := hall z hz
      rw [← h]; exact h3 e he
    have hfrac : ∀ (w : Str → ℚ) (e : Element), Good e → w e.z * e.fraction = sumOf e.zaids (fun z => w z.element * z.fraction) := by
      intro w e hg
      rw [sumOf_congr (h' := fun z => z.fraction * w e.z) (fun z hz => by rw [hg.2 z hz, mul_comm]), sumOf_mul, mul_comm]
      rfl
    have key : ∀ w : Str → ℚ, sumOf (collapse s.zaids) (fun e => w e.z * e.fraction) = sumOf s.zaids (fun z => w z.element * z.fraction) := by
      intro w
      rw [← collapse_el hc, sumOf_flatMap]
      apply sumOf_congr
      intro e he
      exact hfrac w e (hgood e he)
    have hif : ∀ (n : Str) (el : Str) (q : ℚ), (∃ m, symName lm el = some m) →
        (if (symName lm el).getD [] = n then q else 0) = (if symName lm el = some n then 1 else 0) * q := by
      rintro n el q ⟨m, hm⟩
      rw [hm]
      by_cases hmn : m = n <;> simp [hmn]
    have hif2 : ∀ (n : Str) (z : Zaid), (if symName lm z.element = some n then z.fraction else 0) =
        (fun el => if symName lm el = some n then (1 : ℚ) else 0) z.element * z.fraction := by
      intro n z
      by_cases hmn : symName lm z.element = some n <;> simp [hmn]
    have hW : ∀ y ∈ (collapse s.zaids).flatMap Element.zaids, ∃ m, symName lm y.element = some m := by
      intro y hy
      obtain ⟨e, he, hy⟩ := List.mem_flatMap.1 hy
      rw [(hgood e he).2 y hy]
      exact h3 e he
    refine ⟨fun n => ?_, ?_, fun n => ?_, hknown, ?_⟩
    · rw [ofName_sum, ← h]
      rw [sumOf_congr (l := s.zaids) (fun z _ => hif2 n z)]
      cases zaids with
      | false =>
        simp only [Bool.false_eq_true, if_false]
        rw [h1, sumOf_map, ← key (fun el => if symName lm el = some n then 1 else 0)]
        apply sumOf_congr
        intro e he
        exact hif n e.z e.fraction (h3 e he)
      | true =>
        simp only [if_true]
        rw [h2, sumOf_map, ← collapse_el hc (fun el => if symName lm el = some n then 1 else 0)]
        apply sumOf_congr
        intro y hy
        exact hif n y.element y.fraction (hW y hy)
    · rw [← h]
      cases zaids with
      | false =>
        simp only [Bool.false_eq_true, if_false]
        have := key (fun _ => 1)
        simp only [one_mul] at this
        rw [h1]
        unfold rowSum
        rw [List.map_map]
        exact this
      | true =>
        simp only [if_true]
        rw [h2]
        unfold rowSum
        rw [List.map_map]
        have := collapse_total hc
        unfold total at this ⊢
        exact this
    · rw [← h]
      cases zaids with
      | false =>
        simp only [Bool.false_eq_true, if_false]
        rw [h1, List.map_map]
        constructor
        · intro hn
          obtain ⟨e, he, hen⟩ := List.mem_map.1 hn
          obtain ⟨z, hz, hze⟩ := hback e he
          obtain ⟨m, hm⟩ := h3 e he
          refine ⟨z, hz, ?_⟩
          rw [hze, hm]
          simp only [Function.comp, elRowOf, hm, Option.getD_some] at hen
          rw [hen]
        · rintro ⟨z, hz, hzn⟩
          obtain ⟨e, he, hez⟩ := hall z hz
          refine List.mem_map.2 ⟨e, he, ?_⟩
          simp [elRowOf, hez, hzn]
      | true =>
        simp only [if_true]
        rw [h2, List.map_map]
        constructor
        · intro hn
          obtain ⟨y, hy, hyn⟩ := List.mem_map.1 hn
          obtain ⟨m, hm⟩ := hW y hy
          obtain ⟨e, he, hye⟩ := List.mem_flatMap.1 hy
          obtain ⟨z, hz, hze⟩ := hback e he
          refine ⟨z, hz, ?_⟩
          rw [hze, ← (hgood e he).2 y hye, hm]
          simp only [Function.comp, rowOf, hm, Option.getD_some] at hyn
          rw [hyn]
        · rintro ⟨z, hz, hzn⟩
          obtain ⟨e, he, hez⟩ := hall z hz
          obtain ⟨y, hy⟩ := List.exists_mem_of_ne_nil _ (hgood e he).1
          refine List.mem_map.2 ⟨y, List.mem_flatMap.2 ⟨e, he, hy⟩, ?_⟩
          simp [rowOf, (hgood e he).2 y hy, hez, hzn]
    · rw [← h, h1, h2]

end F4Enix.MatInfo
