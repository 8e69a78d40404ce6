import Verif.Mat.InfoMore
/-!
# The complete table of `get_info` (C171)
-/
namespace F4Enix.MatInfo
open F4Enix F4Enix.Mat

/-! ### collapsing does not look at the fractions -/

theorem set_map_val {κ ν ν' : Type} [DecidableEq κ] (h : ν → ν') (d : Dict κ ν) (k : κ) (v : ν) :
    Dict.set (d.map (fun p => (p.1, h p.2))) k (h v) = (Dict.set d k v).map (fun p => (p.1, h p.2)) := by
  induction d with
  | nil => rfl
  | cons p d ih =>
    obtain ⟨a, b⟩ := p
    by_cases hk : a = k
    · simp [Dict.set, hk]
    · have ih' := ih
      simp only [List.map_cons, Dict.set, if_neg hk]
      rw [ih']

theorem get_map_val {κ ν ν' : Type} [DecidableEq κ] (h : ν → ν') (d : Dict κ ν) (k : κ) :
    Dict.get? (d.map (fun p => (p.1, h p.2))) k = (Dict.get? d k).map h := by
  induction d with
  | nil => rfl
  | cons p d ih =>
    obtain ⟨a, b⟩ := p
    by_cases hk : a = k
    · simp [Dict.get?, hk]
    · simp only [List.map_cons, Dict.get?, if_neg hk]
      exact ih

theorem groupBy_withF (g : Zaid → ℚ) (zs : List Zaid) (d : Dict Str (List Zaid)) :
    groupByElement (d.map (fun p => (p.1, withF g p.2))) (withF g zs) = (groupByElement d zs).map (fun p => (p.1, withF g p.2)) := by
  induction zs generalizing d with
  | nil => rfl
  | cons z zs ih =>
    have hz : withF g (z :: zs) = { z with fraction := g z } :: withF g zs := rfl
    rw [hz]
    unfold groupByElement
    simp only
    rw [get_map_val]
    cases Dict.get? d z.element with
    | none =>
      simp only [Option.map_none]
      have := set_map_val (withF g) d z.element [z]
      have h1 : withF g [z] = [{ z with fraction := g z }] := rfl
      rw [h1] at this
      rw [this, ih]
    | some l =>
      simp only [Option.map_some]
      have := set_map_val (withF g) d z.element (l ++ [z])
      have h1 : withF g (l ++ [z]) = withF g l ++ [{ z with fraction := g z }] := by simp [withF]
      rw [h1] at this
      rw [this, ih]

theorem collapse_withF (g : Zaid → ℚ) (zs : List Zaid) : collapse (withF g zs) = (groupByElement [] zs).map (fun p => mkElement (withF g p.2)) := by
  unfold collapse
  have := groupBy_withF g zs []
  simp only [List.map_nil] at this
  rw [this, List.map_map]
  rfl

theorem keys_sumNames (zs zs' : List Zaid) (d d' : Dict Str ℚ) (hd : Dict.keys d = Dict.keys d') (hz : zs.map Zaid.name = zs'.map Zaid.name) :
    Dict.keys (sumNames d zs) = Dict.keys (sumNames d' zs') := by
  induction zs generalizing zs' d d' with
  | nil =>
    cases zs' with
    | nil => exact hd
    | cons _ _ => simp at hz
  | cons z zs ih =>
    cases zs' with
    | nil => simp at hz
    | cons y zs' =>
      simp only [List.map_cons, List.cons.injEq] at hz
      have hk : ∀ v v', Dict.keys (Dict.set d z.name v) = Dict.keys (Dict.set d' y.name v') := by
        intro v v'
        rw [Dict.keys_set, Dict.keys_set, hd, hz.1]
      unfold sumNames
      cases Dict.get? d z.name <;> cases Dict.get? d' y.name <;> exact ih zs' _ _ (hk _ _) hz.2

theorem names_withF (g : Zaid → ℚ) (zs : List Zaid) : (withF g zs).map Zaid.name = zs.map Zaid.name := by
  unfold withF
  rw [List.map_map]
  rfl

theorem collapse_names_withF {zs : List Zaid} (hc : ∀ z ∈ zs, Canon z) (g : Zaid → ℚ) :
    ((collapse (withF g zs)).flatMap Element.zaids).map Zaid.name = ((collapse zs).flatMap Element.zaids).map Zaid.name := by
  rw [collapse_withF, collapse, List.map_flatMap, List.map_flatMap, List.flatMap_map, List.flatMap_map]
  apply List.flatMap_congr
  intro p hp
  have hcp : ∀ z ∈ p.2, Canon z := fun z hz => hc z ((mem_groups.2 p hp).2 z hz).2
  rw [mkElement_names hcp, mkElement_names (withF_canon hcp)]
  exact keys_sumNames _ _ _ _ rfl (names_withF g p.2)

theorem amount_unique {l : List Zaid} (hn : (l.map Zaid.name).Nodup) {y : Zaid} (hy : y ∈ l) : amount y.name l = y.fraction := by
  unfold amount
  rw [total_filter]
  induction l with
  | nil => simp at hy
  | cons a l ih =>
    rw [List.map_cons, List.nodup_cons] at hn
    rw [sumOf_cons]
    rcases List.mem_cons.1 hy with rfl | hy
    · have : sumOf l (fun z => (if decide (z.name = y.name) = true then 1 else 0) * z.fraction) = 0 := by
        rw [sumOf_congr (h' := fun _ => 0)]
        · simp [sumOf]
        · intro z hz
          have : z.name ≠ y.name := fun h => hn.1 (h ▸ List.mem_map_of_mem hz)
          simp [this]
      rw [this]
      simp
    · have : a.name ≠ y.name := fun h => hn.1 (h ▸ List.mem_map_of_mem hy)
      rw [ih hn.2 hy]
      simp [this]

/-- sum of a quantity over the zaids of a name (specification) -/
def nameSum (n : Str) (g : Zaid → ℚ) (zs : List Zaid) : ℚ := ((zs.filter (fun z => decide (z.name = n))).map g).sum

theorem amount_withF (n : Str) (g : Zaid → ℚ) (zs : List Zaid) : amount n (withF g zs) = nameSum n g zs := by
  unfold amount nameSum total withF
  rw [List.filter_map, List.map_map]
  rfl

/-- sum of a quantity over the zaids of an element (specification) -/
def elemSum (el : Str) (g : Zaid → ℚ) (zs : List Zaid) : ℚ := ((zs.filter (fun z => decide (z.element = el))).map g).sum

/-- the zaid at the same place has the same name, and the sum of the new fractions -/
theorem collapse_at {zs : List Zaid} (hc : ∀ z ∈ zs, Canon z) (g : Zaid → ℚ) {j : ℕ} {y : Zaid}
    (h : ((collapse zs).flatMap Element.zaids)[j]? = some y) :
    ∃ y', ((collapse (withF g zs)).flatMap Element.zaids)[j]? = some y' ∧ y'.fraction = nameSum y.name g zs := by
  have hn := collapse_names_withF hc g
  have h1 := congrArg (fun l => l[j]?) hn
  simp only [List.getElem?_map, h, Option.map_some] at h1
  cases h2 : ((collapse (withF g zs)).flatMap Element.zaids)[j]? with
  | none => simp [h2] at h1
  | some y' =>
    simp only [h2, Option.map_some, Option.some.injEq] at h1
    refine ⟨y', rfl, ?_⟩
    have hmem : y' ∈ (collapse (withF g zs)).flatMap Element.zaids := List.mem_iff_getElem?.2 ⟨j, h2⟩
    rw [← amount_unique (collapse_names_nodup (withF_canon hc)) hmem, collapse_amount (withF_canon hc), h1, amount_withF]

theorem el_fraction {zs : List Zaid} (hc : ∀ z ∈ zs, Canon z) {e : Element} (he : e ∈ collapse zs) :
    e.fraction = elemSum e.z Zaid.fraction zs := by
  have hk := collapse_el hc (fun el => if el = e.z then 1 else 0)
  rw [sumOf_flatMap] at hk
  have hr : sumOf zs (fun z => (if z.element = e.z then (1 : ℚ) else 0) * z.fraction) = elemSum e.z Zaid.fraction zs := by
    unfold elemSum
    have := total_filter zs (fun z => decide (z.element = e.z))
    unfold total at this
    rw [this]
    apply sumOf_congr
    intro z _
    simp
  rw [← hr, ← hk]
  have hnd := collapse_elements_nodup zs
  have hgood := collapse_good hc
  have hin : ∀ e' ∈ collapse zs, sumOf e'.zaids (fun z => (if z.element = e.z then (1 : ℚ) else 0) * z.fraction) = if e'.z = e.z then e'.fraction else 0 := by
    intro e' he'
    have hg := hgood e' he'
    by_cases hz : e'.z = e.z
    · rw [if_pos hz, sumOf_congr (h' := Zaid.fraction)]
      · rfl
      · intro z hzm
        rw [hg.2 z hzm, if_pos hz, one_mul]
    · rw [if_neg hz, sumOf_congr (h' := fun _ => 0)]
      · simp [sumOf]
      · intro z hzm
        rw [hg.2 z hzm, if_neg hz, zero_mul]
  rw [sumOf_congr hin]
  clear hin hgood hk hr hc
  generalize collapse zs = L at he hnd ⊢
  induction L with
  | nil => simp at he
  | cons a l ih =>
    rw [List.map_cons, List.nodup_cons] at hnd
    rw [sumOf_cons]
    rcases List.mem_cons.1 he with rfl | he
    · rw [if_pos rfl, sumOf_congr (h' := fun _ => 0)]
      · simp [sumOf]
      · intro b hb
        rw [if_neg]
        intro h
        exact hnd.1 (h ▸ List.mem_map_of_mem hb)
    · rw [if_neg, zero_add]
      · exact ih he hnd.2
      · intro h
        exact hnd.1 (h ▸ List.mem_map_of_mem he)

theorem elements_withF (g : Zaid → ℚ) (zs : List Zaid) : (withF g zs).map Zaid.element = zs.map Zaid.element := by
  unfold withF
  rw [List.map_map]
  rfl

/-- the element at the same place is the same one -/
theorem collapse_el_at {zs : List Zaid} (hc : ∀ z ∈ zs, Canon z) (g : Zaid → ℚ) {j : ℕ} {e : Element} (h : (collapse zs)[j]? = some e) :
    ∃ e', (collapse (withF g zs))[j]? = some e' ∧ e'.fraction = elemSum e.z g zs := by
  have hn : (collapse (withF g zs)).map Element.z = (collapse zs).map Element.z := by
    rw [collapse_elements, collapse_elements, elements_withF]
  have h1 := congrArg (fun l => l[j]?) hn
  simp only [List.getElem?_map, h, Option.map_some] at h1
  cases h2 : (collapse (withF g zs))[j]? with
  | none => simp [h2] at h1
  | some e' =>
    simp only [h2, Option.map_some, Option.some.injEq] at h1
    refine ⟨e', rfl, ?_⟩
    rw [el_fraction (withF_canon hc) (List.mem_iff_getElem?.2 ⟨j, h2⟩), h1]
    unfold elemSum withF
    rw [List.filter_map, List.map_map]
    rfl

/-! ### the complete table -/

/-- the label of a zaid in the table: name with mass number (if there is one) and the zaid in brackets (specification) -/
def IsLabel (lm : LibMan) (z : Zaid) (t : Str) : Prop :=
  ∃ i sym a, parseInt z.element = some i ∧ lm.symbolOf i = some sym ∧ parseInt z.isotope = some a ∧
    t = (if 0 < a then sym ++ '-' :: intStr a else sym) ++ " [".toList ++ z.element ++ z.isotope ++ [']']

theorem label_of_row {lm : LibMan} {z : Zaid} {r : Row} (h : zaidRow lm z = .ok r) : ∃ t, r.isotope = some t ∧ IsLabel lm z t ∧ labelOf lm z = t := by
  unfold zaidRow at h
  cases hf : fullName lm z with
  | error e => simp [hf] at h
  | ok n =>
    simp only [hf] at h
    cases h
    refine ⟨_, rfl, ?_, by unfold labelOf; rw [hf]⟩
    unfold fullName at hf
    cases hp : parseInt z.element with
    | none => simp [hp] at hf
    | some i =>
      cases hs : lm.symbolOf i with
      | none => simp [hp, hs] at hf
      | some sym =>
        cases hq : parseInt z.isotope with
        | none => simp [hp, hs, hq] at hf
        | some a =>
          simp only [hp, hs, hq] at hf
          refine ⟨i, sym, a, hp, hs, hq, ?_⟩
          by_cases h0 : 0 < a
          · simp only [if_pos h0, Except.ok.injEq] at hf ⊢
            rw [← hf]
          · simp only [if_neg h0, Except.ok.injEq] at hf ⊢
            rw [← hf]

theorem elementLoop_zaids {lm : LibMan} (es : List Element) (prev : Option Str) {p : List Row × List Row} (h : elementLoop lm prev es = .ok p) :
    ∀ e ∈ es, ∀ z ∈ e.zaids, ∃ r, zaidRow lm z = .ok r := by
  induction es generalizing prev p with
  | nil => simp
  | cons e es ih =>
    unfold elementLoop at h
    cases hm : mapE (zaidRow lm) e.zaids with
    | error x => simp [hm] at h
    | ok rs =>
      simp only [hm] at h
      cases hl : lastName prev rs with
      | none => simp [hl] at h
      | some n =>
        simp only [hl] at h
        cases hr : elementLoop lm (some n) es with
        | error x => simp [hr] at h
        | ok q =>
          intro e' he' z hz
          rcases List.mem_cons.1 he' with rfl | he'
          · have hf := mapE_ok hm
            clear hm hl h he'
            generalize e'.zaids = L at hf hz
            induction hf with
            | nil => simp at hz
            | cons h1 _ ih2 =>
              rcases List.mem_cons.1 hz with rfl | hz
              · exact ⟨_, h1⟩
              · exact ih2 hz
          · exact ih (some n) hr e' he' z hz

theorem infoLoop_sub {lm : LibMan} {name : Str} {zaids : Bool} (l : List (SubMat × SubMat × SubMat)) (i : ℕ)
    {p : List CRow × List (ℕ × List Row)} (h : infoLoop lm name zaids i l = .ok p) : ∀ q ∈ l, ∃ rs, subInfo lm zaids q.1 = .ok rs := by
  induction l generalizing i p with
  | nil => simp
  | cons q l ih =>
    obtain ⟨s, sa, sm⟩ := q
    unfold infoLoop at h
    cases h1 : subInfo lm zaids s with
    | error e => simp [h1] at h
    | ok rs =>
      cases h2 : subInfo lm zaids sa with
      | error e => simp [h1, h2] at h
      | ok ra =>
        cases h3 : subInfo lm zaids sm with
        | error e => simp [h1, h2, h3] at h
        | ok rm =>
          simp only [h1, h2, h3] at h
          cases hl : infoLoop lm name zaids (i + 1) l with
          | error e => simp [hl] at h
          | ok p' =>
            intro q hq
            rcases List.mem_cons.1 hq with rfl | hq
            · exact ⟨_, h1⟩
            · exact ih (i + 1) hl q hq

theorem getInfo_labels {m : Material} {lm : LibMan} {zaids : Bool} (hcons : m.tot = 0 → Consistent m)
    {p : List CRow × List ERow} (h : getInfo m lm zaids = .ok p) :
    ∀ s ∈ m.subs, ∀ y ∈ (collapse s.zaids).flatMap Element.zaids, IsLabel lm y (labelOf lm y) := by
  unfold getInfo at h
  cases ha : atomSubs m lm with
  | error e => simp [ha] at h
  | ok sa =>
    cases hm : massSubs m lm with
    | error e => simp [ha, hm] at h
    | ok sm =>
      simp only [ha, hm] at h
      rw [atomSubs_ok hcons ha, massSubs_ok hcons hm, rebuilt_subs m hcons] at h
      rw [List.zip_map', List.zip_map'] at h
      cases hl : infoLoop lm m.name zaids 0 (m.subs.map
          (fun s => (s.withFractions Zaid.fraction, s.withFractions (atomFrac m lm), s.withFractions (massFrac m lm)))) with
      | error e => simp [hl] at h
      | ok q =>
        intro s hs y hy
        obtain ⟨rs, hrs⟩ := infoLoop_sub _ 0 hl _ (List.mem_map_of_mem hs)
        unfold subInfo at hrs
        cases he : elementLoop lm none (s.withFractions Zaid.fraction).elements with
        | error x => simp [he] at hrs
        | ok p =>
          have hel : (s.withFractions Zaid.fraction).elements = collapse s.zaids := by
            unfold SubMat.withFractions
            simp only
            have := withF_self s.zaids
            unfold withF at this
            rw [this]
          rw [hel] at he
          obtain ⟨e, hem, hye⟩ := List.mem_flatMap.1 hy
          obtain ⟨r, hr⟩ := elementLoop_zaids _ none he e hem y hye
          obtain ⟨t, -, ht, hlab⟩ := label_of_row hr
          rw [hlab]
          exact ht

theorem isLabel_congr {lm : LibMan} {z y : Zaid} {t : Str} (he : y.element = z.element) (hi : y.isotope = z.isotope) (h : IsLabel lm y t) :
    IsLabel lm z t := by
  obtain ⟨i, sym, a, h1, h2, h3, h4⟩ := h
  exact ⟨i, sym, a, he ▸ h1, h2, hi ▸ h3, by rw [h4, he, hi]⟩

/-- **C171.** The complete table with the zaids: each row is a zaid name of a submaterial, with its symbol and label, the sum of its
atom fractions and the sum of its mass fractions; every zaid is in a row; each name has one row per submaterial. Partial: The rows are proved; only the column that is converted adds up to one, the other one shows the fractions of the input (false for a material by atoms that does not add up to one). -/
theorem info_zaids_partial {m : Material} {lm : LibMan} (hc : ∀ z ∈ m.zaids, Canon z) (hcons : m.tot = 0 → Consistent m)
    {c : List CRow} {e : List ERow} (h : getInfo m lm true = .ok (c, e)) :
    (∀ r ∈ c, r.material = m.name ∧ ∃ (i : ℕ) (s : SubMat) (z : Zaid), r.sub = i + 1 ∧ m.subs[i]? = some s ∧ z ∈ s.zaids ∧ Shown lm z r.element ∧
      (∃ t, r.isotope = some t ∧ IsLabel lm z t) ∧
      r.atom = some (nameSum z.name (atomFrac m lm) s.zaids) ∧ r.mass = some (nameSum z.name (massFrac m lm) s.zaids)) ∧
    (∀ (i : ℕ) s z, m.subs[i]? = some s → z ∈ s.zaids → ∃ r ∈ c, r.sub = i + 1 ∧ Shown lm z r.element ∧ (∃ t, r.isotope = some t ∧ IsLabel lm z t) ∧
      r.atom = some (nameSum z.name (atomFrac m lm) s.zaids) ∧ r.mass = some (nameSum z.name (massFrac m lm) s.zaids)) ∧
    c.length = (m.subs.map (fun s => (s.zaids.map Zaid.name).dedup.length)).sum := by
  obtain ⟨-, hf, hcc, -⟩ := getInfo_ok hc hcons h
  have hlab := getInfo_labels hcons h
  have hsub : ∀ s ∈ m.subs, ∀ z ∈ s.zaids, Canon z := fun s hs z hz => hc z (List.mem_flatMap.2 ⟨s, hs, hz⟩)
  have hrow : ∀ (i : ℕ) (s : SubMat), m.subs[i]? = some s → ∀ (j : ℕ) (y : Zaid), ((collapse s.zaids).flatMap Element.zaids)[j]? = some y →
      ∀ z ∈ s.zaids, y.name = z.name → ∃ r ∈ c, ((rowsOf lm true s.zaids)[j]?).map (fun q => (⟨m.name, i + 1, q.element, q.isotope,
        ((rowsOf lm true (withF (atomFrac m lm) s.zaids))[j]?).map Row.fraction,
        ((rowsOf lm true (withF (massFrac m lm) s.zaids))[j]?).map Row.fraction⟩ : CRow)) = some r ∧ r.material = m.name ∧
        r.sub = i + 1 ∧ Shown lm z r.element ∧ (∃ t, r.isotope = some t ∧ IsLabel lm z t) ∧
        r.atom = some (nameSum z.name (atomFrac m lm) s.zaids) ∧ r.mass = some (nameSum z.name (massFrac m lm) s.zaids) := by
    intro i s hs j y hy z hz hyz
    have hmem : s ∈ m.subs := List.mem_iff_getElem?.2 ⟨_, hs⟩
    have hym : y ∈ (collapse s.zaids).flatMap Element.zaids := List.mem_iff_getElem?.2 ⟨j, hy⟩
    obtain ⟨hel, his, -⟩ := name_inj (collapse_canon (hsub s hmem) y hym) (hsub s hmem z hz) hyz
    obtain ⟨y1, hy1, hf1⟩ := collapse_at (hsub s hmem) (atomFrac m lm) hy
    obtain ⟨y2, hy2, hf2⟩ := collapse_at (hsub s hmem) (massFrac m lm) hy
    obtain ⟨n, hn⟩ := (hf s hmem).2.2.2 z hz
    have hrj : (rowsOf lm true s.zaids)[j]? = some (rowOf lm y) := by
      unfold rowsOf
      simp only [if_true, List.getElem?_map, hy, Option.map_some]
    have hra : (rowsOf lm true (withF (atomFrac m lm) s.zaids))[j]? = some (rowOf lm y1) := by
      unfold rowsOf
      simp only [if_true, List.getElem?_map, hy1, Option.map_some]
    have hrm : (rowsOf lm true (withF (massFrac m lm) s.zaids))[j]? = some (rowOf lm y2) := by
      unfold rowsOf
      simp only [if_true, List.getElem?_map, hy2, Option.map_some]
    refine ⟨⟨m.name, i + 1, (rowOf lm y).element, (rowOf lm y).isotope, some (rowOf lm y1).fraction, some (rowOf lm y2).fraction⟩, ?_, ?_,
      rfl, rfl, ?_, ?_, ?_, ?_⟩
    · rw [hcc]
      refine List.mem_flatMap.2 ⟨(s, i), List.mem_zipIdx_iff_getElem?.2 hs, ?_⟩
      unfold completeRows
      refine List.mem_map.2 ⟨(rowOf lm y, j), List.mem_zipIdx_iff_getElem?.2 hrj, ?_⟩
      simp only [hra, hrm, Option.map_some]
    · rw [hrj, hra, hrm]
      rfl
    · rw [shown_iff]
      unfold rowOf
      simp only [hel, hn, Option.getD_some]
    · exact ⟨labelOf lm y, rfl, isLabel_congr hel his (hlab s hmem y hym)⟩
    · rw [← hyz, ← hf1]; rfl
    · rw [← hyz, ← hf2]; rfl
  refine ⟨?_, ?_, ?_⟩
  · intro r hr
    have hr0 := hr
    rw [hcc] at hr
    obtain ⟨p, hp, hr⟩ := List.mem_flatMap.1 hr
    have hp' := List.mem_zipIdx_iff_getElem?.1 hp
    have hmem : p.1 ∈ m.subs := List.mem_iff_getElem?.2 ⟨_, hp'⟩
    unfold completeRows at hr
    obtain ⟨q, hq, hqr⟩ := List.mem_map.1 hr
    have hq' := List.mem_zipIdx_iff_getElem?.1 hq
    have hq2 := hq'
    unfold rowsOf at hq2
    simp only [if_true, List.getElem?_map, Option.map_eq_some_iff] at hq2
    obtain ⟨y, hy, hyq⟩ := hq2
    have hym : y ∈ (collapse p.1.zaids).flatMap Element.zaids := List.mem_iff_getElem?.2 ⟨_, hy⟩
    have hnm : y.name ∈ p.1.zaids.map Zaid.name := (collapse_names (hsub p.1 hmem) _).1 (List.mem_map_of_mem hym)
    obtain ⟨z, hz, hzn⟩ := List.mem_map.1 hnm
    obtain ⟨r', -, hr1, hr2, hr3, hr4, hr5, hr6, hr7⟩ := hrow p.2 p.1 hp' q.2 y hy z hz hzn.symm
    have : r = r' := by
      rw [hq'] at hr1
      simp only [Option.map_some, Option.some.injEq] at hr1
      rw [← hr1, ← hqr]
    subst this
    exact ⟨hr2, p.2, p.1, z, hr3, hp', hz, hr4, hr5, hr6, hr7⟩
  · intro i s z hs hz
    have hmem : s ∈ m.subs := List.mem_iff_getElem?.2 ⟨_, hs⟩
    have hnm : z.name ∈ ((collapse s.zaids).flatMap Element.zaids).map Zaid.name := (collapse_names (hsub s hmem) _).2 (List.mem_map_of_mem hz)
    obtain ⟨y, hy, hyz⟩ := List.mem_map.1 hnm
    obtain ⟨j, hj⟩ := List.mem_iff_getElem?.1 hy
    obtain ⟨r, hr, -, -, hr3, hr4, hr5, hr6, hr7⟩ := hrow i s hs j y hj z hz hyz
    exact ⟨r, hr, hr3, hr4, hr5, hr6, hr7⟩
  · rw [hcc, List.length_flatMap]
    have : m.subs.zipIdx.map (fun p => (completeRows m.name (p.2 + 1) (rowsOf lm true p.1.zaids)
        (rowsOf lm true (withF (atomFrac m lm) p.1.zaids)) (rowsOf lm true (withF (massFrac m lm) p.1.zaids))).length) =
        (m.subs.zipIdx.map Prod.fst).map (fun s => (s.zaids.map Zaid.name).dedup.length) := by
      rw [List.map_map]
      apply List.map_congr_left
      intro p hp
      have hmem : p.1 ∈ m.subs := List.mem_iff_getElem?.2 ⟨_, List.mem_zipIdx_iff_getElem?.1 hp⟩
      unfold completeRows rowsOf
      simp only [if_true, List.length_map, List.length_zipIdx, Function.comp]
      have hperm : (((collapse p.1.zaids).flatMap Element.zaids).map Zaid.name).Perm (p.1.zaids.map Zaid.name).dedup := by
        rw [List.perm_ext_iff_of_nodup (collapse_names_nodup (hsub p.1 hmem)) (List.nodup_dedup _)]
        intro n
        rw [List.mem_dedup, collapse_names (hsub p.1 hmem)]
      rw [← hperm.length_eq, List.length_map]
    rw [this, List.zipIdx_map_fst]

/-- **C171.** The complete table without the zaids: each row is an element of a submaterial, with the sums of its atom and mass fractions; every
element is in a row; each has one row per submaterial. -/
theorem info_complete_elements {m : Material} {lm : LibMan} (hc : ∀ z ∈ m.zaids, Canon z) (hcons : m.tot = 0 → Consistent m)
    {c : List CRow} {e : List ERow} (h : getInfo m lm false = .ok (c, e)) :
    (∀ r ∈ c, r.material = m.name ∧ r.isotope = none ∧ ∃ (i : ℕ) (s : SubMat) (z : Zaid), r.sub = i + 1 ∧ m.subs[i]? = some s ∧ z ∈ s.zaids ∧
      Shown lm z r.element ∧
      r.atom = some (elemSum z.element (atomFrac m lm) s.zaids) ∧ r.mass = some (elemSum z.element (massFrac m lm) s.zaids)) ∧
    (∀ (i : ℕ) s z, m.subs[i]? = some s → z ∈ s.zaids → ∃ r ∈ c, r.sub = i + 1 ∧ Shown lm z r.element ∧
      r.atom = some (elemSum z.element (atomFrac m lm) s.zaids) ∧ r.mass = some (elemSum z.element (massFrac m lm) s.zaids)) ∧
    c.length = (m.subs.map (fun s => (s.zaids.map Zaid.element).dedup.length)).sum := by
  obtain ⟨-, hf, hcc, -⟩ := getInfo_ok hc hcons h
  have hsub : ∀ s ∈ m.subs, ∀ z ∈ s.zaids, Canon z := fun s hs z hz => hc z (List.mem_flatMap.2 ⟨s, hs, hz⟩)
  have hmemz : ∀ s : SubMat, ∀ x, x ∈ (collapse s.zaids).map Element.z ↔ x ∈ s.zaids.map Zaid.element := by
    intro s x
    rw [collapse_elements, mem_firstOccurrences]
  have hrow : ∀ (i : ℕ) (s : SubMat), m.subs[i]? = some s → ∀ (j : ℕ) (el : Element), (collapse s.zaids)[j]? = some el →
      ∀ z ∈ s.zaids, el.z = z.element → ∃ r ∈ c, ((rowsOf lm false s.zaids)[j]?).map (fun q => (⟨m.name, i + 1, q.element, q.isotope,
        ((rowsOf lm false (withF (atomFrac m lm) s.zaids))[j]?).map Row.fraction,
        ((rowsOf lm false (withF (massFrac m lm) s.zaids))[j]?).map Row.fraction⟩ : CRow)) = some r ∧ r.material = m.name ∧ r.isotope = none ∧
        r.sub = i + 1 ∧ Shown lm z r.element ∧
        r.atom = some (elemSum z.element (atomFrac m lm) s.zaids) ∧ r.mass = some (elemSum z.element (massFrac m lm) s.zaids) := by
    intro i s hs j y hy z hz hyz
    have hmem : s ∈ m.subs := List.mem_iff_getElem?.2 ⟨_, hs⟩
    obtain ⟨y1, hy1, hf1⟩ := collapse_el_at (hsub s hmem) (atomFrac m lm) hy
    obtain ⟨y2, hy2, hf2⟩ := collapse_el_at (hsub s hmem) (massFrac m lm) hy
    obtain ⟨n, hn⟩ := (hf s hmem).2.2.2 z hz
    have hrj : (rowsOf lm false s.zaids)[j]? = some (elRowOf lm y) := by
      unfold rowsOf
      simp only [Bool.false_eq_true, if_false, List.getElem?_map, hy, Option.map_some]
    have hra : (rowsOf lm false (withF (atomFrac m lm) s.zaids))[j]? = some (elRowOf lm y1) := by
      unfold rowsOf
      simp only [Bool.false_eq_true, if_false, List.getElem?_map, hy1, Option.map_some]
    have hrm : (rowsOf lm false (withF (massFrac m lm) s.zaids))[j]? = some (elRowOf lm y2) := by
      unfold rowsOf
      simp only [Bool.false_eq_true, if_false, List.getElem?_map, hy2, Option.map_some]
    refine ⟨⟨m.name, i + 1, (elRowOf lm y).element, (elRowOf lm y).isotope, some (elRowOf lm y1).fraction, some (elRowOf lm y2).fraction⟩, ?_, ?_,
      rfl, rfl, rfl, ?_, ?_, ?_⟩
    · rw [hcc]
      refine List.mem_flatMap.2 ⟨(s, i), List.mem_zipIdx_iff_getElem?.2 hs, ?_⟩
      unfold completeRows
      refine List.mem_map.2 ⟨(elRowOf lm y, j), List.mem_zipIdx_iff_getElem?.2 hrj, ?_⟩
      simp only [hra, hrm, Option.map_some]
    · rw [hrj, hra, hrm]
      rfl
    · rw [shown_iff]
      unfold elRowOf
      simp only [hyz, hn, Option.getD_some]
    · rw [← hyz, ← hf1]; rfl
    · rw [← hyz, ← hf2]; rfl
  refine ⟨?_, ?_, ?_⟩
  · intro r hr
    rw [hcc] at hr
    obtain ⟨p, hp, hr⟩ := List.mem_flatMap.1 hr
    have hp' := List.mem_zipIdx_iff_getElem?.1 hp
    unfold completeRows at hr
    obtain ⟨q, hq, hqr⟩ := List.mem_map.1 hr
    have hq' := List.mem_zipIdx_iff_getElem?.1 hq
    have hq2 := hq'
    unfold rowsOf at hq2
    simp only [Bool.false_eq_true, if_false, List.getElem?_map, Option.map_eq_some_iff] at hq2
    obtain ⟨y, hy, hyq⟩ := hq2
    have hnm : y.z ∈ p.1.zaids.map Zaid.element := (hmemz p.1 y.z).1 (List.mem_map_of_mem (List.mem_iff_getElem?.2 ⟨_, hy⟩))
    obtain ⟨z, hz, hzn⟩ := List.mem_map.1 hnm
    obtain ⟨r', -, hr1, hr2, hr8, hr3, hr4, hr6, hr7⟩ := hrow p.2 p.1 hp' q.2 y hy z hz hzn.symm
    have : r = r' := by
      rw [hq'] at hr1
      simp only [Option.map_some, Option.some.injEq] at hr1
      rw [← hr1, ← hqr]
    subst this
    exact ⟨hr2, hr8, p.2, p.1, z, hr3, hp', hz, hr4, hr6, hr7⟩
  · intro i s z hs hz
    have hnm : z.element ∈ (collapse s.zaids).map Element.z := (hmemz s _).2 (List.mem_map_of_mem hz)
    obtain ⟨y, hy, hyz⟩ := List.mem_map.1 hnm
    obtain ⟨j, hj⟩ := List.mem_iff_getElem?.1 hy
    obtain ⟨r, hr, -, -, -, hr3, hr4, hr6, hr7⟩ := hrow i s hs j y hj z hz hyz
    exact ⟨r, hr, hr3, hr4, hr6, hr7⟩
  · rw [hcc, List.length_flatMap]
    have : m.subs.zipIdx.map (fun p => (completeRows m.name (p.2 + 1) (rowsOf lm false p.1.zaids)
        (rowsOf lm false (withF (atomFrac m lm) p.1.zaids)) (rowsOf lm false (withF (massFrac m lm) p.1.zaids))).length) =
        (m.subs.zipIdx.map Prod.fst).map (fun s => (s.zaids.map Zaid.element).dedup.length) := by
      rw [List.map_map]
      apply List.map_congr_left
      intro p hp
      unfold completeRows rowsOf
      simp only [Bool.false_eq_true, if_false, List.length_map, List.length_zipIdx, Function.comp]
      have hperm : ((collapse p.1.zaids).map Element.z).Perm (p.1.zaids.map Zaid.element).dedup := by
        rw [List.perm_ext_iff_of_nodup (collapse_elements_nodup _) (List.nodup_dedup _)]
        intro n
        rw [List.mem_dedup, hmemz]
      rw [← hperm.length_eq, List.length_map]
    rw [this, List.zipIdx_map_fst]

end F4Enix.MatInfo
