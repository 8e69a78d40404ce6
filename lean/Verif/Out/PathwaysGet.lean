import Verif.Out.PathwaysProps
import Mathlib.Tactic.IntervalCases
/-!
# The ordered table of pathways (C112) and the constructor (C113)
-/
namespace F4Enix.Path
open F4Enix F4Enix.Mat

/-! ### maxima -/

/-- the value is the greatest of those present; missing only if all are (specification) -/
def IsMaxO (S : ℚ → Prop) (o : Option ℚ) : Prop :=
  (o = none ↔ ∀ x, ¬ S x) ∧ ∀ x, o = some x → S x ∧ ∀ y, S y → y ≤ x

theorem maxO_spec {S T : ℚ → Prop} {a b : Option ℚ} (ha : IsMaxO S a) (hb : IsMaxO T b) :
    IsMaxO (fun x => S x ∨ T x) (maxO a b) := by
  obtain ⟨a1, a2⟩ := ha
  obtain ⟨b1, b2⟩ := hb
  cases a with
  | none =>
    have hS := a1.1 rfl
    have e : (fun x => S x ∨ T x) = T := by
      funext x; simp [hS x]
    rw [e]
    exact ⟨b1, b2⟩
  | some x =>
    cases b with
    | none =>
      have hT := b1.1 rfl
      have e : (fun x => S x ∨ T x) = S := by
        funext x; simp [hT x]
      rw [e]
      exact ⟨a1, a2⟩
    | some y =>
      obtain ⟨x1, x2⟩ := a2 x rfl
      obtain ⟨y1, y2⟩ := b2 y rfl
      refine ⟨⟨fun h => by simp [maxO] at h, fun h => absurd (Or.inl x1) (h x)⟩, ?_⟩
      intro z hz
      simp only [maxO, Option.some.injEq] at hz
      subst hz
      constructor
      · rcases le_total x y with h | h
        · rw [max_eq_right h]; exact Or.inr y1
        · rw [max_eq_left h]; exact Or.inl x1
      · rintro w (hw | hw)
        · exact le_max_of_le_left (x2 w hw)
        · exact le_max_of_le_right (y2 w hw)

theorem maxRows_spec {n : ℕ} (rs : List (List (Option ℚ))) (hne : rs ≠ []) (hn : ∀ r ∈ rs, r.length = n) :
    (maxRows rs).length = n ∧ ∀ i, i < n → ∃ o, (maxRows rs)[i]? = some o ∧
      IsMaxO (fun x => ∃ r ∈ rs, r[i]? = some (some x)) o := by
  induction rs with
  | nil => exact absurd rfl hne
  | cons r rs ih =>
    have single : ∀ (r : List (Option ℚ)) (i : ℕ), i < r.length → ∃ o, r[i]? = some o ∧
        IsMaxO (fun x => r[i]? = some (some x)) o := by
      intro r i hi
      refine ⟨r[i], List.getElem?_eq_getElem hi, ?_⟩
      rw [List.getElem?_eq_getElem hi]
      constructor
      · constructor
        · intro h x hx; rw [h] at hx; simp at hx
        · intro h
          cases hr : r[i] with
          | none => rfl
          | some x => exact absurd (by rw [hr]) (h x)
      · intro x hx
        rw [hx]
        exact ⟨rfl, fun y hy => by simp at hy; rw [hy]⟩
    cases rs with
    | nil =>
      have hl := hn r (by simp)
      refine ⟨hl, fun i hi => ?_⟩
      obtain ⟨o, h1, h2⟩ := single r i (by rw [hl]; exact hi)
      refine ⟨o, h1, ?_⟩
      have e : (fun x => ∃ r' ∈ [r], r'[i]? = some (some x)) = (fun x => r[i]? = some (some x)) := by
        funext x; simp
      rw [e]; exact h2
    | cons r' rs =>
      obtain ⟨i1, i2⟩ := ih (by simp) (fun x hx => hn x (List.mem_cons_of_mem _ hx))
      have hl := hn r (by simp)
      have e : maxRows (r :: r' :: rs) = List.zipWith maxO r (maxRows (r' :: rs)) := rfl
      rw [e]
      refine ⟨by rw [List.length_zipWith, hl, i1, min_self], fun i hi => ?_⟩
      obtain ⟨o, h1, h2⟩ := single r i (by rw [hl]; exact hi)
      obtain ⟨o', h3, h4⟩ := i2 i hi
      refine ⟨maxO o o', by rw [List.getElem?_zipWith, h1, h3], ?_⟩
      have := maxO_spec h2 h4
      have e : (fun x => ∃ y ∈ r :: r' :: rs, y[i]? = some (some x)) =
          (fun x => r[i]? = some (some x) ∨ ∃ y ∈ r' :: rs, y[i]? = some (some x)) := by
        funext x; simp
      rw [e]; exact this

/-! ### order -/

theorem lexLe_refl (s : Str) : lexLe s s = true := by
  induction s with
  | nil => rfl
  | cons c s ih => simp [lexLe, ih]

theorem char_eq {a b : Char} (h : a.toNat = b.toNat) : a = b := by
  have := congrArg Char.ofNat h
  simpa using this

theorem lexLe_total (s t : Str) : lexLe s t = true ∨ lexLe t s = true := by
  induction s generalizing t with
  | nil => left; rfl
  | cons a s ih =>
    cases t with
    | nil => right; rfl
    | cons b t =>
      by_cases h : a = b
      · subst h; simpa [lexLe] using ih t
      · have hne : a.toNat ≠ b.toNat := fun e => h (char_eq e)
        simp only [lexLe, if_neg h, if_neg (Ne.symm h), decide_eq_true_eq]
        omega

theorem lexLe_trans {s t u : Str} (h1 : lexLe s t = true) (h2 : lexLe t u = true) : lexLe s u = true := by
  induction s generalizing t u with
  | nil => rfl
  | cons a s ih =>
    cases t with
    | nil => cases h1
    | cons b t =>
      cases u with
      | nil => cases h2
      | cons c u =>
        simp only [lexLe] at h1 h2 ⊢
        by_cases hab : a = b
        · subst hab
          rw [if_pos rfl] at h1
          by_cases hac : a = c
          · subst hac
            rw [if_pos rfl] at h2
            rw [if_pos rfl]; exact ih h1 h2
          · rw [if_neg hac] at h2 ⊢; exact h2
        · rw [if_neg hab, decide_eq_true_eq] at h1
          by_cases hbc : b = c
          · subst hbc
            rw [if_neg hab, decide_eq_true_eq]; exact h1
          · rw [if_neg hbc, decide_eq_true_eq] at h2
            have hac : a ≠ c := by rintro rfl; omega
            rw [if_neg hac, decide_eq_true_eq]; omega

theorem digitsVal_cons (c : Char) (s : Str) : digitsVal (c :: s) = (c.toNat - 48) * 10 ^ s.length + digitsVal s := by
  have key : ∀ (s : Str) (a : ℕ), s.foldl (fun a c => a * 10 + (c.toNat - 48)) a = a * 10 ^ s.length + digitsVal s := by
    intro s
    induction s with
    | nil => intro a; simp [digitsVal]
    | cons d s ih =>
      intro a
      rw [List.foldl_cons, ih, List.length_cons, pow_succ]
      have e : digitsVal (d :: s) = s.foldl (fun a c => a * 10 + (c.toNat - 48)) (0 * 10 + (d.toNat - 48)) := rfl
      rw [e, ih]
      ring
  have e : digitsVal (c :: s) = s.foldl (fun a c => a * 10 + (c.toNat - 48)) (0 * 10 + (c.toNat - 48)) := rfl
  rw [e, key]
  ring

theorem digitsVal_lt {s : Str} (h : ∀ c ∈ s, isDigit c = true) : digitsVal s < 10 ^ s.length := by
  induction s with
  | nil => simp [digitsVal]
  | cons c s ih =>
    have hc := h c (by simp)
    simp only [isDigit, Bool.and_eq_true, decide_eq_true_eq] at hc
    have := ih (fun d hd => h d (List.mem_cons_of_mem _ hd))
    rw [digitsVal_cons, List.length_cons, pow_succ]
    have h9 : c.toNat - 48 ≤ 9 := by omega
    nlinarith [Nat.mul_le_mul_right (10 ^ s.length) h9]

/-- digits of the same length are ordered as numbers -/
theorem lexLe_digits {s t : Str} (hs : ∀ c ∈ s, isDigit c = true) (ht : ∀ c ∈ t, isDigit c = true)
    (hl : s.length = t.length) (h : lexLe s t = true) : digitsVal s ≤ digitsVal t := by
  induction s generalizing t with
  | nil => simp [digitsVal]
  | cons a s ih =>
    cases t with
    | nil => cases hl
    | cons b t =>
      have hl' : s.length = t.length := by simpa using hl
      have ha := hs a (by simp)
      have hb := ht b (by simp)
      simp only [isDigit, Bool.and_eq_true, decide_eq_true_eq] at ha hb
      rw [digitsVal_cons, digitsVal_cons, hl']
      simp only [lexLe] at h
      by_cases hab : a = b
      · subst hab
        rw [if_pos rfl] at h
        have := ih (fun c hc => hs c (List.mem_cons_of_mem _ hc)) (fun c hc => ht c (List.mem_cons_of_mem _ hc)) hl' h
        omega
      · rw [if_neg hab, decide_eq_true_eq] at h
        have h1 := digitsVal_lt (fun c hc => hs c (List.mem_cons_of_mem _ hc))
        rw [hl'] at h1
        have h2 : a.toNat - 48 + 1 ≤ b.toNat - 48 := by omega
        have h3 := Nat.mul_le_mul_right (10 ^ t.length) h2
        rw [Nat.add_mul, one_mul] at h3
        omega

/-! ### C112 -/

theorem zaidNums_spec {lm : LibMan} {gs : List (Key × List (Option ℚ))} {zs : List (Str × Key × List (Option ℚ))}
    (h : zaidNums lm gs = .ok zs) :
    zs.map Prod.snd = gs ∧ ∀ z ∈ zs, lm.zaidNum (z.2.1.1 ++ z.2.1.2.1) = .ok z.1 := by
  induction gs generalizing zs with
  | nil => simp only [zaidNums, Except.ok.injEq] at h; subst h; exact ⟨rfl, by simp⟩
  | cons g gs ih =>
    obtain ⟨k, v⟩ := g
    rw [zaidNums] at h
    split at h
    · cases h
    · rename_i z hz
      split at h
      · cases h
      · rename_i zs' hzs
        simp only [Except.ok.injEq] at h
        subst h
        obtain ⟨i1, i2⟩ := ih hzs
        refine ⟨by rw [List.map_cons, i1], ?_⟩
        intro x hx
        rcases List.mem_cons.1 hx with rfl | hx
        · exact hz
        · exact i2 x hx

/-- is the pair of rows ordered by the texts of their zaid numbers? (specification) -/
def ZaidLe (lm : LibMan) (a b : Key × List (Option ℚ)) : Prop :=
  ∃ za zb, lm.zaidNum (a.1.1 ++ a.1.2.1) = .ok za ∧ lm.zaidNum (b.1.1 ++ b.1.2.1) = .ok zb ∧ lexLe za zb = true

theorem sortByZaid_spec {lm : LibMan} {gs rs : List (Key × List (Option ℚ))} (h : sortByZaid lm gs = .ok rs) :
    rs.Perm gs ∧ rs.Pairwise (ZaidLe lm) := by
  unfold sortByZaid at h
  split_ifs at h
  split at h
  · cases h
  · rename_i zs hzs
    simp only [Except.ok.injEq] at h
    subst h
    obtain ⟨h1, h2⟩ := zaidNums_spec hzs
    have hperm := List.perm_insertionSort (fun a b : Str × Key × List (Option ℚ) => lexLe a.1 b.1 = true) zs
    have : Std.Total (fun a b : Str × Key × List (Option ℚ) => lexLe a.1 b.1 = true) := ⟨fun a b => lexLe_total _ _⟩
    have : IsTrans _ (fun a b : Str × Key × List (Option ℚ) => lexLe a.1 b.1 = true) := ⟨fun a b c => lexLe_trans⟩
    have hsort := List.pairwise_insertionSort (fun a b : Str × Key × List (Option ℚ) => lexLe a.1 b.1 = true) zs
    constructor
    · rw [← h1]; exact hperm.map _
    · rw [List.pairwise_map]
      have hmem : ∀ z ∈ zs.insertionSort (fun a b => lexLe a.1 b.1 = true), lm.zaidNum (z.2.1.1 ++ z.2.1.2.1) = .ok z.1 :=
        fun z hz => h2 z (hperm.mem_iff.1 hz)
      refine List.Pairwise.imp_of_mem ?_ hsort
      intro a b ha hb hab
      exact ⟨a.1, b.1, hmem a ha, hmem b hb, hab⟩

/-- **C112.** The table has exactly one row for each element, isotope and pathway with a selected row that has a
value at one of the times; the value at each time is the greatest of all selected rows of that pathway, missing
only if none of them has one; the rows are ordered by the text of the zaid number. -/
theorem get_rows {lm : LibMan} {lib : List Row} {avail : List Str} {spectrum : Option (List Str)} {dose : ℤ}
    {materials cooling : Option (List Str)} {gs : List (Key × List (Option ℚ))}
    (h : getPathways lm lib avail spectrum dose materials cooling = .ok gs) :
    (gs.map Prod.fst).Nodup ∧
    (∀ k, k ∈ gs.map Prod.fst ↔ ∃ r, Selected lib avail spectrum dose materials r ∧ r.key = k ∧
      ∃ t ∈ timesAsked cooling, (r.at t).isSome = true) ∧
    (∀ g ∈ gs, g.2.length = (timesAsked cooling).length ∧ ∀ (i : ℕ) t, (timesAsked cooling)[i]? = some t →
      ∃ o, g.2[i]? = some o ∧
        IsMaxO (fun x => ∃ r, Selected lib avail spectrum dose materials r ∧ r.key = g.1 ∧ r.at t = some x) o) ∧
    gs.Pairwise (ZaidLe lm) := by
  unfold getPathways at h
  split at h
  · cases h
  · rename_i fs hfs
    obtain ⟨hp, hs⟩ := sortByZaid_spec h
    obtain ⟨hmem, _⟩ := filter_rows hfs
    have hkeys : (groups fs).map Prod.fst = (fs.map (fun p => p.1.key)).dedup := by
      unfold groups; rw [List.map_map]; exact List.map_id _
    refine ⟨?_, ?_, ?_, hs⟩
    · rw [(hp.map Prod.fst).nodup_iff, hkeys]; exact List.nodup_dedup _
    · intro k
      rw [(hp.map Prod.fst).mem_iff, hkeys, List.mem_dedup, List.mem_map]
      constructor
      · rintro ⟨p, hp, rfl⟩
        obtain ⟨h1, h2, h3⟩ := (hmem p).1 hp
        exact ⟨p.1, h1, rfl, h3⟩
      · rintro ⟨r, h1, h2, h3⟩
        exact ⟨(r, (timesAsked cooling).map r.at), (hmem _).2 ⟨h1, rfl, h3⟩, h2⟩
    · intro g hg
      have hg' := hp.mem_iff.1 hg
      unfold groups at hg'
      obtain ⟨k, hk, rfl⟩ := List.mem_map.1 hg'
      rw [List.mem_dedup, List.mem_map] at hk
      obtain ⟨p0, hp0, hk0⟩ := hk
      simp only
      have hne : (fs.filter (fun p => p.1.key = k)).map Prod.snd ≠ [] := by
        intro h0
        rw [List.map_eq_nil_iff] at h0
        have : p0 ∈ fs.filter (fun p => p.1.key = k) := List.mem_filter.2 ⟨hp0, by simpa using hk0⟩
        rw [h0] at this; cases this
      have hlen : ∀ r ∈ (fs.filter (fun p => p.1.key = k)).map Prod.snd, r.length = (timesAsked cooling).length := by
        intro r hr
        obtain ⟨p, hp, rfl⟩ := List.mem_map.1 hr
        rw [((hmem p).1 (List.mem_filter.1 hp).1).2.1, List.length_map]
      obtain ⟨m1, m2⟩ := maxRows_spec _ hne hlen
      refine ⟨m1, ?_⟩
      intro i t hit
      have hi : i < (timesAsked cooling).length := by
        by_contra hcon
        rw [List.getElem?_eq_none (by omega)] at hit
        cases hit
      obtain ⟨o, o1, o2⟩ := m2 i hi
      refine ⟨o, o1, ?_⟩
      have e : (fun x => ∃ r ∈ (fs.filter (fun p => p.1.key = k)).map Prod.snd, r[i]? = some (some x)) =
          (fun x => ∃ r, Selected lib avail spectrum dose materials r ∧ r.key = k ∧ r.at t = some x) := by
        funext x
        apply propext
        constructor
        · rintro ⟨v, hv, hx⟩
          obtain ⟨p, hp, rfl⟩ := List.mem_map.1 hv
          obtain ⟨hp1, hp2⟩ := List.mem_filter.1 hp
          obtain ⟨a1, a2, _⟩ := (hmem p).1 hp1
          refine ⟨p.1, a1, by simpa using hp2, ?_⟩
          rw [a2, List.getElem?_map, hit] at hx
          simpa using hx
        · rintro ⟨r, h1, h2, h3⟩
          refine ⟨(timesAsked cooling).map r.at, List.mem_map.2 ⟨(r, (timesAsked cooling).map r.at), List.mem_filter.2 ⟨?_, by simpa using h2⟩, rfl⟩, ?_⟩
          · refine (hmem _).2 ⟨h1, rfl, t, List.mem_of_getElem? hit, ?_⟩
            simp only [h3]; rfl
          · rw [List.getElem?_map, hit]; simp [h3]
      rw [← e]; exact o2

theorem zaidNum_nuclide (lm : LibMan) {z a : ℕ} {sym st : Str} (h2 : sym ≠ []) (h3 : ∀ c ∈ sym, isLetter c = true)
    (h4 : lm.numberOf sym = some z) (hst : ∀ c ∈ st, isLetter c = true) :
    lm.zaidNum (sym ++ (natStr a ++ st)) = .ok (natStr z ++ pad3 a) := by
  have hhead : ∀ c, (natStr a ++ st).head? = some c → isLetter c = false := by
    intro c hc
    apply isDigit_not_letter
    cases hn : natStr a with
    | nil => exact absurd hn (natStr_ne_nil a)
    | cons d ds =>
      rw [hn] at hc
      simp only [List.cons_append, List.head?_cons, Option.some.injEq] at hc
      subst hc
      exact natStr_all_digit a d (by rw [hn]; simp)
  have e1 := searchLetters_prefix (rest := natStr a ++ st) h2 h3 hhead
  have e2 : searchDigits (sym ++ (natStr a ++ st)) = some (natStr a) :=
    Find.searchDigits_run (fun c hc => isLetter_not_digit (h3 c hc)) (natStr_ne_nil a) (natStr_all_digit a) (by
      intro c t ht
      exact isLetter_not_digit (hst c (by rw [ht]; simp)))
  simp only [LibMan.zaidNum, e1, h4, e2, digitsVal_natStr]

theorem digitsVal_append (s t : Str) : digitsVal (s ++ t) = digitsVal s * 10 ^ t.length + digitsVal t := by
  induction s with
  | nil => simp [digitsVal]
  | cons c s ih =>
    rw [List.cons_append, digitsVal_cons, digitsVal_cons, ih, List.length_append, pow_add]; ring

/-- a nuclide as it stands in the table: symbol of element `z`, mass number `a` below 1000, letters for the state (specification) -/
structure Nuclide (lm : LibMan) (k : Key) (z a : ℕ) : Prop where
  symbol : k.1 ≠ [] ∧ (∀ c ∈ k.1, isLetter c = true) ∧ lm.numberOf k.1 = some z
  isotope : ∃ st, k.2.1 = natStr a ++ st ∧ ∀ c ∈ st, isLetter c = true
  mass : a < 1000

/-- **C112 (order).** Between nuclides whose element numbers have the same number of digits - as all of the shipped
library -, the rows are ordered by element number, then mass number. Partial: Rows, maxima and the order among elements with equally many digits are proved; the order is false across 1- and 2-digit element numbers (order_light) and a request without values raises (get_empty). -/
theorem get_order_partial {lm : LibMan} {lib : List Row} {avail : List Str} {spectrum : Option (List Str)} {dose : ℤ}
    {materials cooling : Option (List Str)} {gs : List (Key × List (Option ℚ))}
    (h : getPathways lm lib avail spectrum dose materials cooling = .ok gs) :
    gs.Pairwise (fun g g' => ∀ z a z' a', Nuclide lm g.1 z a → Nuclide lm g'.1 z' a' →
      (natStr z).length = (natStr z').length → z < z' ∨ (z = z' ∧ a ≤ a')) := by
  refine (get_rows h).2.2.2.imp ?_
  rintro g g' ⟨s, s', e1, e2, hle⟩ z a z' a' n n' hl
  obtain ⟨st, i1, i2⟩ := n.isotope
  obtain ⟨st', i1', i2'⟩ := n'.isotope
  rw [i1, zaidNum_nuclide lm n.symbol.1 n.symbol.2.1 n.symbol.2.2 i2] at e1
  rw [i1', zaidNum_nuclide lm n'.symbol.1 n'.symbol.2.1 n'.symbol.2.2 i2'] at e2
  simp only [Except.ok.injEq] at e1 e2
  subst e1 e2
  have hd : ∀ z a, ∀ c ∈ natStr z ++ pad3 a, isDigit c = true := by
    intro z a c hc
    rcases List.mem_append.1 hc with hc | hc
    · exact natStr_all_digit z c hc
    · exact pad3_digits a c hc
  have := lexLe_digits (hd z a) (hd z' a') (by
    rw [List.length_append, List.length_append, hl, pad3_length n.mass, pad3_length n'.mass]) hle
  rw [digitsVal_append, digitsVal_append, digitsVal_natStr, digitsVal_natStr, digitsVal_pad3, digitsVal_pad3,
    pad3_length n.mass, pad3_length n'.mass] at this
  have h1 := n.mass
  have h2 := n'.mass
  omega

/-- **C112 (false for light elements).** The numbers are compared as texts: a nuclide of an element below 10 stands
behind one of an element from 10 to 99 whose number begins with a smaller digit. -/
theorem order_light (lm : LibMan) {k k' : Key} {v v' : List (Option ℚ)} {z a z' a' : ℕ} (h : Nuclide lm k z a)
    (h' : Nuclide lm k' z' a') (hz : z < 10) (hz' : 10 ≤ z' ∧ z' < 100) (hd : z' / 10 < z) :
    ZaidLe lm (k', v') (k, v) ∧ ¬ ZaidLe lm (k, v) (k', v') := by
  obtain ⟨st, i1, i2⟩ := h.isotope
  obtain ⟨st', i1', i2'⟩ := h'.isotope
  have e1 : lm.zaidNum (k.1 ++ k.2.1) = .ok (natStr z ++ pad3 a) := by
    rw [i1]; exact zaidNum_nuclide lm h.symbol.1 h.symbol.2.1 h.symbol.2.2 i2
  have e2 : lm.zaidNum (k'.1 ++ k'.2.1) = .ok (natStr z' ++ pad3 a') := by
    rw [i1']; exact zaidNum_nuclide lm h'.symbol.1 h'.symbol.2.1 h'.symbol.2.2 i2'
  have hn : natStr z = [digitChar z] := by interval_cases z <;> decide
  have hn' : natStr z' = [digitChar (z' / 10), digitChar (z' % 10)] := by
    obtain ⟨h1, h2⟩ := hz'
    interval_cases z' <;> decide
  have hlt : (digitChar (z' / 10)).toNat < (digitChar z).toNat := by
    rw [digitChar_toNat (by omega), digitChar_toNat hz]; omega
  have hne : digitChar (z' / 10) ≠ digitChar z := by intro e; rw [e] at hlt; omega
  constructor
  · refine ⟨_, _, e2, e1, ?_⟩
    rw [hn, hn']
    simp only [List.cons_append, lexLe, if_neg hne, decide_eq_true_eq]
    exact hlt
  · rintro ⟨s, s', f1, f2, hle⟩
    simp only at f1 f2
    rw [e1] at f1
    rw [e2] at f2
    simp only [Except.ok.injEq] at f1 f2
    subst f1 f2
    rw [hn, hn'] at hle
    simp only [List.cons_append, lexLe, if_neg (Ne.symm hne), decide_eq_true_eq] at hle
    omega

/-- **C112 (a request without values).** When no selected row has a value at the times asked for, the call fails
instead of returning an empty table. -/
theorem get_empty (lm : LibMan) {lib : List Row} {avail : List Str} {spectrum : Option (List Str)} {dose : ℤ}
    {materials cooling : Option (List Str)} {fs : List (Row × List (Option ℚ))}
    (h : filterPathways lib avail spectrum dose materials cooling = .ok fs)
    (hn : ∀ r, Selected lib avail spectrum dose materials r → ∀ t ∈ timesAsked cooling, r.at t = none) :
    getPathways lm lib avail spectrum dose materials cooling = .error .valueError := by
  have hf : fs = [] := by
    rw [List.eq_nil_iff_forall_not_mem]
    intro p hp
    obtain ⟨h1, _, t, ht, h3⟩ := ((filter_rows h).1 p).1 hp
    rw [hn p.1 h1 t ht] at h3; cases h3
  subst hf
  unfold getPathways
  rw [h]
  rfl

/-! ### C113 -/

/-- **C113.** The library has exactly the rows of the table, the isotope being its number followed by the state, if
there is one. Partial: The rows are proved; the table of the caller is changed so that a second library cannot be made: create_twice. -/
theorem create_rows_partial {t : Table} (hs : t.hasState = true)
    (hd : ∀ r ∈ t.rows, (∀ c ∈ r.isotope, isDigit c = true) ∧ ∀ s, r.state = some s → ∀ c ∈ s, c ≠ 'n') :
    ∃ lib t', create t = .ok (lib, t') ∧ lib = t.rows.map (fun r =>
      ⟨r.dose, r.spectrum, r.element, r.isotope ++ r.state.getD [], r.pathway, r.material, r.vals⟩) := by
  have key : ∀ (s u : Str), (∀ c ∈ s, c ≠ 'n') → Find.removeAll "nan".toList 0 (s ++ u) = s ++ Find.removeAll "nan".toList 0 u := by
    intro s u h
    induction s with
    | nil => rfl
    | cons c s ih =>
      have hc := h c (by simp)
      rw [List.cons_append, Find.removeAll, if_neg, ih (fun d hd => h d (List.mem_cons_of_mem _ hd))]
      · rfl
      · intro hp
        have : "nan".toList = ['n', 'a', 'n'] := by decide
        rw [this] at hp
        simp only [List.isPrefixOf, Bool.and_eq_true, beq_iff_eq] at hp
        exact hc hp.1.symm
  have hnan : Find.removeAll "nan".toList 0 "nan".toList = [] := by decide
  refine ⟨_, _, by unfold create; rw [if_pos hs], ?_⟩
  apply List.map_congr_left
  intro r hr
  obtain ⟨h1, h2⟩ := hd r hr
  have hiso : ∀ c ∈ r.isotope, c ≠ 'n' := by
    intro c hc; rintro rfl
    have := h1 _ hc
    revert this; decide
  have : isotopeName r = r.isotope ++ r.state.getD [] := by
    unfold isotopeName
    cases hst : r.state with
    | none =>
      simp only [Option.getD_none]
      rw [key _ _ hiso, hnan]
    | some s =>
      simp only [Option.getD_some]
      have := key (r.isotope ++ s) [] (by
        intro c hc
        rcases List.mem_append.1 hc with hc | hc
        · exact hiso c hc
        · exact h2 s hst c hc)
      rw [List.append_nil] at this
      rw [this]; simp [Find.removeAll]
  rw [this]

/-- **C113 (false: the table of the caller is changed).** After one library has been made from a table, a second
cannot be made from the same table. -/
theorem create_twice {t t' : Table} {lib : List Row} (h : create t = .ok (lib, t')) : create t' = .error .keyError := by
  unfold create at h
  split_ifs at h
  simp only [Except.ok.injEq, Prod.mk.injEq] at h
  rw [← h.2]
  rfl

/-! ### an example -/

/-- two pathways of two nuclides in two materials (example) -/
def exLib : List Row :=
  [⟨"Dose 95%".toList, "First Wall (315g)".toList, "Co".toList, "60".toList, "p1".toList, "A".toList, [some 3, none, none, none, none, some 1]⟩,
    ⟨"Dose 95%".toList, "First Wall (315g)".toList, "Co".toList, "60".toList, "p1".toList, "B".toList, [some 1, some 5, none, none, none, none]⟩,
    ⟨"Dose 95%".toList, "First Wall (315g)".toList, "Na".toList, "24m".toList, "p2".toList, "B".toList, [some 7, none, none, none, none, none]⟩,
    ⟨"Dose 99%".toList, "First Wall (315g)".toList, "Na".toList, "22".toList, "p3".toList, "B".toList, [some 9, none, none, none, none, none]⟩]

/-- elements of the example -/
def exLm : LibMan :=
  ⟨[], fun _ _ => false, [⟨"11023".toList, 11, "Na".toList, 1, 1⟩, ⟨"27059".toList, 27, "Co".toList, 1, 1⟩], [], []⟩

/-- the row of cobalt has the value of one material at the first time and of the other at the second -/
example : (getPathways exLm exLib ["A".toList, "B".toList] (some ["First Wall (315g)".toList]) 95 none
    (some ["24h".toList, "11.6d".toList])).toOption =
    some [(("Na".toList, "24m".toList, "p2".toList), [some 7, none]), (("Co".toList, "60".toList, "p1".toList), [some 3, some 5])] := by
  decide +kernel

example : (getPathways exLm exLib ["A".toList, "B".toList] (some ["First Wall (315g)".toList]) 95 none
    (some ["1y".toList])) = .error .valueError := by
  decide +kernel

example : filterPathways exLib ["A".toList, "B".toList] (some ["First Wall (315g)".toList]) 99 (some ["A".toList]) none =
    .error .keyError := by
  decide +kernel

end F4Enix.Path
