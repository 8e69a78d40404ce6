import Verif.Out.FmeshWrite
import Verif.Base.TextLemmas
/-!
# Transforming mesh tallies by the FMESH cards of the input (C155)
-/
namespace F4Enix.FmeshW
open F4Enix

/-! ### The specification -/

/-- The text begins with `tr`, blanks, `=`, blanks and a whole number; `w` is what stands after the equals sign. (specification) -/
def IsTr (s w : Str) : Prop :=
  ∃ b1 b2 d post : Str, s = 't' :: 'r' :: (b1 ++ '=' :: (b2 ++ (d ++ post))) ∧ (∀ c ∈ b1, isSpace c = true) ∧ (∀ c ∈ b2, isSpace c = true) ∧
    d ≠ [] ∧ (∀ c ∈ d, isDigit c = true) ∧ (∀ c, post.head? = some c → isDigit c = false) ∧ w = b2 ++ d

/-- The card of a mesh tally that is held names the transformation `w`, in the first of its lines that has one. (specification) -/
def Names (c : DataCard) (w : Str) : Prop := hasFmesh c.key = true ∧ trOfCard c.lines = some w

/-! ### Finding the flag in a line -/

theorem digit_not_space {c : Char} (h : isDigit c = true) : isSpace c = false := by
  have h1 : 48 ≤ c.toNat ∧ c.toNat ≤ 57 := by
    unfold isDigit at h
    simpa using h
  unfold isSpace
  simp only [Bool.or_eq_false_iff, Bool.and_eq_false_iff, decide_eq_false_iff_not, beq_eq_false_iff_ne]
  omega

theorem mem_takeWhile_true {p : Char → Bool} {l : Str} {c : Char} (h : c ∈ l.takeWhile p) : p c = true := by
  induction l with
  | nil => simp at h
  | cons x l ih =>
    rw [List.takeWhile_cons] at h
    split at h
    · rename_i hx
      rcases List.mem_cons.1 h with rfl | h
      · exact hx
      · exact ih h
    · simp at h

theorem trAt_iff (s w : Str) : trAt s = some w ↔ IsTr s w := by
  constructor
  · intro h
    unfold trAt at h
    split at h
    · rename_i r
      split at h
      · rename_i r2 h2
        unfold blanksDigits at h
        simp only at h
        split at h
        · exact absurd h (by simp)
        · rename_i hd
          simp only [Option.some.injEq] at h
          refine ⟨r.takeWhile isSpace, r2.takeWhile isSpace, (r2.dropWhile isSpace).takeWhile isDigit, (r2.dropWhile isSpace).dropWhile isDigit,
            ?_, ?_, ?_, hd, ?_, ?_, h.symm⟩
          · rw [List.takeWhile_append_dropWhile, List.takeWhile_append_dropWhile, ← h2, List.takeWhile_append_dropWhile]
          · intro c hc; exact mem_takeWhile_true hc
          · intro c hc; exact mem_takeWhile_true hc
          · intro c hc; exact mem_takeWhile_true hc
          · intro c hc
            have := List.head?_dropWhile_not isDigit (r2.dropWhile isSpace)
            rw [hc] at this
            simpa using this
      · exact absurd h (by simp)
    · exact absurd h (by simp)
  · rintro ⟨b1, b2, d, post, rfl, h1, h2, hd, hdd, hp, rfl⟩
    unfold trAt
    simp only
    rw [dropWhile_all_append h1 (by intro c hc; simp only [List.head?_cons, Option.some.injEq] at hc; subst hc; decide)]
    simp only
    have hhead : ∀ c, (d ++ post).head? = some c → isSpace c = false := by
      intro c hc
      cases d with
      | nil => exact absurd rfl hd
      | cons x xs =>
        simp only [List.cons_append, List.head?_cons, Option.some.injEq] at hc
        subst hc
        exact digit_not_space (hdd _ (by simp))
    unfold blanksDigits
    simp only
    rw [dropWhile_all_append h2 hhead, takeWhile_all_append h2 hhead, takeWhile_all_append hdd hp, if_neg hd]

/-- **C155 (finding the flag).** A line has a transformation exactly if somewhere in it stands `tr = N`; the first such place counts. -/
theorem trSearch_iff (s w : Str) : trSearch s = some w ↔
    ∃ pre t, s = pre ++ t ∧ IsTr t w ∧ ∀ pre' t', s = pre' ++ t' → pre'.length < pre.length → ∀ w', ¬ IsTr t' w' := by
  induction s with
  | nil =>
    simp only [trSearch, List.nil_eq_append_iff]
    constructor
    · intro h; simp at h
    · rintro ⟨pre, t, ⟨rfl, rfl⟩, ⟨b1, b2, d, post, h, -⟩, -⟩
      simp at h
  | cons c s ih =>
    rw [trSearch.eq_def]
    simp only
    cases ha : trAt (c :: s) with
    | some r =>
      simp only [Option.some.injEq]
      constructor
      · rintro rfl
        exact ⟨[], c :: s, rfl, (trAt_iff _ _).1 ha, by intro p t _ hl; simp at hl⟩
      · rintro ⟨pre, t, e, ht, hmin⟩
        cases pre with
        | nil =>
          simp only [List.nil_append] at e
          subst e
          have := (trAt_iff _ _).2 ht
          rw [ha] at this
          exact Option.some.inj this
        | cons x xs => exact absurd ((trAt_iff _ _).1 ha) (hmin [] (c :: s) rfl (by simp) r)
    | none =>
      simp only
      rw [ih]
      have hno : ∀ w', ¬ IsTr (c :: s) w' := by
        intro w' h
        have := (trAt_iff _ _).2 h
        rw [ha] at this
        exact absurd this (by simp)
      constructor
      · rintro ⟨pre, t, e, ht, hmin⟩
        refine ⟨c :: pre, t, by rw [e]; rfl, ht, ?_⟩
        intro p t' e' hl w'
        cases p with
        | nil =>
          simp only [List.nil_append] at e'
          rw [← e']; exact hno w'
        | cons x xs =>
          simp only [List.cons_append, List.cons.injEq] at e'
          exact hmin xs t' e'.2 (by simpa using hl) w'
      · rintro ⟨pre, t, e, ht, hmin⟩
        cases pre with
        | nil =>
          simp only [List.nil_append] at e
          subst e
          exact absurd ht (hno w)
        | cons x xs =>
          simp only [List.cons_append, List.cons.injEq] at e
          refine ⟨xs, t, e.2, ht, ?_⟩
          intro p t' e' hl w'
          exact hmin (c :: p) t' (by rw [e']; rfl) (by simpa using hl) w'

/-- no flag is found exactly if none stands in the line -/
theorem trSearch_none_iff (s : Str) : trSearch s = none ↔ ∀ pre t w, s = pre ++ t → ¬ IsTr t w := by
  induction s with
  | nil =>
    simp only [trSearch, List.nil_eq_append_iff, true_iff]
    rintro pre t w ⟨rfl, rfl⟩ ⟨b1, b2, d, post, h, -⟩
    simp at h
  | cons c s ih =>
    rw [trSearch.eq_def]
    simp only
    cases ha : trAt (c :: s) with
    | some r =>
      simp only [reduceCtorEq, false_iff, not_forall]
      exact ⟨[], c :: s, r, rfl, fun h => h ((trAt_iff _ _).1 ha)⟩
    | none =>
      simp only
      rw [ih]
      constructor
      · intro h pre t w e
        cases pre with
        | nil =>
          simp only [List.nil_append] at e
          subst e
          intro ht
          have := (trAt_iff _ _).2 ht
          rw [ha] at this
          exact absurd this (by simp)
        | cons x xs =>
          simp only [List.cons_append, List.cons.injEq] at e
          exact h xs t w e.2
      · intro h pre t w e
        exact h (c :: pre) t w (by rw [e]; rfl)

/-- **C155 (upper case).** The flag is searched in lower case only: a line without a small `t` names no transformation, so `TR=5` is not seen. -/
theorem upper_case_unseen (s : Str) (h : 't' ∉ s) : trSearch s = none := by
  rw [trSearch_none_iff]
  rintro pre t w rfl ⟨b1, b2, d, post, rfl, -⟩
  exact h (by simp)

/-! ### The dictionary of transformations -/

theorem trDict_ok {T M : Type} (trs : Dict Str T) (mesh : Dict ℕ M) : ∀ (cards : List DataCard) (d : Dict ℕ T), Dict.WF d →
    (∀ c ∈ cards, ∀ w, Names c w → c.name ∈ Dict.keys mesh → ∃ t, Dict.get? trs ("TR".toList ++ w) = some t) →
    ((cards.filter (fun c => hasFmesh c.key)).map DataCard.name).Nodup →
    ∃ d', trDict trs mesh cards d = .ok d' ∧ Dict.WF d' ∧
      (∀ c ∈ cards, ∀ w, Names c w → c.name ∈ Dict.keys mesh → Dict.get? d' c.name = Dict.get? trs ("TR".toList ++ w)) ∧
      (∀ n, (∀ c ∈ cards, c.name = n → n ∈ Dict.keys mesh → ∀ w, ¬ Names c w) → Dict.get? d' n = Dict.get? d n) := by
  intro cards
  induction cards with
  | nil =>
    intro d hd _ _
    exact ⟨d, rfl, hd, by simp, by intro n _; rfl⟩
  | cons c cs ih =>
    intro d hd hok hn
    have hok' : ∀ c ∈ cs, ∀ w, Names c w → c.name ∈ Dict.keys mesh → ∃ t, Dict.get? trs ("TR".toList ++ w) = some t :=
      fun x hx => hok x (by simp [hx])
    have hn' : ((cs.filter (fun c => hasFmesh c.key)).map DataCard.name).Nodup := by
      rw [List.filter_cons] at hn
      split at hn
      · exact (List.nodup_cons.1 hn).2
      · exact hn
    rw [trDict.eq_def]
    simp only
    by_cases hc : (hasFmesh c.key && Dict.has mesh c.name) = true
    · rw [if_pos hc]
      have hk := (Bool.and_eq_true _ _).mp hc
      have hin := (Dict.has_iff _ _).1 hk.2
      have hfresh : ∀ x ∈ cs, hasFmesh x.key = true → x.name ≠ c.name := by
        intro x hx hfx e
        rw [List.filter_cons, if_pos hk.1] at hn
        exact (List.nodup_cons.1 hn).1 (List.mem_map.2 ⟨x, List.mem_filter.2 ⟨hx, hfx⟩, e⟩)
      cases ht : trOfCard c.lines with
      | none =>
        simp only
        obtain ⟨d', e, hw, h1, h2⟩ := ih d hd hok' hn'
        refine ⟨d', e, hw, ?_, ?_⟩
        · intro x hx w hw' hm
          rcases List.mem_cons.1 hx with rfl | hx
          · rw [hw'.2] at ht; exact absurd ht (by simp)
          · exact h1 x hx w hw' hm
        · intro n hnn
          exact h2 n (fun x hx => hnn x (by simp [hx]))
      | some w =>
        simp only
        obtain ⟨t, htr⟩ := hok c (by simp) w ⟨hk.1, ht⟩ hin
        rw [htr]
        simp only
        obtain ⟨d', e, hw, h1, h2⟩ := ih (Dict.set d c.name t) (Dict.WF_set hd _ _) hok' hn'
        refine ⟨d', e, hw, ?_, ?_⟩
        · intro x hx w' hw' hm
          rcases List.mem_cons.1 hx with rfl | hx
          · rw [hw'.2] at ht
            have : w' = w := Option.some.inj ht
            subst this
            rw [h2 _ (fun y hy e _ w'' hn'' => hfresh y hy hn''.1 e), Dict.get?_set_self, htr]
          · exact h1 x hx w' hw' hm
        · intro n hnn
          rw [h2 n (fun x hx => hnn x (by simp [hx]))]
          by_cases e : c.name = n
          · exact absurd ⟨hk.1, ht⟩ (hnn c (by simp) e (e ▸ hin) w)
          · exact Dict.get?_set_ne _ _ e
    · rw [if_neg hc]
      obtain ⟨d', e, hw, h1, h2⟩ := ih d hd hok' hn'
      refine ⟨d', e, hw, ?_, ?_⟩
      · intro x hx w hw' hm
        rcases List.mem_cons.1 hx with rfl | hx
        · exact absurd (by rw [hw'.1, (Dict.has_iff _ _).2 hm]; rfl) hc
        · exact h1 x hx w hw' hm
      · intro n hnn
        exact h2 n (fun x hx => hnn x (by simp [hx]))

/-- what the dictionary holds comes from the cards -/
theorem trDict_from {T M : Type} (trs : Dict Str T) (mesh : Dict ℕ M) : ∀ (cards : List DataCard) (d d' : Dict ℕ T),
    trDict trs mesh cards d = .ok d' → ∀ n t, Dict.get? d' n = some t →
    Dict.get? d n = some t ∨ ∃ c ∈ cards, c.name = n ∧ n ∈ Dict.keys mesh ∧ ∃ w, Names c w ∧ Dict.get? trs ("TR".toList ++ w) = some t := by
  intro cards
  induction cards with
  | nil =>
    intro d d' h n t hn
    simp only [trDict, Except.ok.injEq] at h
    subst h
    exact Or.inl hn
  | cons c cs ih =>
    intro d d' h n t hn
    have lift : ∀ {q : Prop}, (q ∨ ∃ x ∈ cs, x.name = n ∧ n ∈ Dict.keys mesh ∧ ∃ w, Names x w ∧ Dict.get? trs ("TR".toList ++ w) = some t) →
        (q ∨ ∃ x ∈ c :: cs, x.name = n ∧ n ∈ Dict.keys mesh ∧ ∃ w, Names x w ∧ Dict.get? trs ("TR".toList ++ w) = some t) := by
      rintro q (h | ⟨x, hx, r⟩)
      · exact Or.inl h
      · exact Or.inr ⟨x, by simp [hx], r⟩
    rw [trDict.eq_def] at h
    simp only at h
    split at h
    · rename_i hc
      have hk := (Bool.and_eq_true _ _).mp hc
      cases ht : trOfCard c.lines with
      | none =>
        rw [ht] at h
        exact lift (ih d d' h n t hn)
      | some w =>
        rw [ht] at h
        simp only at h
        cases hg : Dict.get? trs ("TR".toList ++ w) with
        | none => rw [hg] at h; exact absurd h (by simp)
        | some u =>
          rw [hg] at h
          rcases ih _ d' h n t hn with h3 | ⟨x, hx, r⟩
          · rw [Dict.get?_set] at h3
            split at h3
            · rename_i e
              have e' : c.name = n := by simpa using e
              refine Or.inr ⟨c, by simp, e', e' ▸ (Dict.has_iff _ _).1 hk.2, w, ⟨hk.1, ht⟩, by rw [hg]; exact h3⟩
            · exact Or.inl h3
          · exact Or.inr ⟨x, by simp [hx], r⟩
    · exact lift (ih d d' h n t hn)

/-- a transformation that the input has not ends the work -/
theorem trDict_missing {T M : Type} (trs : Dict Str T) (mesh : Dict ℕ M) : ∀ (cards : List DataCard) (d : Dict ℕ T),
    (∃ c ∈ cards, c.name ∈ Dict.keys mesh ∧ ∃ w, Names c w ∧ Dict.get? trs ("TR".toList ++ w) = none) →
    trDict trs mesh cards d = .error .keyError := by
  intro cards
  induction cards with
  | nil => rintro d ⟨c, hc, -⟩; simp at hc
  | cons c cs ih =>
    rintro d ⟨x, hx, hin, w, hw, hg⟩
    rw [trDict.eq_def]
    simp only
    rcases List.mem_cons.1 hx with rfl | hx
    · rw [if_pos (by rw [hw.1, (Dict.has_iff _ _).2 hin]; rfl), hw.2]
      simp only [hg]
    · have key := fun d => ih d ⟨x, hx, hin, w, hw, hg⟩
      split
      · split
        · exact key _
        · split
          · rfl
          · exact key _
      · exact key _

/-! ### Applying them -/

theorem keys_set_mem {ν : Type} {d : Dict ℕ ν} {k : ℕ} {v u : ν} (h : Dict.get? d k = some u) : Dict.keys (Dict.set d k v) = Dict.keys d := by
  induction d with
  | nil => simp at h
  | cons p d ih =>
    obtain ⟨a, b⟩ := p
    simp only [Dict.set]
    simp only [Dict.get?] at h
    by_cases e : a = k
    · rw [if_pos e]; rfl
    · rw [if_neg e] at h ⊢
      have := ih h
      simp only [Dict.keys, List.map_cons] at this ⊢
      rw [this]

theorem transformMany_ok {T M : Type} (app : M → T → Except PyErr M) : ∀ (d : Dict ℕ T) (mesh : Dict ℕ M), Dict.WF d →
    (∀ n t, Dict.get? d n = some t → ∃ m m', Dict.get? mesh n = some m ∧ app m t = .ok m') →
    ∃ out, transformMany app d mesh = (out, none) ∧ Dict.keys out = Dict.keys mesh ∧
      ∀ n, (∀ t m m', Dict.get? d n = some t → Dict.get? mesh n = some m → app m t = .ok m' → Dict.get? out n = some m') ∧
        (Dict.get? d n = none → Dict.get? out n = Dict.get? mesh n) := by
  intro d
  induction d with
  | nil =>
    intro mesh _ _
    refine ⟨mesh, rfl, rfl, ?_⟩
    intro n
    exact ⟨by intro t m m' h; simp at h, by intro _; rfl⟩
  | cons p r ih =>
    obtain ⟨k, t⟩ := p
    intro mesh hd hok
    have hkr : k ∉ Dict.keys r := (List.nodup_cons.1 hd).1
    have hr : Dict.WF r := (List.nodup_cons.1 hd).2
    have hself : Dict.get? ((k, t) :: r) k = some t := by simp [Dict.get?]
    obtain ⟨m, m', hm, ha⟩ := hok k t hself
    have hstep : ∀ n, n ≠ k → Dict.get? ((k, t) :: r) n = Dict.get? r n := by
      intro n hn
      simp only [Dict.get?]
      rw [if_neg (fun e => hn e.symm)]
    have hrk : Dict.get? r k = none := (Dict.get?_eq_none_iff _ _).2 hkr
    obtain ⟨out, e, hkeys, hall⟩ := ih (Dict.set mesh k m') hr (by
      intro n u hu
      have hne : n ≠ k := by rintro rfl; rw [hrk] at hu; exact absurd hu (by simp)
      obtain ⟨x, x', hx, hx'⟩ := hok n u (by rw [hstep n hne]; exact hu)
      exact ⟨x, x', by rw [Dict.get?_set_ne _ _ hne.symm]; exact hx, hx'⟩)
    refine ⟨out, ?_, by rw [hkeys, keys_set_mem hm], ?_⟩
    · rw [transformMany.eq_def]
      simp only [hm, ha]
      exact e
    · intro n
      by_cases hne : n = k
      · subst hne
        refine ⟨?_, by intro h; rw [hself] at h; exact absurd h (by simp)⟩
        intro u x x' hu hx hx'
        rw [hself, Option.some.injEq] at hu
        subst hu
        rw [hm, Option.some.injEq] at hx
        subst hx
        rw [ha, Except.ok.injEq] at hx'
        subst hx'
        rw [(hall n).2 hrk, Dict.get?_set_self]
      · rw [hstep n hne]
        have := hall n
        rw [Dict.get?_set_ne _ _ (fun e => hne e.symm)] at this
        exact this

/-- whatever happens, a mesh is as before or transformed once -/
theorem transformMany_once {T M : Type} (app : M → T → Except PyErr M) : ∀ (d : Dict ℕ T) (mesh : Dict ℕ M), Dict.WF d →
    Dict.keys (transformMany app d mesh).1 = Dict.keys mesh ∧ ∀ n,
    Dict.get? (transformMany app d mesh).1 n = Dict.get? mesh n ∨
      ∃ t m m', Dict.get? d n = some t ∧ Dict.get? mesh n = some m ∧ app m t = .ok m' ∧ Dict.get? (transformMany app d mesh).1 n = some m' := by
  intro d
  induction d with
  | nil => intro mesh _; exact ⟨rfl, fun n => Or.inl rfl⟩
  | cons p r ih =>
    obtain ⟨k, t⟩ := p
    intro mesh hd
    have hrk : Dict.get? r k = none := (Dict.get?_eq_none_iff _ _).2 (List.nodup_cons.1 hd).1
    have hr : Dict.WF r := (List.nodup_cons.1 hd).2
    rw [transformMany.eq_def]
    simp only
    cases hm : Dict.get? mesh k with
    | none => exact ⟨rfl, fun n => Or.inl rfl⟩
    | some m =>
      cases ha : app m t with
      | error e =>
        simp only [ha]
        exact ⟨trivial, fun n => Or.inl trivial⟩
      | ok m' =>
        simp only [ha]
        obtain ⟨h1, h2⟩ := ih (Dict.set mesh k m') hr
        refine ⟨by rw [h1, keys_set_mem hm], ?_⟩
        intro n
        by_cases hne : n = k
        · subst hne
          right
          refine ⟨t, m, m', by simp [Dict.get?], hm, ha, ?_⟩
          rcases h2 n with h | ⟨u, x, x', hu, -⟩
          · rw [h, Dict.get?_set_self]
          · rw [hrk] at hu; exact absurd hu (by simp)
        · have hstep : Dict.get? ((k, t) :: r) n = Dict.get? r n := by
            simp only [Dict.get?]
            rw [if_neg (fun e => hne e.symm)]
          rw [hstep]
          have := h2 n
          rw [Dict.get?_set_ne _ _ (fun e => hne e.symm)] at this
          exact this

/-! ### The property -/

/-- **C155.** If the input has every transformation that its FMESH cards name for meshes that are held, and each can be applied, then
each such mesh is transformed exactly once by the one its card names, and every other mesh is as before. Partial: Proved for the flags that are found. False: TR=5 in upper case is not seen (upper_case_unseen); tr= 5 raises KeyError (blank_key). -/
theorem transform_exact_partial {T M : Type} (app : M → T → Except PyErr M) (trs : Dict Str T) (cards : List DataCard) (mesh : Dict ℕ M)
    (hn : ((cards.filter (fun c => hasFmesh c.key)).map DataCard.name).Nodup)
    (hok : ∀ c ∈ cards, ∀ w, Names c w → ∀ m, Dict.get? mesh c.name = some m →
      ∃ t m', Dict.get? trs ("TR".toList ++ w) = some t ∧ app m t = .ok m') :
    ∃ out, transformFmesh app trs cards mesh = (out, none) ∧ Dict.keys out = Dict.keys mesh ∧
      (∀ c ∈ cards, ∀ w m t m', Names c w → Dict.get? mesh c.name = some m → Dict.get? trs ("TR".toList ++ w) = some t → app m t = .ok m' →
        Dict.get? out c.name = some m') ∧
      (∀ n, (∀ c ∈ cards, c.name = n → ∀ w, ¬ Names c w) → Dict.get? out n = Dict.get? mesh n) := by
  have hget : ∀ n, n ∈ Dict.keys mesh → ∃ m, Dict.get? mesh n = some m := by
    intro n h
    cases hg : Dict.get? mesh n with
    | none => exact absurd h ((Dict.get?_eq_none_iff _ _).1 hg)
    | some m => exact ⟨m, rfl⟩
  have hmem : ∀ n m, Dict.get? mesh n = some m → n ∈ Dict.keys mesh := by
    intro n m h
    by_contra hc
    rw [(Dict.get?_eq_none_iff _ _).2 hc] at h
    exact absurd h (by simp)
  obtain ⟨d, ed, hw, h1, h2⟩ := trDict_ok trs mesh cards [] List.nodup_nil (by
    intro c hc w hw hk
    obtain ⟨m, hm⟩ := hget _ hk
    obtain ⟨t, m', ht, -⟩ := hok c hc w hw m hm
    exact ⟨t, ht⟩) hn
  obtain ⟨out, eo, hk, hall⟩ := transformMany_ok app d mesh hw (by
    intro n t hnt
    rcases trDict_from trs mesh cards [] d ed n t hnt with h | ⟨c, hc, rfl, hk, w, hw, ht⟩
    · simp at h
    · obtain ⟨m, hm⟩ := hget _ hk
      obtain ⟨t', m', ht', ha⟩ := hok c hc w hw m hm
      rw [ht, Option.some.injEq] at ht'
      subst ht'
      exact ⟨m, m', hm, ha⟩)
  refine ⟨out, by unfold transformFmesh; rw [ed]; exact eo, hk, ?_, ?_⟩
  · intro c hc w m t m' hw hm ht ha
    exact (hall c.name).1 t m m' (by rw [h1 c hc w hw (hmem _ _ hm), ht]) hm ha
  · intro n hnn
    exact (hall n).2 (by rw [h2 n (fun c hc e _ => hnn c hc e)]; rfl)

/-- **C155 (missing transformation).** If the card of a mesh that is held names a transformation that the input has not, `KeyError` is raised
before any mesh has been changed. -/
theorem transform_missing {T M : Type} (app : M → T → Except PyErr M) (trs : Dict Str T) (cards : List DataCard) (mesh : Dict ℕ M)
    {c : DataCard} (hc : c ∈ cards) (hin : c.name ∈ Dict.keys mesh) {w : Str} (hw : Names c w)
    (hg : Dict.get? trs ("TR".toList ++ w) = none) : transformFmesh app trs cards mesh = (mesh, some .keyError) := by
  unfold transformFmesh
  rw [trDict_missing trs mesh cards [] ⟨c, hc, hin, w, hw, hg⟩]

/-- **C155 (blank after the equals sign).** The blanks after the equals sign become part of the name: with keys that hold no blank, as
the parser makes them, `tr= 5` raises `KeyError`. -/
theorem blank_key {T M : Type} (app : M → T → Except PyErr M) (trs : Dict Str T) (cards : List DataCard) (mesh : Dict ℕ M)
    (hkeys : ∀ k ∈ Dict.keys trs, ∀ c ∈ k, isSpace c = false) {c : DataCard} (hc : c ∈ cards) (hin : c.name ∈ Dict.keys mesh) {w : Str}
    (hw : Names c w) (hb : ∃ x ∈ w, isSpace x = true) : transformFmesh app trs cards mesh = (mesh, some .keyError) := by
  refine transform_missing app trs cards mesh hc hin hw ((Dict.get?_eq_none_iff _ _).2 ?_)
  intro h
  obtain ⟨x, hx, hs⟩ := hb
  rw [hkeys _ h x (by simp [hx])] at hs
  exact absurd hs (by simp)

/-- **C155 (never twice).** Whatever happens, also when a transformation fails midway: the same meshes are held, and each is as before or was
transformed once, by the transformation that a card of its number names. -/
theorem transform_once {T M : Type} (app : M → T → Except PyErr M) (trs : Dict Str T) (cards : List DataCard) (mesh : Dict ℕ M)
    (hn : ((cards.filter (fun c => hasFmesh c.key)).map DataCard.name).Nodup) :
    Dict.keys (transformFmesh app trs cards mesh).1 = Dict.keys mesh ∧ ∀ n,
    Dict.get? (transformFmesh app trs cards mesh).1 n = Dict.get? mesh n ∨
      ∃ c ∈ cards, c.name = n ∧ ∃ w t m m', Names c w ∧ Dict.get? trs ("TR".toList ++ w) = some t ∧ Dict.get? mesh n = some m ∧
        app m t = .ok m' ∧ Dict.get? (transformFmesh app trs cards mesh).1 n = some m' := by
  by_cases hmiss : ∃ c ∈ cards, c.name ∈ Dict.keys mesh ∧ ∃ w, Names c w ∧ Dict.get? trs ("TR".toList ++ w) = none
  · obtain ⟨c, hc, hin, w, hw, hg⟩ := hmiss
    rw [transform_missing app trs cards mesh hc hin hw hg]
    exact ⟨rfl, fun n => Or.inl rfl⟩
  · obtain ⟨d, ed, hw, h1, h2⟩ := trDict_ok trs mesh cards [] List.nodup_nil (by
      intro c hc w hw hk
      cases hg : Dict.get? trs ("TR".toList ++ w) with
      | none => exact absurd ⟨c, hc, hk, w, hw, hg⟩ hmiss
      | some t => exact ⟨t, rfl⟩) hn
    unfold transformFmesh
    rw [ed]
    simp only
    obtain ⟨hk, hall⟩ := transformMany_once app d mesh hw
    refine ⟨hk, ?_⟩
    intro n
    rcases hall n with h | ⟨t, m, m', ht, hm, ha, ho⟩
    · exact Or.inl h
    · right
      rcases trDict_from trs mesh cards [] d ed n t ht with h | ⟨c, hc, e, -, w, hw', hg⟩
      · simp at h
      · exact ⟨c, hc, e, w, t, m, m', hw', hg, hm, ha, ho⟩

/-! ### Concrete cases -/

/-- meshes are lists of the transformations applied to them (example) -/
def exApp (m : List ℕ) (t : ℕ) : Except PyErr (List ℕ) := .ok (t :: m)

/-- two FMESH cards, the second without a transformation, and another card (example) -/
def exCards : List DataCard := [⟨"FMESH4".toList, 4, ["FMESH4:n geom=xyz".toList, "     tr =5 origin 0 0 0".toList]⟩,
  ⟨"FMESH14".toList, 14, ["FMESH14:p TR=5".toList]⟩, ⟨"SDEF".toList, 0, ["sdef tr=7".toList]⟩]

example : transformFmesh exApp [("TR5".toList, 50)] exCards [(4, []), (14, [])] = ([(4, [50]), (14, [])], none) := by decide
example : Names exCards[0] "5".toList ∧ ((exCards.filter (fun c => hasFmesh c.key)).map DataCard.name).Nodup := by
  unfold Names; decide
example : transformFmesh exApp [("TR6".toList, 60)] exCards [(4, []), (14, [])] = ([(4, []), (14, [])], some .keyError) := by decide
example : trSearch "fmesh4:n tr= 5".toList = some " 5".toList ∧ 't' ∉ "FMESH14:p TR=5".toList := by decide

end F4Enix.FmeshW
