import Verif.Inp.Retrieve
import Verif.Inp.XsdirProps
import Verif.Inp.MergeProps

/-! Names of data cards: the fluctuation card `TFn` keeps its `T`, the tally `Fn` and the transformation `TRn` lose what surrounds
them; and what is refused when a name or a section is missing. -/

namespace F4Enix.Inp
open F4Enix

theorem hasTF_iff (s : Str) : hasTF s = true ↔ ['T', 'F'] <:+: s := by
  induction s with
  | nil => simp [hasTF]
  | cons c s ih =>
    rw [List.infix_cons_iff]
    by_cases h : ['T', 'F'] <+: c :: s
    · constructor
      · intro _; exact Or.inl h
      · intro _
        obtain ⟨t, ht⟩ := h
        rw [← ht]
        rfl
    · have e : hasTF (c :: s) = hasTF s := by
        rw [hasTF]
        intro s' e'
        cases e'
        exact fun h2 => h ⟨s', by rw [h2]; rfl⟩
      rw [e, ih]
      simp [h]

theorem cleanAt_digits {p : Str} {ps : List Str} {ds rest : Str} (hd : ds ≠ []) (hds : ∀ c ∈ ds, isDigit c = true)
    (hr : ∀ c, rest.head? = some c → isDigit c = false) : cleanAt (p ++ ds ++ rest) (p :: ps) = some (p ++ ds) := by
  have htw : (ds ++ rest).takeWhile isDigit = ds := by
    rw [List.takeWhile_append_of_pos hds]
    cases rest with
    | nil => simp
    | cons c r => rw [List.takeWhile_cons_of_neg (by simp [hr c rfl])]; simp
  rw [cleanAt]
  have e1 : p.isPrefixOf (p ++ ds ++ rest) = true := by rw [List.append_assoc]; exact isPrefixOf_append _ _
  have e2 : (p ++ ds ++ rest).drop p.length = ds ++ rest := by rw [List.append_assoc, List.drop_left]
  rw [e1, e2, if_pos rfl, htw]
  cases ds with
  | nil => exact absurd rfl hd
  | cons c cs => rfl

/-- **C49** (names). A fluctuation card `TFn` and the tally `Fn`, with or without a particle behind, keep different names. -/
theorem clean_names {key ds rest : Str} (hd : ds ≠ []) (hds : ∀ c ∈ ds, isDigit c = true)
    (hr : ∀ c, rest.head? = some c → isDigit c = false) :
    (upper key = "TF".toList ++ ds ++ rest → cleanName key = "TF".toList ++ ds) ∧
    (upper key = "F".toList ++ ds ++ rest → ¬ ['T', 'F'] <:+: rest → cleanName key = "F".toList ++ ds) ∧
    (∀ mark, mark = [] ∨ mark = ['*'] → upper key = mark ++ ("TR".toList ++ ds ++ rest) → ¬ ['T', 'F'] <:+: rest →
      cleanName key = "TR".toList ++ ds) := by
  obtain ⟨d, ds', rfl⟩ : ∃ d ds', ds = d :: ds' := by
    cases ds with
    | nil => exact absurd rfl hd
    | cons d ds' => exact ⟨d, ds', rfl⟩
  have hdig := hds d (by simp)
  have hM : d ≠ 'M' := by rintro rfl; revert hdig; decide
  have hF : ∀ c ∈ d :: ds', c ≠ 'F' := by rintro c hc rfl; have := hds _ hc; revert this; decide
  have hT : ∀ c ∈ d :: ds', c ≠ 'T' := by rintro c hc rfl; have := hds _ hc; revert this; decide
  have atF : cleanAt ("F".toList ++ (d :: ds') ++ rest) cleanPrefixes = some ("F".toList ++ (d :: ds')) := by
    unfold cleanPrefixes
    rw [cleanAt]
    have e : "FMESH".toList.isPrefixOf ("F".toList ++ (d :: ds') ++ rest) = false := by
      simp [List.isPrefixOf, hM.symm]
    rw [e]
    simp only [Bool.false_eq_true, if_false]
    rw [cleanAt]
    have e2 : "TR".toList.isPrefixOf ("F".toList ++ (d :: ds') ++ rest) = false := by simp [List.isPrefixOf]
    rw [e2]
    simp only [Bool.false_eq_true, if_false]
    exact cleanAt_digits hd hds hr
  have atTR : cleanAt ("TR".toList ++ (d :: ds') ++ rest) cleanPrefixes = some ("TR".toList ++ (d :: ds')) := by
    unfold cleanPrefixes
    rw [cleanAt]
    have e : "FMESH".toList.isPrefixOf ("TR".toList ++ (d :: ds') ++ rest) = false := by simp [List.isPrefixOf]
    rw [e]
    simp only [Bool.false_eq_true, if_false]
    exact cleanAt_digits hd hds hr
  have step : ∀ (c : Char) (s w : Str), cleanAt (c :: s) cleanPrefixes = none → cleanSearch s = some w →
      cleanSearch (c :: s) = some w := by
    intro c s w h1 h2
    rw [cleanSearch, h1]; exact h2
  have found : ∀ (s w : Str), s ≠ [] → cleanAt s cleanPrefixes = some w → cleanSearch s = some w := by
    intro s w h1 h2
    cases s with
    | nil => exact absurd rfl h1
    | cons c s => rw [cleanSearch, h2]
  have digTF : ∀ e : Str, (∀ c ∈ e, c ≠ 'T') → ∀ r : Str, ¬ ['T', 'F'] <:+: r → hasTF (e ++ r) = false := by
    intro e he r hrr
    rw [Bool.eq_false_iff]
    intro h
    rw [hasTF_iff] at h
    induction e with
    | nil => exact hrr h
    | cons c e ih =>
      rw [List.cons_append, List.infix_cons_iff] at h
      rcases h with ⟨t, ht⟩ | h
      · simp only [List.cons_append, List.cons.injEq] at ht
        exact he c (by simp) ht.1.symm
      · exact ih (fun x hx => he x (by simp [hx])) h
  refine ⟨?_, ?_, ?_⟩
  · intro hu
    have hs : cleanSearch (upper key) = some ("F".toList ++ (d :: ds')) := by
      rw [hu]
      have e : "TF".toList ++ (d :: ds') ++ rest = 'T' :: ("F".toList ++ (d :: ds') ++ rest) := rfl
      rw [e]
      apply step
      · unfold cleanPrefixes
        simp [cleanAt, List.isPrefixOf]
      · exact found _ _ (by simp) atF
    have ht : hasTF (upper key) = true := by rw [hu]; rfl
    unfold cleanName
    rw [hs, ht]
    rfl
  · intro hu hrest
    have hs : cleanSearch (upper key) = some ("F".toList ++ (d :: ds')) := by
      rw [hu]; exact found _ _ (by simp) atF
    have ht : hasTF (upper key) = false := by
      rw [hu]
      apply digTF _ _ _ hrest
      intro c hc
      rcases List.mem_append.mp hc with h | h
      · have : c = 'F' := by simpa using h
        rw [this]; decide
      · exact hT c h
    unfold cleanName
    rw [hs, ht]
    rfl
  · intro mark hm hu hrest
    have h0 : cleanSearch ("TR".toList ++ (d :: ds') ++ rest) = some ("TR".toList ++ (d :: ds')) := found _ _ (by simp) atTR
    have hs : cleanSearch (upper key) = some ("TR".toList ++ (d :: ds')) := by
      rw [hu]
      rcases hm with rfl | rfl
      · exact h0
      · rw [List.singleton_append]
        apply step _ _ _ _ h0
        unfold cleanPrefixes
        simp [cleanAt, List.isPrefixOf]
    have h1 : hasTF ("TR".toList ++ (d :: ds') ++ rest) = false := by
      have e : "TR".toList ++ (d :: ds') ++ rest = 'T' :: 'R' :: ((d :: ds') ++ rest) := rfl
      have h2 := digTF ('R' :: d :: ds') (by
        intro c hc
        rcases List.mem_cons.mp hc with h | h
        · rw [h]; decide
        · exact hT c h) rest hrest
      rw [e]
      rw [Bool.eq_false_iff] at h2 ⊢
      intro h; apply h2
      rw [hasTF_iff, List.infix_cons_iff] at h
      rcases h with ⟨t, ht⟩ | h
      · simp at ht
      · rw [hasTF_iff]; exact h
    have ht : hasTF (upper key) = false := by
      rw [hu]
      rcases hm with rfl | rfl
      · exact h1
      · rw [Bool.eq_false_iff] at h1 ⊢
        intro h; apply h1
        rw [hasTF_iff, List.singleton_append, List.infix_cons_iff] at h
        rcases h with ⟨t, ht⟩ | h
        · simp at ht
        · rw [hasTF_iff]; exact h
    unfold cleanName
    rw [hs, ht]
    rfl

example : cleanName "tf4:n".toList = "TF4".toList ∧ cleanName "f4:n".toList = "F4".toList ∧ cleanName "*tr12".toList = "TR12".toList := by
  decide +kernel

/-- **C33**. A name that no material has raises `KeyError`. -/
theorem name_missing (l : MatList) (k : Str) (h : l.dic.get? (upper k) = none) : l.byName k = .error .keyError := by
  unfold MatList.byName; rw [h]

end F4Enix.Inp

namespace F4Enix.Xs
open F4Enix

theorem dirLoop_missing (ws : List Str) (ls : List Str) (hw : ws.head? ≠ some "directory".toList)
    (h : ∀ l ∈ ls, (tokens l).head? ≠ some "directory".toList) : dirLoop ws ls = .error .indexError := by
  induction ls generalizing ws with
  | nil =>
    cases ws with
    | nil => rfl
    | cons w ws =>
      rw [dirLoop]
      have : w ≠ "directory".toList := by simpa using hw
      rw [if_neg this]
  | cons l ls ih =>
    cases ws with
    | nil => rfl
    | cons w ws =>
      rw [dirLoop]
      have : w ≠ "directory".toList := by simpa using hw
      rw [if_neg this]
      exact ih (tokens l) (h l (by simp)) (fun x hx => h x (by simp [hx]))

theorem awrLoop_missing (d : Dict Str Str) (ls : List Str) (h : ∀ l ∈ ls, (tokens l).head? ≠ some "directory".toList) :
    awrLoop d ls = .error .indexError ∨ ∃ d' ws ls', awrLoop d ls = .ok (d', ws, ls') ∧ ws.head? ≠ some "directory".toList ∧
      ∀ l ∈ ls', (tokens l).head? ≠ some "directory".toList := by
  induction ls generalizing d with
  | nil => left; rfl
  | cons l ls ih =>
    rw [awrLoop]
    by_cases ho : (tokens l).length % 2 ≠ 0
    · rw [if_pos ho]
      right
      exact ⟨d, tokens l, ls, rfl, h l (by simp), fun x hx => h x (by simp [hx])⟩
    · rw [if_neg ho]
      have hl := h l (by simp)
      cases ht : tokens l with
      | nil => left; rfl
      | cons w ws =>
        simp only
        rw [ht] at hl
        have : w ≠ "directory".toList := by simpa using hl
        rw [if_neg this]
        exact ih _ (fun x hx => h x (by simp [hx]))

/-- **C114** (refused). A file without the line `directory` is refused with `IndexError`: no table is read. -/
theorem no_directory_refused (pf : Str → Option ℚ) (l1 l2 : Str) (ls : List Str) {dp : Option Str} (h1 : readDatapath l1 = .ok dp)
    (h : ∀ l ∈ ls, (tokens l).head? ≠ some "directory".toList) :
    read pf (l1 :: l2 :: ls) = .error (if isTitle l2 then .indexError else .assertionError) := by
  have e0 : read pf (l1 :: l2 :: ls) = (match readDatapath l1 with
      | .error e => .error e
      | .ok dp =>
        if isTitle l2 then
          match awrLoop [] ls with
          | .error e => .error e
          | .ok (d, ws, ls) =>
            match dirLoop ws ls with
            | .error e => .error e
            | .ok ls' =>
              match tablesLoop pf ls'.length ls' with
              | .error e => .error e
              | .ok ts => .ok ⟨dp, d, ts⟩
        else .error .assertionError) := rfl
  rw [e0, h1]
  by_cases ht : isTitle l2 = true
  · simp only [ht, if_true]
    rcases awrLoop_missing [] ls h with e | ⟨d', ws, ls', e, hw, hl⟩
    · rw [e]
    · rw [e]
      simp only [dirLoop_missing ws ls' hw hl]
  · simp only [ht, if_false, Bool.false_eq_true]

/-- a file of three lines that ends before its directory -/
example (pf : Str → Option ℚ) : read pf ["datapath=/x".toList, "atomic weight ratios".toList, "1001 0.99917".toList] = .error .indexError := by
  have := no_directory_refused pf "datapath=/x".toList "atomic weight ratios".toList ["1001 0.99917".toList] (dp := some "/x".toList) (by decide +kernel)
    (by decide +kernel)
  rw [this, if_pos (by decide +kernel)]

end F4Enix.Xs

namespace F4Enix.Inp
open F4Enix

/-- **C17** (refused). A card set under a key that is no number (after a mark) and is not its own is refused with `ValueError`; set under a number it
carries that number. -/
theorem key_refused (kind : Kind) (d : Dict Str Card) (key : Str) (c : Card) (h : keyNum key ≠ intStr c.name) :
    (parseInt (keyNum key) = none → setItem kind d key c = .error .valueError) ∧
    (∀ n, parseInt (keyNum key) = some n →
      setItem kind d key c = .ok (d.set key { c with name := n, values := setFirst c.values kind n })) := by
  unfold setItem fixCard
  rw [if_neg h]
  constructor
  · intro hp; rw [hp]
  · intro n hp; rw [hp]

example (d : Dict Str Card) (c : Card) (h : c.name = 5) : setItem .cel d "12a".toList c = .error .valueError :=
  (key_refused .cel d "12a".toList c (by rw [h]; decide +kernel)).1 (by decide +kernel)

end F4Enix.Inp
