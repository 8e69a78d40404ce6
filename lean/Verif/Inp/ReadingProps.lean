import Verif.Inp.Reading
import Verif.Inp.MergeProps
/-!
# Reading cards: nothing is lost (C49), comments (C52), keys of data cards (C50), marked surfaces (C53)
-/
namespace F4Enix.Inp
open F4Enix

/-! ### C52 -/

/-- lines of cards, in order (specification) -/
def textOf (cs : List Raw) : List Str := (cs.map Raw.lines).flatten

/-- What survives of a list of cards: a comment that is followed by another comment, or by nothing, is
dropped. (specification) -/
def surviving : List Raw → List Raw
  | [] => []
  | [c] => if c.isCommentCard then [] else [c]
  | c :: d :: r =>
    if c.isCommentCard ∧ d.isCommentCard then surviving (d :: r) else c :: surviving (d :: r)

/-- the waiting comment goes to the head card unless that is a comment (proof) -/
def headPending (p : Option (List Str)) : List Raw → List Str
  | [] => []
  | c :: _ => if c.isCommentCard then [] else p.getD []

theorem toDict_append (cs : List Raw) (p : Option (List Str)) (acc d : Dict Str Raw)
    (h : toDict cs p acc = .ok d) :
    ∃ e, d = acc ++ e ∧
      headPending p cs ++ textOf (surviving cs) = textOf (e.map Prod.snd) ∧
      (cs.filter (fun c => !c.isCommentCard)).map Raw.key = e.keys.map Except.ok ∧
      (acc.WF → d.WF) := by
  induction cs generalizing p acc with
  | nil =>
    simp only [toDict, Except.ok.injEq] at h
    exact ⟨[], by simp [h], by simp [surviving, textOf, headPending], by simp [Dict.keys], by subst h; exact id⟩
  | cons c r ih =>
    unfold toDict at h
    cases hc : c.isCommentCard with
    | true =>
      simp only [hc] at h
      obtain ⟨e, h1, h2, h3, h4⟩ := ih _ _ h
      refine ⟨e, h1, ?_, by simpa [hc] using h3, h4⟩
      simp only [headPending, hc, if_true, List.nil_append]
      rw [← h2]
      cases r with
      | nil => simp [surviving, hc, headPending]
      | cons x r =>
        simp only [surviving, hc, true_and]
        by_cases hx : x.isCommentCard = true
        · simp [hx, headPending]
        · rw [if_neg hx]
          simp only [headPending, hx, Option.getD_some, textOf, List.map_cons, List.flatten_cons]
          rfl
    | false =>
      simp only [hc] at h
      cases hk : c.key with
      | error e => simp [hk] at h
      | ok k =>
        simp only [hk] at h
        cases hh : acc.has k with
        | true => simp [hh] at h
        | false =>
          simp only [hh] at h
          have hk' : k ∉ acc.keys := by
            rw [← Dict.has_iff, hh]; simp
          obtain ⟨e, h1, h2, h3, h4⟩ := ih _ _ h
          rw [set_absent _ _ _ hk'] at h1
          refine ⟨(k, joinPending p c) :: e,
            by rw [h1]; simp, ?_, ?_, fun hw => h4 (Dict.WF_set hw _ _)⟩
          · have hs : textOf (surviving (c :: r)) = c.lines ++ textOf (surviving r) := by
              cases r with
              | nil => simp [surviving, hc, textOf]
              | cons x r => simp [surviving, hc, textOf]
            simp only [headPending, hc, Bool.false_eq_true, if_false, List.map_cons]
            rw [hs]
            have h2' : textOf (surviving r) = textOf (e.map Prod.snd) := by
              rw [← h2]
              cases r with
              | nil => simp [headPending]
              | cons x r => simp [headPending]
            rw [h2']
            cases p <;> simp [textOf, joinPending]
          · simp only [List.filter_cons, hc, Bool.not_false, if_true, List.map_cons, Dict.keys, hk]
            rw [h3]; rfl

/-- **C52**. A list of cards that is read keeps its text, line by line and in order, except for the
comments followed by another comment card or by no card; the keys are those of the cards that are not
comments, in order and pairwise different. -/
theorem c52_text (cs : List Raw) (d : Dict Str Raw) (h : toDict cs none [] = .ok d) :
    textOf (d.map Prod.snd) = textOf (surviving cs) ∧
    (cs.filter (fun c => !c.isCommentCard)).map Raw.key = d.keys.map Except.ok ∧ d.WF := by
  obtain ⟨e, h1, h2, h3, h4⟩ := toDict_append cs none [] d h
  simp only [List.nil_append] at h1
  subst h1
  refine ⟨?_, h3, h4 (by simp [Dict.WF, Dict.keys])⟩
  rw [← h2]
  cases cs with
  | nil => simp [headPending]
  | cons c r => simp [headPending]

/-- **C52** (nothing lost). If comments stand alone and the last card is not a comment, all the text is
kept. -/
theorem c52_all_text (cs : List Raw) (d : Dict Str Raw) (h : toDict cs none [] = .ok d)
    (hadj : cs.IsChain (fun a b => ¬ (a.isCommentCard = true ∧ b.isCommentCard = true)))
    (hlast : ∀ c, cs.getLast? = some c → c.isCommentCard = false) :
    textOf (d.map Prod.snd) = textOf cs := by
  rw [(c52_text cs d h).1]
  have : surviving cs = cs := by
    clear h
    induction cs with
    | nil => rfl
    | cons c r ih =>
      cases r with
      | nil => simp [surviving, hlast c rfl]
      | cons x r =>
        rw [List.isChain_cons_cons] at hadj
        unfold surviving
        rw [if_neg hadj.1, ih hadj.2 (fun y hy => hlast y (by simpa using hy))]
  rw [this]

/-- **C52** (duplicates). Two cards with the same key are refused with `KeyError`. -/
theorem c52_duplicate (cs : List Raw) (hk : ∀ c ∈ cs, c.isCommentCard = false → ∃ k, c.key = .ok k)
    (hd : ¬ ((cs.filter (fun c => !c.isCommentCard)).map Raw.key).Nodup) :
    toDict cs none [] = .error .keyError := by
  have aux : ∀ (cs : List Raw) (p : Option (List Str)) (acc : Dict Str Raw),
      (∀ c ∈ cs, c.isCommentCard = false → ∃ k, c.key = .ok k) →
      ¬ (acc.keys.map Except.ok ++ ((cs.filter (fun c : Raw => !c.isCommentCard)).map Raw.key : List (Except PyErr Str))).Nodup →
      acc.WF → toDict cs p acc = .error .keyError := by
    intro cs
    induction cs with
    | nil =>
      intro p acc _ hn hw
      exfalso
      apply hn
      simp only [List.filter_nil, List.map_nil, List.append_nil]
      exact List.Nodup.map (fun a b h => by simpa using h) hw
    | cons c r ih =>
      intro p acc hk hn hw
      unfold toDict
      cases hc : c.isCommentCard with
      | true =>
        exact ih _ _ (fun x hx => hk x (List.mem_cons_of_mem _ hx)) (by simpa [hc] using hn) hw
      | false =>
        obtain ⟨k, hkk⟩ := hk c (by simp) hc
        simp only [hkk]
        cases hh : acc.has k with
        | true => rfl
        | false =>
          have hk' : k ∉ acc.keys := by rw [← Dict.has_iff, hh]; simp
          refine ih _ _ (fun x hx => hk x (List.mem_cons_of_mem _ hx)) ?_ (Dict.WF_set hw _ _)
          rw [set_absent _ _ _ hk', keys_append]
          simpa [hc, hkk, Dict.keys] using hn
  exact aux cs none [] hk (by simpa [Dict.keys] using hd) (by simp [Dict.WF, Dict.keys])

/-- **C52** (holes). A comment at the end of a block, and the first of two comment cards, are lost. -/
theorem c52_lost (c x : Raw) (k : Str) (hc : c.isCommentCard = true) (hx : x.isCommentCard = false)
    (hk : x.key = .ok k) : toDict [x, c] none [] = .ok [(k, x)] ∧
      toDict [c, c, x] none [] = .ok [(k, { x with lines := c.lines ++ x.lines })] := by
  simp [toDict, hc, hx, hk, Dict.has, Dict.set, joinPending]

/-! ### C49 -/

/-- cards of a kind with their cleaned keys (specification) -/
def cleanedOf (p : Raw → Bool) (cards : Dict Str Raw) : List (Str × Raw) :=
  (cards.filter (fun kc => p kc.2)).map (fun kc => (cleanName kc.1, kc.2))

theorem attachLast_cards (c : Raw) (ms : List (Raw × List Raw)) (h : ms ≠ []) :
    ((attachLast c ms).map (fun m => m.1 :: m.2)).flatten =
      (ms.map (fun m => m.1 :: m.2)).flatten ++ [c] := by
  induction ms with
  | nil => exact absurd rfl h
  | cons m r ih =>
    cases r with
    | nil => obtain ⟨m, xs⟩ := m; simp [attachLast]
    | cons x r =>
      have e : attachLast c (m :: x :: r) = m :: attachLast c (x :: r) := rfl
      rw [e, List.map_cons, List.flatten_cons, ih (by simp)]
      simp

theorem attachLast_ne_nil (c : Raw) (ms : List (Raw × List Raw)) (h : ms ≠ []) : attachLast c ms ≠ [] := by
  cases ms with
  | nil => exact absurd rfl h
  | cons m r => cases r <;> simp [attachLast]

/-- the state of the loop -/
theorem parseData_spec (cards : Dict Str Raw)
    (hfirst : ∀ kc, (cards.filter (fun kc => kc.2.kind = .mat)).head? = some kc → isMx kc.2 = false)
    (htr : ((cleanedOf (fun c => c.kind = .tr) cards).map Prod.fst).Nodup)
    (hoth : ((cleanedOf (fun c => c.kind = .other) cards).map Prod.fst).Nodup) :
    (parseData cards).trs = cleanedOf (fun c => c.kind = .tr) cards ∧
    (parseData cards).other = cleanedOf (fun c => c.kind = .other) cards ∧
    ((parseData cards).mats.map (fun m => m.1 :: m.2)).flatten =
      (cards.filter (fun kc => kc.2.kind = .mat)).map Prod.snd := by
  have aux : ∀ (cards : Dict Str Raw) (d : Data),
      (d.mats = [] → ∀ kc, (cards.filter (fun kc => kc.2.kind = .mat)).head? = some kc → isMx kc.2 = false) →
      (d.trs.keys ++ (cleanedOf (fun c => c.kind = .tr) cards).map Prod.fst).Nodup →
      (d.other.keys ++ (cleanedOf (fun c => c.kind = .other) cards).map Prod.fst).Nodup →
      let r := cards.foldl (fun d kc => addData d kc.1 kc.2) d
      r.trs = d.trs ++ cleanedOf (fun c => c.kind = .tr) cards ∧
      r.other = d.other ++ cleanedOf (fun c => c.kind = .other) cards ∧
      (r.mats.map (fun m => m.1 :: m.2)).flatten = (d.mats.map (fun m => m.1 :: m.2)).flatten ++
        (cards.filter (fun kc => kc.2.kind = .mat)).map Prod.snd := by
    intro cards
    induction cards with
    | nil => intro d _ _ _; simp [cleanedOf]
    | cons kc r ih =>
      obtain ⟨k, c⟩ := kc
      intro d hf ht ho
      simp only [List.foldl_cons]
      cases hk : c.kind with
      | tr =>
        have hnot : cleanName k ∉ d.trs.keys := by
          simp only [cleanedOf, hk, List.filter_cons, decide_true, if_true, List.map_cons] at ht
          rw [List.nodup_append] at ht
          intro hm
          exact ht.2.2 _ hm _ (by simp) rfl
        have e : addData d k c = { d with trs := d.trs ++ [(cleanName k, c)] } := by
          simp only [addData, hk, set_absent _ _ _ hnot]
        rw [e]
        obtain ⟨i1, i2, i3⟩ := ih { d with trs := d.trs ++ [(cleanName k, c)] }
          (by intro h0 kc; have := hf h0 kc; simpa [hk] using this)
          (by rw [keys_append]; simpa [cleanedOf, hk, Dict.keys] using ht)
          (by simpa [cleanedOf, hk] using ho)
        refine ⟨?_, ?_, ?_⟩
        · rw [i1]; simp [cleanedOf, hk]
        · rw [i2]; simp [cleanedOf, hk]
        · rw [i3]; simp [hk]
      | other =>
        have hnot : cleanName k ∉ d.other.keys := by
          simp only [cleanedOf, hk, List.filter_cons, decide_true, if_true, List.map_cons] at ho
          rw [List.nodup_append] at ho
          intro hm
          exact ho.2.2 _ hm _ (by simp) rfl
        have e : addData d k c = { d with other := d.other ++ [(cleanName k, c)] } := by
          simp only [addData, hk, set_absent _ _ _ hnot]
        rw [e]
        obtain ⟨i1, i2, i3⟩ := ih { d with other := d.other ++ [(cleanName k, c)] }
          (by intro h0 kc; have := hf h0 kc; simpa [hk] using this)
          (by simpa [cleanedOf, hk] using ht)
          (by rw [keys_append]; simpa [cleanedOf, hk, Dict.keys] using ho)
        refine ⟨?_, ?_, ?_⟩
        · rw [i1]; simp [cleanedOf, hk]
        · rw [i2]; simp [cleanedOf, hk]
        · rw [i3]; simp [hk]
      | mat =>
        have e : ∃ ms, addData d k c = { d with mats := ms } ∧ ms ≠ [] ∧
            (ms.map (fun m => m.1 :: m.2)).flatten = (d.mats.map (fun m => m.1 :: m.2)).flatten ++ [c] := by
          by_cases hm : isMx c = true
          · have h0 : d.mats ≠ [] := by
              intro h0
              have := hf h0 (k, c) (by simp [hk])
              simp [hm] at this
            refine ⟨attachLast c d.mats, by simp [addData, hk, hm, h0], attachLast_ne_nil c _ h0,
              attachLast_cards c _ h0⟩
          · exact ⟨d.mats ++ [(c, [])], by simp [addData, hk, hm], by simp, by simp⟩
        obtain ⟨ms, e1, e2, e3⟩ := e
        rw [e1]
        obtain ⟨i1, i2, i3⟩ := ih { d with mats := ms } (fun h => absurd h e2)
          (by simpa [cleanedOf, hk] using ht) (by simpa [cleanedOf, hk] using ho)
        refine ⟨?_, ?_, ?_⟩
        · rw [i1]; simp [cleanedOf, hk]
        · rw [i2]; simp [cleanedOf, hk]
        · rw [i3, e3]; simp [hk]
  have := aux cards ⟨[], [], []⟩ (fun _ => hfirst) (by simpa [Dict.keys] using htr) (by simpa [Dict.keys] using hoth)
  simpa [parseData] using this

/-- **C49** (the part that is true). If no two transformations and no two other cards get the same
shortened name, and the first material card is not a thermal or mixed card, every data card read is
kept: each exactly once, transformations, materials (with the cards attached to them) and other cards
each in their order, and found under its shortened name. (Missing for the full property: two cards with
the same shortened name, see `c49_lost`.) -/
theorem c49_kept_partial (cards : Dict Str Raw)
    (hfirst : ∀ kc, (cards.filter (fun kc => kc.2.kind = .mat)).head? = some kc → isMx kc.2 = false)
    (htr : ((cleanedOf (fun c => c.kind = .tr) cards).map Prod.fst).Nodup)
    (hoth : ((cleanedOf (fun c => c.kind = .other) cards).map Prod.fst).Nodup) :
    (parseData cards).cards = (cards.filter (fun kc => kc.2.kind = .tr)).map Prod.snd ++
      (cards.filter (fun kc => kc.2.kind = .mat)).map Prod.snd ++
      (cards.filter (fun kc => kc.2.kind = .other)).map Prod.snd ∧
    (parseData cards).cards.length = cards.length ∧
    (∀ kc ∈ cards, kc.2.kind = .other → (parseData cards).other.get? (cleanName kc.1) = some kc.2) ∧
    (∀ kc ∈ cards, kc.2.kind = .tr → (parseData cards).trs.get? (cleanName kc.1) = some kc.2) := by
  obtain ⟨h1, h2, h3⟩ := parseData_spec cards hfirst htr hoth
  have e : (parseData cards).cards = (cards.filter (fun kc => kc.2.kind = .tr)).map Prod.snd ++
      (cards.filter (fun kc => kc.2.kind = .mat)).map Prod.snd ++
      (cards.filter (fun kc => kc.2.kind = .other)).map Prod.snd := by
    unfold Data.cards
    rw [h1, h2, h3]
    simp [cleanedOf, List.map_map, Function.comp_def]
  refine ⟨e, ?_, ?_, ?_⟩
  · rw [e]
    simp only [List.length_append, List.length_map]
    clear h1 h2 h3 e hfirst htr hoth
    induction cards with
    | nil => rfl
    | cons kc r ih =>
      simp only [List.filter_cons, List.length_cons]
      cases hk : kc.2.kind <;> simp <;> omega
  · intro kc hkc hk
    have hw : (parseData cards).other.WF := by rw [h2]; exact hoth
    refine Dict.get?_of_mem hw ?_
    rw [h2]
    exact List.mem_map.mpr ⟨kc, List.mem_filter.mpr ⟨hkc, by simpa using hk⟩, rfl⟩
  · intro kc hkc hk
    have hw : (parseData cards).trs.WF := by rw [h1]; exact htr
    refine Dict.get?_of_mem hw ?_
    rw [h1]
    exact List.mem_map.mpr ⟨kc, List.mem_filter.mpr ⟨hkc, by simpa using hk⟩, rfl⟩

/-- `F124:p` and its dose function `DF124`, as in the repository's own test input (specification) -/
def doseCards : List Raw :=
  [⟨["F124:p 1 \n".toList], true, .other⟩, ⟨["DF124 IC 10\n".toList], true, .other⟩]

/-- **C49** is false of the code: the shortened name of `DF124` is `F124`, so reading the dose function
of a tally silently discards the tally card itself. -/
theorem c49_lost : ∃ d, toDict doseCards none [] = .ok d ∧ d.keys = ["F124:P".toList, "DF124".toList] ∧
    (parseData d).cards = [⟨["DF124 IC 10\n".toList], true, .other⟩] ∧
    (parseData d).other.keys = ["F124".toList] := by
  refine ⟨[("F124:P".toList, ⟨["F124:p 1 \n".toList], true, .other⟩),
    ("DF124".toList, ⟨["DF124 IC 10\n".toList], true, .other⟩)], ?_, ?_, ?_, ?_⟩ <;> decide +kernel

/-- **C49** (materials). A thermal card is attached to the material read last, whatever number it has. -/
theorem c49_mt_wrong_material : ∃ m1 m2 mt : Raw, ∃ d,
    toDict [m1, m2, mt] none [] = .ok d ∧ d.keys = ["M1".toList, "M2".toList, "MT1".toList] ∧
    (parseData d).mats = [(m1, []), (m2, [mt])] := by
  refine ⟨⟨["m1 1001 1\n".toList], true, .mat⟩, ⟨["m2 6000 1\n".toList], true, .mat⟩,
    ⟨["mt1 lwtr\n".toList], true, .mat⟩,
    [("M1".toList, ⟨["m1 1001 1\n".toList], true, .mat⟩), ("M2".toList, ⟨["m2 6000 1\n".toList], true, .mat⟩),
      ("MT1".toList, ⟨["mt1 lwtr\n".toList], true, .mat⟩)], ?_, ?_, ?_⟩ <;> decide +kernel

/-- the hypotheses of `c49_kept_partial` are met (example) -/
def dataDemo : Dict Str Raw :=
  [("M1".toList, ⟨["m1 1001 1\n".toList], true, .mat⟩), ("MT1".toList, ⟨["mt1 lwtr\n".toList], true, .mat⟩),
   ("*TR1".toList, ⟨["*TR1 0 0 0\n".toList], true, .tr⟩), ("F4:N,P".toList, ⟨["F4:N,P 1\n".toList], true, .other⟩),
   ("TF4".toList, ⟨["TF4 1\n".toList], true, .other⟩), ("FM4".toList, ⟨["FM4 1\n".toList], true, .other⟩),
   ("FMESH14:N".toList, ⟨["FMESH14:N\n".toList], true, .other⟩), ("SDEF".toList, ⟨["SDEF\n".toList], true, .other⟩)]

example : ((cleanedOf (fun c => c.kind = .other) dataDemo).map Prod.fst).Nodup ∧
    ((cleanedOf (fun c => c.kind = .tr) dataDemo).map Prod.fst).Nodup ∧
    (cleanedOf (fun c => c.kind = .other) dataDemo).map (fun k => String.ofList k.1) =
      ["F4", "TF4", "FM4", "FMESH14", "SDEF"] ∧
    (parseData dataDemo).cards.length = 8 ∧
    (∀ kc ∈ (dataDemo.filter (fun kc => kc.2.kind = .mat)).head?, isMx kc.2 = false) := by
  decide +kernel

/-! ### C50: keys of data cards after a key update -/

/-- **C50** (the part that is true). Updating the keys puts every data card under its own first word; if
those are pairwise different, no card is lost. (Missing for the full property: it is then not found
under the name it had, see `c50_not_found`.) -/
theorem c50_update_partial (m m' : Deck) (h : updateKeys m = .ok m')
    (hd : (m.other.map (fun kc => cardKey kc.2)).Nodup)
    (ht : (m.transformations.map (fun kc => cardKey kc.2)).Nodup) :
    (∀ kc ∈ m.other, m'.other.get? (cardKey kc.2) = some kc.2) ∧ m'.other.map Prod.snd = m.other.map Prod.snd ∧
    (∀ kc ∈ m.transformations, m'.transformations.get? (cardKey kc.2) = some kc.2) ∧
    m'.transformations.map Prod.snd = m.transformations.map Prod.snd := by
  have fold : ∀ (l acc : Dict Str Card), (acc.keys ++ l.map (fun kc => cardKey kc.2)).Nodup →
      l.foldl (fun acc kc => acc.set (cardKey kc.2) kc.2) acc = acc ++ l.map (fun kc => (cardKey kc.2, kc.2)) := by
    intro l
    induction l with
    | nil => intro acc _; simp
    | cons kv r ih =>
      intro acc h
      have hk : cardKey kv.2 ∉ acc.keys := by
        rw [List.nodup_append] at h
        intro hm
        exact h.2.2 _ hm _ (by simp) rfl
      simp only [List.foldl_cons]
      rw [set_absent _ _ _ hk, ih]
      · simp
      · rw [keys_append]
        simpa [Dict.keys] using h
  have e1 : rekey m.other = m.other.map (fun kc => (cardKey kc.2, kc.2)) := by
    unfold rekey; rw [fold _ _ (by simpa [Dict.keys] using hd)]; simp
  have e2 : rekey m.transformations = m.transformations.map (fun kc => (cardKey kc.2, kc.2)) := by
    unfold rekey; rw [fold _ _ (by simpa [Dict.keys] using ht)]; simp
  unfold updateKeys at h
  cases hc : setCards .cel id (rekey m.cells) with
  | error e => simp [hc] at h
  | ok cs =>
    cases hs : setCards .sur keyNum (rekey m.surfs) with
    | error e => simp [hc, hs] at h
    | ok ss =>
      simp only [hc, hs, Except.ok.injEq] at h
      subst h
      simp only [e1, e2]
      refine ⟨?_, by simp [List.map_map, Function.comp_def], ?_, by simp [List.map_map, Function.comp_def]⟩
      · intro kc hkc
        refine Dict.get?_of_mem ?_ (List.mem_map.mpr ⟨kc, hkc, rfl⟩)
        simpa [Dict.WF, Dict.keys, List.map_map, Function.comp_def] using hd
      · intro kc hkc
        refine Dict.get?_of_mem ?_ (List.mem_map.mpr ⟨kc, hkc, rfl⟩)
        simpa [Dict.WF, Dict.keys, List.map_map, Function.comp_def] using ht

/-- a model with the tally `F4:N`, stored under `F4` as the reader does (example) -/
def tallyDeck : Deck where
  cells := []
  surfs := []
  materials := mkMatList []
  transformations := []
  other := [("F4".toList, ⟨4, ['F'], ":N".toList, true, [(4, .tal), (1, .cel)], none⟩)]
  tallyKeys := [4]
  fmeshKeys := []
  header := []

/-- **C50** is false of the code: after renumbering with key updates (or a merge with updated keys) the
tally card `F4:N`, found under `F4` before, is under `F4:N` and no longer found under `F4`. -/
theorem c50_not_found (o : Offsets) (all : Option ℤ) : ∃ m', renumber tallyDeck o all true = .ok m' ∧
    (tallyDeck.other.get? "F4".toList).isSome ∧ m'.other.get? "F4".toList = none ∧
    (m'.other.get? "F4:N".toList).isSome := by
  have hk : cardKey (applyMap (o.withAll all) ⟨4, ['F'], ":N".toList, true, [(4, .tal), (1, .cel)], none⟩) =
      "F4:N".toList := by
    simp only [applyMap, List.map_cons, cardKey, if_true]
    have : (o.withAll all).of .tal = none := rfl
    rw [this]
    simp only [shift]
    decide +kernel
  refine ⟨_, rfl, by decide +kernel, ?_, ?_⟩
  · simp only [tallyDeck, List.map_cons, List.map_nil, rekey, List.foldl_cons, List.foldl_nil, hk]
    rfl
  · simp only [tallyDeck, List.map_cons, List.map_nil, rekey, List.foldl_cons, List.foldl_nil, hk]
    rfl

/-! ### C53: marked surfaces in a merge -/

/-- **C53** (the part that is true). If both models use plain surface keys only, a successful merge
defines no surface number twice. (Missing for the full property: marked surfaces, see `c53_undetected`.) -/
theorem c53_no_double_partial (m o m' : Deck) (ho : Consistent o) (hm : Consistent m)
    (h1 : ∀ kc ∈ m.surfs, kc.1 = intStr kc.2.name) (h2 : ∀ kc ∈ o.surfs, kc.1 = intStr kc.2.name)
    (h : merge m o = (m', none)) : (m'.surfs.map (fun kc => kc.2.name)).Nodup := by
  have hd : Disjoint' m.surfs o.surfs := by
    intro k hk hk'
    have := c14_refused m o ho k (Or.inr (Or.inl ⟨hk, hk'⟩))
    rw [h] at this
    simp at this
  have hs : m'.surfs = m.surfs ++ o.surfs := by
    unfold merge at h
    rcases hc : safeUpdateCards .cel m.cells o.cells with ⟨dc, ec⟩
    rw [hc] at h
    cases ec with
    | some e => simp at h
    | none =>
      simp only [safeUpdateCards_ok .sur _ _ ho.surfs ho.surfKeys hd] at h
      rcases ht : safeUpdate m.transformations o.transformations with ⟨dt, et⟩
      rw [ht] at h
      cases et with
      | some e => simp at h
      | none => simp only [Prod.mk.injEq, and_true] at h; rw [← h]
  rw [hs, List.map_append, List.nodup_append]
  have nd : ∀ d : Dict Str Card, d.WF → (∀ kc ∈ d, kc.1 = intStr kc.2.name) → (d.map (fun kc => kc.2.name)).Nodup := by
    intro d hw hk
    have : d.keys = (d.map (fun kc => kc.2.name)).map intStr := by
      unfold Dict.keys
      rw [List.map_map]
      exact List.map_congr_left (fun kc h => hk kc h)
    unfold Dict.WF at hw
    rw [this] at hw
    exact List.Nodup.of_map _ hw
  refine ⟨nd _ hm.surfs h1, nd _ ho.surfs h2, ?_⟩
  intro a ha b hb hab
  subst hab
  obtain ⟨x, hx, hxa⟩ := List.mem_map.mp ha
  obtain ⟨y, hy, hya⟩ := List.mem_map.mp hb
  refine hd y.1 (List.mem_map.mpr ⟨y, hy, rfl⟩) ?_
  rw [h2 y hy, hya, ← hxa, ← h1 x hx]
  exact List.mem_map.mpr ⟨x, hx, rfl⟩

/-- a model with one surface, under a given mark (example) -/
def markDeck (mark : Str) : Deck where
  cells := []
  surfs := [(mark ++ "5".toList, ⟨5, mark, [], true, [(5, .sur)], none⟩)]
  materials := mkMatList []
  transformations := []
  other := []
  tallyKeys := []
  fmeshKeys := []
  header := []

/-- **C53** is false of the code: a model with the surface `5` and one with the reflecting surface `*5`
are merged without a complaint; the result defines surface 5 twice. -/
theorem c53_undetected : ∃ m o m' : Deck, Consistent m ∧ Consistent o ∧ merge m o = (m', none) ∧
    m'.surfs.map (fun kc => kc.2.name) = [5, 5] := by
  have hc : ∀ mark, parseInt (keyNum (mark ++ "5".toList)) = some 5 → Consistent (markDeck mark) := by
    intro mark hm
    refine ⟨by simp [Dict.WF, Dict.keys, markDeck], by simp [Dict.WF, Dict.keys, markDeck],
      by simp [Dict.WF, Dict.keys, markDeck], by simp [Dict.WF, Dict.keys, markDeck],
      by simp [Named, markDeck], ?_⟩
    intro kc h
    simp only [markDeck, List.mem_singleton] at h
    subst h
    exact ⟨hm, rfl⟩
  refine ⟨markDeck [], markDeck ['*'], (merge (markDeck []) (markDeck ['*'])).1, hc _ (by decide +kernel),
    hc _ (by decide +kernel), ?_, ?_⟩
  · decide +kernel
  · decide +kernel

end F4Enix.Inp
