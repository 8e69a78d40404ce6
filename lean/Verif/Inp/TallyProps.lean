import Verif.Inp.Tally
import Verif.Base.TextLemmas
/-!
# Theorems about the tallies of an input (C104-C107)
-/
set_option linter.unusedSimpArgs false
namespace F4Enix.Tally
open F4Enix

/-! ### specification -/

/-- the words of a card (specification) -/
def cardWords (ls : List Str) : List Str := ls.flatMap tokens

/-- MCNP's reading of a list of entries with repetitions: `3 2R` is `3 3 3` (specification) -/
def expandFrom : Option Str → List Str → Option (List Str)
  | _, [] => some []
  | prev, w :: ws =>
    if w.getLast? = some 'R' then
      match prev with
      | none => none
      | some p =>
        if w.dropLast ≠ [] ∧ ∀ c ∈ w.dropLast, isDigit c = true then
          (expandFrom prev ws).map (fun r => List.replicate (digitsVal w.dropLast) p ++ r)
        else none
    else (expandFrom (some w) ws).map (w :: ·)

/-- what is assumed of the wrapping of long lines: the words stay the same, and so does a first line
that is short enough (specification) -/
structure WrapOk (wrap : List Str → List Str) : Prop where
  words : ∀ ls, cardWords (wrap ls) = cardWords ls
  head : ∀ l ls, l.length ≤ 80 → (wrap (l :: ls)).head? = some l

/-- the particle list as MCNP wants it: separated by commas (specification) -/
def commaList : List Str → Str
  | [] => []
  | [p] => p
  | p :: q :: ps => p ++ ',' :: commaList (q :: ps)

/-! ### words -/

theorem name_word (s : String) (hs : ∀ c ∈ s.toList, isSpace c = false) (id : Nat) : IsWord (name s id) := by
  unfold name
  refine ⟨by simp [natStr_ne_nil], ?_⟩
  intro c hc
  rcases List.mem_append.1 hc with h | h
  · exact hs c h
  · exact isSpace_of_isDigit (natStr_all_digit id c h)

theorem tokens_word_space {w s : Str} (hw : IsWord w) : tokens (w ++ ' ' :: s) = w :: tokens s := by
  rw [tokens_word hw (Or.inr (show startsSpace (' ' :: s) = true from rfl)), tokens_space _ (by decide)]

theorem tokens_entries {es : List Str} (h : ∀ e ∈ es, IsWord e) (s : Str) :
    tokens (es.flatMap (fun e => e ++ [' ']) ++ s) = es ++ tokens s := by
  induction es with
  | nil => rfl
  | cons e es ih =>
    rw [List.flatMap_cons, List.append_assoc, List.append_assoc]
    have := ih (fun x hx => h x (List.mem_cons_of_mem _ hx))
    show tokens (e ++ ' ' :: _) = _
    rw [tokens_word_space (h e List.mem_cons_self)]
    exact congrArg (e :: ·) this

/-- the entries of the card are the words of its second line -/
theorem tokens_entryLine {es : List Str} (h : ∀ e ∈ es, IsWord e) : tokens (entryLine es) = es := by
  unfold entryLine
  rw [List.append_assoc, show "     ".toList = List.replicate 5 ' ' by decide, tokens_spaces, tokens_entries h,
    show tokens ['\n'] = [] by decide, List.append_nil]

theorem tokens_word_nl {w : Str} (hw : IsWord w) : tokens (w ++ ['\n']) = [w] := by
  rw [tokens_word hw (Or.inr (by decide)), show tokens ['\n'] = [] by decide]

/-! ### C104: what `add_F_tally` does -/

/-- names with different letters are different -/
theorem name_inj {s t : String} {a b : Nat} (hs : ∀ c ∈ s.toList, isDigit c = false)
    (ht : ∀ c ∈ t.toList, isDigit c = false) (h : name s a = name t b) : s = t ∧ a = b := by
  unfold name at h
  have key : ∀ (x : Str) (n : Nat), (∀ c ∈ x, isDigit c = false) →
      (x ++ natStr n).takeWhile (fun c => !isDigit c) = x ∧ (x ++ natStr n).dropWhile (fun c => !isDigit c) = natStr n := by
    intro x n hx
    have h1 : ∀ c ∈ x, (fun c => !isDigit c) c = true := by
      intro c hc; simp [hx c hc]
    have h2 : natStr n = [] ∨ ∃ c r, natStr n = c :: r ∧ (!isDigit c) = false := by
      cases hn : natStr n with
      | nil => exact Or.inl rfl
      | cons c r =>
        right
        refine ⟨c, r, rfl, ?_⟩
        have := natStr_all_digit n c (by rw [hn]; simp)
        simp [this]
    rcases h2 with h2 | ⟨c, r, h2, h3⟩
    · exact absurd h2 (natStr_ne_nil n)
    · rw [h2]
      constructor
      · rw [List.takeWhile_append_of_pos (by simpa using h1), List.takeWhile_cons, h3]; simp
      · rw [List.dropWhile_append_of_pos (by simpa using h1), List.dropWhile_cons, h3]; simp
  have e1 := (key _ a hs).1
  have e2 := (key _ b ht).1
  have f1 := (key _ a hs).2
  have f2 := (key _ b ht).2
  rw [h] at e1 f1
  rw [e1] at e2
  rw [f1] at f2
  refine ⟨String.toList_inj.1 e2, ?_⟩
  have := congrArg digitsVal f2
  rwa [digitsVal_natStr, digitsVal_natStr] at this

theorem get?_setOpt (d : Dict Str (List Str)) (k k' : Str) (v : Option (List Str)) :
    Dict.get? (setOpt d k v) k' = if k = k' then v.or (Dict.get? d k') else Dict.get? d k' := by
  cases v with
  | none => simp [setOpt]
  | some v => simp only [setOpt, Dict.get?_set]; split_ifs <;> rfl

/-- the five names of the cards of a tally are different -/
theorem names_differ (a b : Nat) :
    name "FC" a ≠ name "F" b ∧ name "FC" a ≠ name "E" b ∧ name "FC" a ≠ name "SD" b ∧ name "FC" a ≠ name "FM" b ∧
    name "F" a ≠ name "E" b ∧ name "F" a ≠ name "SD" b ∧ name "F" a ≠ name "FM" b ∧
    name "E" a ≠ name "SD" b ∧ name "E" a ≠ name "FM" b ∧ name "SD" a ≠ name "FM" b := by
  refine ⟨?_, ?_, ?_, ?_, ?_, ?_, ?_, ?_, ?_, ?_⟩ <;>
  · intro h
    have := (name_inj (by decide) (by decide) h).1
    revert this
    decide

/-- **C104.** With at least one particle the call succeeds, registers the number at the end of the list,
and sets exactly the cards asked for: `FC` with the description, `F` with the particles and the entries,
`E` with the energies, `SD` with the divisors and `FM` with the multiplier; a card that is not asked for and
every other card stay what they were. -/
theorem addF_cards (wrap : List Str → List Str) (i : Inp) (r : Request) (ps : Str)
    (hp : particlesStr r.particles = .ok ps) :
    ∃ i', addF wrap i r = (i', .ok ()) ∧ i'.tallies = i.tallies ++ [r.id] ∧
      Dict.get? i'.data (name "F" r.id) =
        some (wrap [name "F" r.id ++ ':' :: ps ++ ['\n'], entryLine (entries r.cells r.total)]) ∧
      Dict.get? i'.data (name "FC" r.id) =
        (r.description.map fun t => [name "FC" r.id ++ ' ' :: t ++ ['\n']]).or (Dict.get? i.data (name "FC" r.id)) ∧
      Dict.get? i'.data (name "E" r.id) =
        (r.energies.map fun es => wrap [name "E" r.id ++ ['\n'], entryLine es]).or
          (Dict.get? i.data (name "E" r.id)) ∧
      Dict.get? i'.data (name "SD" r.id) =
        (if r.sd then some [sdLine r.id (entries r.cells r.total).length] else Dict.get? i.data (name "SD" r.id)) ∧
      Dict.get? i'.data (name "FM" r.id) =
        (r.multiplier.map fun t => [name "FM" r.id ++ ' ' :: t ++ ['\n']]).or (Dict.get? i.data (name "FM" r.id)) ∧
      ∀ k, k ≠ name "F" r.id → k ≠ name "FC" r.id → k ≠ name "E" r.id → k ≠ name "SD" r.id → k ≠ name "FM" r.id →
        Dict.get? i'.data k = Dict.get? i.data k := by
  obtain ⟨n1, n2, n3, n4, n5, n6, n7, n8, n9, n10⟩ := names_differ r.id r.id
  have hfst : (addF wrap i r).2 = .ok () := by unfold addF; rw [hp]
  refine ⟨(addF wrap i r).1, by rw [← hfst], by unfold addF; rw [hp], ?_, ?_, ?_, ?_, ?_, ?_⟩ <;>
    (unfold addF; rw [hp])
  · cases r.sd <;> simp [get?_setOpt, Dict.get?_set, n1, n2, n3, n4, n5, n6, n7, n8, n9, n10, n1.symm, n2.symm,
      n3.symm, n4.symm, n5.symm, n6.symm, n7.symm, n8.symm, n9.symm, n10.symm]
  · cases r.sd <;> simp [get?_setOpt, Dict.get?_set, n1, n2, n3, n4, n5, n6, n7, n8, n9, n10, n1.symm, n2.symm,
      n3.symm, n4.symm, n5.symm, n6.symm, n7.symm, n8.symm, n9.symm, n10.symm]
  · cases r.sd <;> simp [get?_setOpt, Dict.get?_set, n1, n2, n3, n4, n5, n6, n7, n8, n9, n10, n1.symm, n2.symm,
      n3.symm, n4.symm, n5.symm, n6.symm, n7.symm, n8.symm, n9.symm, n10.symm]
  · cases r.sd <;> simp [get?_setOpt, Dict.get?_set, n1, n2, n3, n4, n5, n6, n7, n8, n9, n10, n1.symm, n2.symm,
      n3.symm, n4.symm, n5.symm, n6.symm, n7.symm, n8.symm, n9.symm, n10.symm]
  · cases r.sd <;> simp [get?_setOpt, Dict.get?_set, n1, n2, n3, n4, n5, n6, n7, n8, n9, n10, n1.symm, n2.symm,
      n3.symm, n4.symm, n5.symm, n6.symm, n7.symm, n8.symm, n9.symm, n10.symm]
  · intro k h1 h2 h3 h4 h5
    cases r.sd <;> simp [get?_setOpt, Dict.get?_set, h1.symm, h2.symm, h3.symm, h4.symm, h5.symm]

/-- **C104 (words).** The tally card says the number with the particles, then the cells in the order given,
then `T` if the total is asked for; the energy card the energies in order. -/
theorem addF_words {wrap : List Str → List Str} (hw : WrapOk wrap) (i : Inp) (r : Request) (ps : Str)
    (hp : particlesStr r.particles = .ok ps) (hps : ∀ c ∈ ps, isSpace c = false)
    (hc : ∀ e ∈ r.cells, IsWord e) (he : ∀ es, r.energies = some es → ∀ e ∈ es, IsWord e) :
    (∃ c, Dict.get? (addF wrap i r).1.data (name "F" r.id) = some c ∧
      cardWords c = (name "F" r.id ++ ':' :: ps) :: r.cells ++ (if r.total then ["T".toList] else [])) ∧
    ∀ es, r.energies = some es → ∃ c, Dict.get? (addF wrap i r).1.data (name "E" r.id) = some c ∧
      cardWords c = name "E" r.id :: es := by
  obtain ⟨i', e0, _, e1, _, e2, _⟩ := addF_cards wrap i r ps hp
  rw [e0]
  have hF := name_word "F" (by decide) r.id
  constructor
  · refine ⟨_, e1, ?_⟩
    rw [hw.words]
    have hwd : IsWord (name "F" r.id ++ ':' :: ps) := by
      refine ⟨by simp, ?_⟩
      intro c hc
      simp only [List.mem_append, List.mem_cons] at hc
      rcases hc with h | rfl | h
      · exact hF.2 c h
      · decide
      · exact hps c h
    have hes : ∀ e ∈ entries r.cells r.total, IsWord e := by
      unfold entries
      cases r.total with
      | false => simpa using hc
      | true =>
        intro e he
        simp only [if_true, List.mem_append, List.mem_singleton] at he
        rcases he with h | rfl
        · exact hc e h
        · decide
    simp only [cardWords, List.flatMap_cons, List.flatMap_nil, List.append_nil]
    rw [tokens_word_nl hwd, tokens_entryLine hes]
    unfold entries
    cases r.total <;> simp
  · intro es hes
    rw [hes] at e2
    refine ⟨_, e2, ?_⟩
    rw [hw.words]
    simp only [cardWords, List.flatMap_cons, List.flatMap_nil, List.append_nil]
    rw [tokens_word_nl (name_word "E" (by decide) r.id), tokens_entryLine (he es hes)]
    rfl

/-- **C104 (divisors).** The `SD` card of a tally with `n ≥ 1` entries stands for exactly `n` divisors, all 1. -/
theorem sd_divisors (id n : Nat) (h : 1 ≤ n) :
    ∃ ws, tokens (sdLine id n) = name "SD" id :: ws ∧ expandFrom none ws = some (List.replicate n "1".toList) := by
  have hN := name_word "SD" (by decide) id
  unfold sdLine
  by_cases h1 : (n : ℤ) - 1 ≠ 0
  · rw [if_pos h1]
    obtain ⟨m, rfl⟩ : ∃ m, n = m + 1 := ⟨n - 1, by omega⟩
    have hm : intStr (((m + 1 : ℕ) : ℤ) - 1) = natStr m := by
      have : (((m + 1 : ℕ) : ℤ) - 1) = Int.ofNat m := by simp
      rw [this]; rfl
    rw [hm]
    refine ⟨["1".toList, natStr m ++ ['R']], ?_, ?_⟩
    · have e : name "SD" id ++ " 1 ".toList ++ natStr m ++ "R\n".toList =
          name "SD" id ++ ' ' :: ("1".toList ++ ' ' :: ((natStr m ++ ['R']) ++ ['\n'])) := by
        simp [List.append_assoc]
      have hR : IsWord (natStr m ++ ['R']) := by
        refine ⟨by simp, ?_⟩
        intro c hc
        rcases List.mem_append.1 hc with h | h
        · exact isSpace_of_isDigit (natStr_all_digit m c h)
        · simp only [List.mem_singleton] at h; subst h; decide
      rw [e, tokens_word_space hN, tokens_word_space (by decide), tokens_word_nl hR]
    · simp only [expandFrom]
      rw [if_neg (by decide)]
      simp only [List.getLast?_append, List.getLast?_singleton, Option.some_or, if_true, List.dropLast_concat]
      rw [if_pos ⟨natStr_ne_nil m, natStr_all_digit m⟩, digitsVal_natStr]
      simp [List.replicate_succ]
  · rw [if_neg h1]
    obtain rfl : n = 1 := by omega
    refine ⟨["1".toList], ?_, by decide⟩
    have e : name "SD" id ++ " 1\n".toList = name "SD" id ++ ' ' :: ("1".toList ++ ['\n']) := rfl
    rw [e, tokens_word_space hN, tokens_word_nl (by decide)]

/-- **C104 (false without cells).** A tally without cells gets the divisors `1 -1R`, which MCNP refuses. -/
theorem sd_no_cells (id : Nat) :
    tokens (sdLine id 0) = [name "SD" id, "1".toList, "-1R".toList] ∧
      expandFrom none ["1".toList, "-1R".toList] = none := by
  refine ⟨?_, by decide⟩
  have hN := name_word "SD" (by decide) id
  unfold sdLine
  rw [if_pos (by decide)]
  have e : name "SD" id ++ " 1 ".toList ++ intStr (((0 : ℕ) : ℤ) - 1) ++ "R\n".toList =
      name "SD" id ++ ' ' :: ("1".toList ++ ' ' :: ("-1R".toList ++ ['\n'])) := by
    rw [show intStr (((0 : ℕ) : ℤ) - 1) = "-1".toList by decide]
    simp [List.append_assoc]
  rw [e, tokens_word_space hN, tokens_word_space (by decide), tokens_word_nl (by decide)]

/-- **C104 (particles, partial).** One particle, or two of which the second is a single letter, are written
as MCNP wants them. -/
theorem particles_partial (p : Str) (c : Char) :
    particlesStr [p] = .ok (commaList [p]) ∧ particlesStr [p, [c]] = .ok (commaList [p, [c]]) :=
  ⟨rfl, rfl⟩

/-- **C104 (false for more particles).** The third and later particles are ignored, and a second particle of
several letters is spelled out letter by letter. -/
theorem particles_lost (p q : Str) (rest : List Str) :
    particlesStr (p :: q :: rest) = particlesStr [p, q] ∧
      ∀ (a b : Char), particlesStr [p, [a, b]] = .ok (p ++ [',', a, ',', b]) := by
  exact ⟨rfl, fun a b => rfl⟩

/-- three particles are never written as MCNP wants them -/
theorem particles_wrong (p q s : Str) (rest : List Str) (hq : q.length = 1) :
    particlesStr (p :: q :: s :: rest) ≠ .ok (commaList (p :: q :: s :: rest)) := by
  intro h
  simp only [particlesStr, Except.ok.injEq] at h
  have hl := congrArg List.length h
  obtain ⟨c, rfl⟩ := List.length_eq_one_iff.1 hq
  have : (commaList (p :: [c] :: s :: rest)).length = p.length + 1 + 1 + 1 + (commaList (s :: rest)).length := by
    simp [commaList]; omega
  rw [this] at hl
  simp at hl
  omega

/-- **C104 (false without particles).** Without particles the call fails with `IndexError`, but the number has
been registered. -/
theorem no_particles (wrap : List Str → List Str) (i : Inp) (r : Request) (h : r.particles = []) :
    addF wrap i r = ({ i with tallies := i.tallies ++ [r.id] }, .error .indexError) := by
  simp [addF, h, particlesStr]

/-- **C104 (observed).** Adding a tally under an existing number registers the number twice and keeps the
old energies, description and multiplier when the new one has none. -/
theorem overwrite_stale (wrap : List Str → List Str) (i : Inp) (r : Request) (ps : Str)
    (hp : particlesStr r.particles = .ok ps) (hin : r.id ∈ i.tallies) (hE : r.energies = none)
    (hF : r.description = none) (hM : r.multiplier = none) :
    2 ≤ (addF wrap i r).1.tallies.count r.id ∧
      (∀ k, k = name "E" r.id ∨ k = name "FC" r.id ∨ k = name "FM" r.id →
        Dict.get? (addF wrap i r).1.data k = Dict.get? i.data k) := by
  obtain ⟨i', e0, e1, _, e2, e3, _, e4, _⟩ := addF_cards wrap i r ps hp
  rw [e0]
  refine ⟨?_, ?_⟩
  · rw [e1, List.count_append]
    have := List.count_pos_iff.2 hin
    simp
    omega
  · rintro k (rfl | rfl | rfl)
    · rw [e3, hE]; rfl
    · rw [e2, hF]; rfl
    · rw [e4, hM]; rfl

end F4Enix.Tally
