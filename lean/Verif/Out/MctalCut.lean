import Verif.Out.MctalRead
/-!
# MCTAL files that were cut off (C206)

Every part of the reader that succeeds has used certain lines and would do the same whatever follows them.
-/
namespace F4Enix.Mctal
open F4Enix

/-! ## The parts of the reader depend on the lines they use only -/

theorem skipTo_uses (c : Char) {ls r : List Str} {l : Str} (h : skipTo c ls = .ok (l, r)) :
    ∃ u, ls = u ++ r ∧ ∀ s, skipTo c (u ++ s) = .ok (l, s) := by
  induction ls with
  | nil => simp [skipTo] at h
  | cons x ls ih =>
    rw [skipTo] at h
    by_cases hx : x = []
    · rw [if_pos hx] at h; cases h
    rw [if_neg hx] at h
    by_cases hs : startsWithCI c x = true
    · rw [if_pos hs, Except.ok.injEq, Prod.mk.injEq] at h
      exact ⟨[x], by rw [h.2]; rfl, fun s => by rw [List.singleton_append, skipTo, if_neg hx, if_pos hs, h.1]⟩
    · rw [if_neg hs] at h
      obtain ⟨u, hu, hr⟩ := ih h
      exact ⟨x :: u, by rw [hu]; rfl, fun s => by rw [List.cons_append, skipTo, if_neg hx, if_neg hs, hr]⟩

theorem readBins_uses (num : ParseNum) (c : Char) (cap : ℤ) {acc xs : List Num} {ls r : List Str} {l : Str}
    (h : readBins num c cap acc ls = .ok (xs, l, r)) :
    ∃ u, ls = u ++ r ∧ ∀ s, readBins num c cap acc (u ++ s) = .ok (xs, l, s) := by
  induction ls generalizing acc with
  | nil => simp [readBins] at h
  | cons x ls ih =>
    rw [readBins] at h
    by_cases hx : x = []
    · rw [if_pos hx] at h; cases h
    rw [if_neg hx] at h
    by_cases hs : startsWithCI c x = true
    · rw [if_pos hs, Except.ok.injEq, Prod.mk.injEq, Prod.mk.injEq] at h
      exact ⟨[x], by rw [h.2.2]; rfl, fun s => by rw [List.singleton_append, readBins, if_neg hx, if_pos hs, h.1, h.2.1]⟩
    · rw [if_neg hs] at h
      cases h1 : floats num (tokens x) with
      | error e => rw [h1] at h; cases h
      | ok ys =>
        simp only [h1] at h
        cases h2 : insertAll cap acc ys with
        | error e => rw [h2] at h; cases h
        | ok acc' =>
          simp only [h2] at h
          obtain ⟨u, hu, hr⟩ := ih h
          exact ⟨x :: u, by rw [hu]; rfl, fun s => by rw [List.cons_append, readBins, if_neg hx, if_neg hs, h1]; simp only [h2]; exact hr s⟩

/-- the line `vals` is needed: without it (and what follows) the loop never ends -/
theorem readTimes_uses (num : ParseNum) (cap : ℤ) {acc xs : List Num} {ls r : List Str} (h : readTimes num cap acc ls = .ok (xs, r)) :
    ∃ u v, ls = (u ++ [v]) ++ r ∧ (∀ s, readTimes num cap acc ((u ++ [v]) ++ s) = .ok (xs, s)) ∧ readTimes num cap acc u = .error .diverges := by
  induction ls generalizing acc with
  | nil => simp [readTimes] at h
  | cons x ls ih =>
    rw [readTimes] at h
    by_cases hs : (strip x).map Char.toLower = "vals".toList
    · rw [if_pos hs, Except.ok.injEq, Prod.mk.injEq] at h
      exact ⟨[], x, by rw [h.2]; rfl, fun s => by rw [List.nil_append, List.singleton_append, readTimes, if_pos hs, h.1], by rw [readTimes]⟩
    · rw [if_neg hs] at h
      cases h1 : floats num (tokens x) with
      | error e => rw [h1] at h; cases h
      | ok ys =>
        simp only [h1] at h
        cases h2 : insertAll cap acc ys with
        | error e => rw [h2] at h; cases h
        | ok acc' =>
          simp only [h2] at h
          obtain ⟨u, v, hu, hr, hd⟩ := ih h
          exact ⟨x :: u, v, by rw [hu]; rfl,
            fun s => by rw [List.cons_append, List.cons_append, readTimes, if_neg hs, h1]; simp only [h2]; exact hr s,
            by rw [readTimes, if_neg hs, h1]; simp only [h2]; exact hd⟩

theorem readCells_uses (num : ParseNum) (cap : ℤ) {acc xs : List Num} {ls r : List Str} {l : Str}
    (h : readCells num cap acc ls = .ok (xs, l, r)) :
    ∃ u, ls = u ++ r ∧ ∀ s, readCells num cap acc (u ++ s) = .ok (xs, l, s) := by
  induction ls generalizing acc with
  | nil => simp [readCells] at h
  | cons x ls ih =>
    rw [readCells] at h
    by_cases hx : x = []
    · rw [if_pos hx] at h; cases h
    rw [if_neg hx] at h
    by_cases hs : startsWithCI 'd' x = true
    · rw [if_pos hs, Except.ok.injEq, Prod.mk.injEq, Prod.mk.injEq] at h
      exact ⟨[x], by rw [h.2.2]; rfl, fun s => by rw [List.singleton_append, readCells, if_neg hx, if_pos hs, h.1, h.2.1]⟩
    · rw [if_neg hs] at h
      cases h1 : cellNums num x with
      | error e => rw [h1] at h; cases h
      | ok ys =>
        simp only [h1] at h
        cases h2 : insertAll cap acc ys with
        | error e => rw [h2] at h; cases h
        | ok acc' =>
          simp only [h2] at h
          obtain ⟨u, hu, hr⟩ := ih h
          exact ⟨x :: u, by rw [hu]; rfl, fun s => by rw [List.cons_append, readCells, if_neg hx, if_neg hs, h1]; simp only [h2]; exact hr s⟩

theorem readCors_uses (num : ParseNum) (n : ℤ × ℤ × ℤ) {acc xs : Cors} {ls r : List Str} {l : Str}
    (h : readCors num n acc ls = .ok (xs, l, r)) :
    ∃ u, ls = u ++ r ∧ ∀ s, readCors num n acc (u ++ s) = .ok (xs, l, s) := by
  induction ls generalizing acc with
  | nil => simp [readCors] at h
  | cons x ls ih =>
    rw [readCors] at h
    by_cases hx : x = []
    · rw [if_pos hx] at h; cases h
    rw [if_neg hx] at h
    by_cases hs : startsWithCI 'd' x = true
    · rw [if_pos hs, Except.ok.injEq, Prod.mk.injEq, Prod.mk.injEq] at h
      exact ⟨[x], by rw [h.2.2]; rfl, fun s => by rw [List.singleton_append, readCors, if_neg hx, if_pos hs, h.1, h.2.1]⟩
    · rw [if_neg hs] at h
      cases h1 : floats num (tokens x) with
      | error e => rw [h1] at h; cases h
      | ok ys =>
        simp only [h1] at h
        cases h2 : insertCors n acc ys with
        | error e => rw [h2] at h; cases h
        | ok acc' =>
          simp only [h2] at h
          obtain ⟨u, hu, hr⟩ := ih h
          exact ⟨x :: u, by rw [hu]; rfl, fun s => by rw [List.cons_append, readCors, if_neg hx, if_neg hs, h1]; simp only [h2]; exact hr s⟩

theorem readComments_uses {ls r cm : List Str} {l : Str} (h : readComments ls = (cm, l, r)) (hl : l ≠ []) :
    ∃ u, ls = u ++ r ∧ u ≠ [] ∧ ∀ s, readComments (u ++ s) = (cm, l, s) := by
  induction ls generalizing cm with
  | nil => simp only [readComments, Prod.mk.injEq] at h; exact absurd h.2.1.symm hl
  | cons x ls ih =>
    rw [readComments] at h
    by_cases hx : x.take 5 = "     ".toList
    · rw [if_pos hx] at h
      simp only [Prod.mk.injEq] at h
      obtain ⟨u, hu, hn, hr⟩ := ih (cm := (readComments ls).1) (by rw [← h.2])
      exact ⟨x :: u, by rw [hu]; rfl, by simp, fun s => by rw [List.cons_append, readComments, if_pos hx, hr]; simp only [h.1]⟩
    · rw [if_neg hx, Prod.mk.injEq, Prod.mk.injEq] at h
      exact ⟨[x], by rw [h.2.2]; rfl, by simp, fun s => by rw [List.singleton_append, readComments, if_neg hx, h.1, h.2.1]⟩

theorem valueLoop_uses (num : ParseNum) {is : List (List Nat)} {rd rd' : Reader} {v v' : List Nat → Num × Num}
    (h : valueLoop num is rd v = .ok (rd', v')) :
    ∃ u, rd.rest = u ++ rd'.rest ∧ ∀ s, valueLoop num is { rd with rest := u ++ s } v = .ok ({ rd' with rest := s }, v') := by
  induction is generalizing rd v with
  | nil =>
    simp only [valueLoop, Except.ok.injEq, Prod.mk.injEq] at h
    exact ⟨[], by rw [h.1]; rfl, fun s => by rw [valueLoop, ← h.1, ← h.2]; rfl⟩
  | cons i is ih =>
    rw [valueLoop] at h
    cases h1 : valueStep num i rd v with
    | error e => rw [h1] at h; cases h
    | ok a =>
      obtain ⟨rd1, v1⟩ := a
      simp only [h1] at h
      obtain ⟨u, hu, hr⟩ := ih h
      suffices hs : ∃ w, rd.rest = w ++ rd1.rest ∧ ∀ s, valueStep num i { rd with rest := w ++ s } v = .ok ({ rd1 with rest := s }, v1) by
        obtain ⟨w, hw, hv⟩ := hs
        refine ⟨w ++ u, by rw [hw, hu, List.append_assoc], fun s => ?_⟩
        rw [valueLoop, List.append_assoc, hv]
        exact hr s
      unfold valueStep at h1
      by_cases hf : rd.f > rd.nFld
      · cases hrest : rd.rest with
        | nil =>
          have e1 : rd.refill = { f := 0, nFld := -1, fld := [], line := [], rest := [] } := by
            unfold Reader.refill
            rw [if_pos hf, hrest]
            rfl
          rw [e1] at h1
          simp [pairAt] at h1
        | cons x ls =>
          have e1 : ∀ s, ({ rd with rest := [x] ++ s } : Reader).refill =
              { f := 0, nFld := ((tokens (strip x)).length : ℤ) - 1, fld := tokens (strip x), line := strip x, rest := s } := by
            intro s
            unfold Reader.refill
            simp only [if_pos hf, readline, List.singleton_append]
          have e2 : rd.refill = { f := 0, nFld := ((tokens (strip x)).length : ℤ) - 1, fld := tokens (strip x), line := strip x, rest := ls } := by
            unfold Reader.refill
            rw [if_pos hf, hrest]
            rfl
          rw [e2] at h1
          simp only at h1
          by_cases ht : (strip x).take 3 = "tfc".toList
          · rw [if_pos ht, Except.ok.injEq, Prod.mk.injEq] at h1
            refine ⟨[x], by rw [← h1.1]; rfl, fun s => ?_⟩
            unfold valueStep
            rw [e1]
            simp only [if_pos ht]
            rw [← h1.1, h1.2]
          · rw [if_neg ht] at h1
            cases hp : pairAt num (tokens (strip x)) (Int.toNat 0) with
            | error e => rw [hp] at h1; cases h1
            | ok p =>
              simp only [hp, Except.ok.injEq, Prod.mk.injEq] at h1
              refine ⟨[x], by rw [← h1.1]; rfl, fun s => ?_⟩
              unfold valueStep
              rw [e1]
              simp only [if_neg ht, hp]
              rw [← h1.1, h1.2]
      · have e1 : ∀ s, ({ rd with rest := s } : Reader).refill = { rd with rest := s } := by
          intro s
          unfold Reader.refill
          simp only [if_neg hf]
        have e2 : rd.refill = rd := e1 rd.rest
        rw [e2] at h1
        simp only at h1
        by_cases ht : rd.line.take 3 = "tfc".toList
        · rw [if_pos ht, Except.ok.injEq, Prod.mk.injEq] at h1
          refine ⟨[], by rw [← h1.1]; rfl, fun s => ?_⟩
          unfold valueStep
          rw [e1]
          simp only [if_pos ht]
          rw [← h1.1, h1.2]
          rfl
        · rw [if_neg ht] at h1
          cases hp : pairAt num rd.fld rd.f.toNat with
          | error e => rw [hp] at h1; cases h1
          | ok p =>
            simp only [hp, Except.ok.injEq, Prod.mk.injEq] at h1
            refine ⟨[], by rw [← h1.1]; rfl, fun s => ?_⟩
            unfold valueStep
            rw [e1]
            simp only [if_neg ht, hp]
            rw [← h1.1, h1.2]
            rfl

theorem readValues_uses (num : ParseNum) (empty : List Nat → Num × Num) (shape : List Nat) {ls r : List Str} {v : List Nat → Num × Num} {l : Str}
    (h : readValues num empty shape ls = .ok (v, l, r)) :
    ∃ u, ls = u ++ r ∧ ∀ s, readValues num empty shape (u ++ s) = .ok (v, l, s) := by
  unfold readValues at h ⊢
  cases h1 : valueLoop num (binOrder shape) { f := 1, nFld := 0, fld := [], line := [], rest := ls } empty with
  | error e => rw [h1] at h; cases h
  | ok a =>
    obtain ⟨rd, v'⟩ := a
    simp only [h1, Except.ok.injEq, Prod.mk.injEq] at h
    obtain ⟨u, hu, hr⟩ := valueLoop_uses num h1
    refine ⟨u, by rw [← h.2.2]; exact hu, fun s => ?_⟩
    have := hr s
    simp only at this
    rw [this]
    simp only [h.1, h.2.1]

theorem intAt_ne {l : Str} {i : Nat} {z : ℤ} (h : intAt (tokens l) i = .ok z) : l ≠ [] := by
  rintro rfl
  rw [tokens_nil] at h
  simp [intAt] at h

/-- the end of `parseStart`, after the comments (proof) -/
def startTail (number typ det : ℤ) (ps : List ℤ) (cm : List Str) (l : Str) (r : List Str) : Except PyErr (Tally × List Str) :=
  let t : Tally := { number := number, typeNumber := typ, detectorType := det, radiograph := decide (det ≥ 3), mesh := decide (det ≤ -1), particles := ps, comment := cm }
  if decide (det ≤ -1) = true then
    match intAt (tokens l) 2 with
    | .error e => .error e
    | .ok m0 => match intAt (tokens l) 3 with
      | .error e => .error e
      | .ok m1 => match intAt (tokens l) 4 with
        | .error e => .error e
        | .ok m2 => match intAt (tokens l) 5 with
          | .error e => .error e
          | .ok m3 => .ok ({ t with nCells := 1, meshInfo := (m0, m1, m2, m3) }, r)
  else match intAt (tokens l) 1 with
    | .error e => .error e
    | .ok n => .ok ({ t with nCells := n }, r)

theorem parseStart_cons {line : List Str} {number typ det : ℤ} (g1 : intAt line 1 = .ok number) (g2 : intAt line 2 = .ok typ) (g3 : intAt line 3 = .ok det)
    {x : Str} {isP : Bool} (g4 : isParticleLine x = .ok isP) (ls : List Str) :
    parseStart line (x :: ls) = match (if isP = true then particleFlags (tokens x) else Except.ok []) with
      | .error e => .error e
      | .ok ps =>
        let rc := readComments (if ps = [] then x :: ls else ls)
        startTail number typ det ps rc.1 rc.2.1 rc.2.2 := by
  unfold parseStart startTail
  simp only [bind, Except.bind, pure, Except.pure, g1, g2, g3, readline, g4]
  cases isP
  · simp only [Bool.false_eq_true, if_false, if_true]
    generalize readComments (x :: ls) = rc
    obtain ⟨cm, l, r⟩ := rc
    simp only
    split
    · cases intAt (tokens l) 2 <;> simp only
      cases intAt (tokens l) 3 <;> simp only
      cases intAt (tokens l) 4 <;> simp only
      cases intAt (tokens l) 5 <;> simp only
    · cases intAt (tokens l) 1 <;> simp only
  · simp only [if_true]
    cases particleFlags (tokens x) with
    | error e => rfl
    | ok ps =>
      simp only
      generalize readComments (if ps = [] then x :: ls else ls) = rc
      obtain ⟨cm, l, r⟩ := rc
      simp only
      split
      · cases intAt (tokens l) 2 <;> simp only
        cases intAt (tokens l) 3 <;> simp only
        cases intAt (tokens l) 4 <;> simp only
        cases intAt (tokens l) 5 <;> simp only
      · cases intAt (tokens l) 1 <;> simp only

theorem startTail_ok {number typ det : ℤ} {ps : List ℤ} {cm r r' : List Str} {l : Str} {t : Tally} (h : startTail number typ det ps cm l r = .ok (t, r')) :
    l ≠ [] ∧ r = r' ∧ ∀ s, startTail number typ det ps cm l s = .ok (t, s) := by
  unfold startTail at h ⊢
  by_cases hm : decide (det ≤ -1) = true
  · simp only [if_pos hm] at h ⊢
    cases k1 : intAt (tokens l) 2 with
    | error e => rw [k1] at h; cases h
    | ok m0 =>
    cases k2 : intAt (tokens l) 3 with
    | error e => rw [k1, k2] at h; cases h
    | ok m1 =>
    cases k3 : intAt (tokens l) 4 with
    | error e => rw [k1, k2, k3] at h; cases h
    | ok m2 =>
    cases k4 : intAt (tokens l) 5 with
    | error e => rw [k1, k2, k3, k4] at h; cases h
    | ok m3 =>
      simp only [k1, k2, k3, k4, Except.ok.injEq, Prod.mk.injEq] at h ⊢
      exact ⟨intAt_ne k1, h.2, fun s => ⟨h.1, trivial⟩⟩
  · simp only [if_neg hm] at h ⊢
    cases k1 : intAt (tokens l) 1 with
    | error e => rw [k1] at h; cases h
    | ok n =>
      simp only [k1, Except.ok.injEq, Prod.mk.injEq] at h ⊢
      exact ⟨intAt_ne k1, h.2, fun s => ⟨h.1, trivial⟩⟩

theorem parseStart_uses {line ls r : List Str} {t : Tally} (h : parseStart line ls = .ok (t, r)) :
    ∃ u, ls = u ++ r ∧ u ≠ [] ∧ ∀ s, parseStart line (u ++ s) = .ok (t, s) := by
  cases g1 : intAt line 1 with
  | error e => simp [parseStart, bind, Except.bind, g1] at h
  | ok number =>
  cases g2 : intAt line 2 with
  | error e => simp [parseStart, bind, Except.bind, g1, g2] at h
  | ok typ =>
  cases g3 : intAt line 3 with
  | error e => simp [parseStart, bind, Except.bind, g1, g2, g3] at h
  | ok det =>
  cases ls with
  | nil => simp [parseStart, bind, Except.bind, g1, g2, g3, readline, isParticleLine] at h
  | cons x ls =>
    cases g4 : isParticleLine x with
    | error e => simp [parseStart, bind, Except.bind, g1, g2, g3, readline, g4] at h
    | ok isP =>
      have hcons := parseStart_cons g1 g2 g3 g4
      rw [hcons] at h
      cases g5 : (if isP = true then particleFlags (tokens x) else Except.ok []) with
      | error e => rw [g5] at h; cases h
      | ok ps =>
        simp only [g5] at h hcons
        obtain ⟨hl, hr, ht⟩ := startTail_ok h
        obtain ⟨u, hu, hn, hr'⟩ := readComments_uses (ls := if ps = [] then x :: ls else ls) (Prod.ext rfl (Prod.ext rfl rfl)) hl
        rw [hr] at hu
        by_cases hp : ps = []
        · rw [if_pos hp] at hu
          cases u with
          | nil => exact absurd rfl hn
          | cons y u =>
            rw [List.cons_append, List.cons.injEq] at hu
            obtain ⟨rfl, hu⟩ := hu
            refine ⟨x :: u, by rw [hu]; rfl, by simp, fun s => ?_⟩
            have hr' := hr' s
            rw [List.cons_append] at hr' ⊢
            rw [hcons (u ++ s), if_pos hp, hr']
            exact ht s
        · rw [if_neg hp] at hu
          refine ⟨x :: u, by rw [hu]; rfl, by simp, fun s => ?_⟩
          have hr' := hr' s
          rw [List.cons_append, hcons (u ++ s), if_neg hp, hr']
          exact ht s

theorem parseCells_uses (num : ParseNum) {t t' : Tally} {ls r : List Str} {l : Str} (h : parseCells num t ls = .ok (t', l, r)) :
    ∃ u, ls = u ++ r ∧ ∀ s, parseCells num t (u ++ s) = .ok (t', l, s) := by
  unfold parseCells at h ⊢
  simp only at h ⊢
  generalize (if endsIn5 t.number = true then { t with cells := (List.range t.nCells.toNat).map (fun k : ℕ => some ((k : ℚ) + 1)) } else t) = t0 at h ⊢
  by_cases hm : t0.mesh = true
  · simp only [if_pos hm] at h ⊢
    cases h1 : readCors num t0.meshInfo.2 { axis := 0, count := 0, a := [], b := [], c := [] } ls with
    | error e => rw [h1] at h; cases h
    | ok a =>
      obtain ⟨xs, l', r'⟩ := a
      simp only [h1, Except.ok.injEq, Prod.mk.injEq] at h
      obtain ⟨u, hu, hr⟩ := readCors_uses _ _ h1
      exact ⟨u, by rw [hu, h.2.2], fun s => by simp only [hr s, Except.ok.injEq, Prod.mk.injEq]; exact ⟨h.1, h.2.1, trivial⟩⟩
  · simp only [if_neg hm] at h ⊢
    cases h1 : readCells num t0.nCells t0.cells ls with
    | error e => rw [h1] at h; cases h
    | ok a =>
      obtain ⟨xs, l', r'⟩ := a
      simp only [h1, Except.ok.injEq, Prod.mk.injEq] at h
      obtain ⟨u, hu, hr⟩ := readCells_uses _ _ h1
      exact ⟨u, by rw [hu, h.2.2], fun s => by simp only [hr s, Except.ok.injEq, Prod.mk.injEq]; exact ⟨h.1, h.2.1, trivial⟩⟩

theorem parseBins_uses (num : ParseNum) {t t' : Tally} {ls r : List Str} {l : Str} (h : parseBins num t l ls = .ok (t', r)) :
    ∃ u v, ls = (u ++ [v]) ++ r ∧ (∀ s, parseBins num t l ((u ++ [v]) ++ s) = .ok (t', s)) ∧ parseBins num t l u = .error .diverges := by
  unfold parseBins at h ⊢
  simp only [bind, Except.bind, pure, Except.pure] at h ⊢
  cases g1 : intAt (tokens l) 1 with
  | error e => rw [g1] at h; cases h
  | ok nDir =>
  simp only [g1] at h ⊢
  cases a1 : skipTo 'u' ls with
  | error e => rw [a1] at h; cases h
  | ok a =>
  obtain ⟨l1, r1⟩ := a
  obtain ⟨u1, e1, f1⟩ := skipTo_uses _ a1
  simp only [a1] at h
  cases g2 : intAt (tokens l1) 1 with
  | error e => rw [g2] at h; cases h
  | ok nUsr =>
  simp only [g2] at h
  cases a2 : readBins num 's' nUsr [] r1 with
  | error e => rw [a2] at h; cases h
  | ok a =>
  obtain ⟨usr, l2, r2⟩ := a
  obtain ⟨u2, e2, f2⟩ := readBins_uses _ _ _ a2
  simp only [a2] at h
  cases g3 : intAt (tokens l2) 1 with
  | error e => rw [g3] at h; cases h
  | ok nSeg =>
  simp only [g3] at h
  cases a3 : readBins num 'm' (if t.radiograph = true then nSeg + 1 else nSeg) [] r2 with
  | error e => rw [a3] at h; cases h
  | ok a =>
  obtain ⟨seg, l3, r3⟩ := a
  obtain ⟨u3, e3, f3⟩ := readBins_uses _ _ _ a3
  simp only [a3] at h
  cases g4 : intAt (tokens l3) 1 with
  | error e => rw [g4] at h; cases h
  | ok nMul =>
  simp only [g4] at h
  cases a4 : skipTo 'c' r3 with
  | error e => rw [a4] at h; cases h
  | ok a =>
  obtain ⟨l4, r4⟩ := a
  obtain ⟨u4, e4, f4⟩ := skipTo_uses _ a4
  simp only [a4] at h
  cases g5 : intAt (tokens l4) 1 with
  | error e => rw [g5] at h; cases h
  | ok nCos =>
  simp only [g5] at h
  cases g6 : flagOf (tokens l4) with
  | error e => rw [g6] at h; cases h
  | ok cosFlag =>
  simp only [g6] at h
  cases a5 : readBins num 'e' (if t.radiograph = true then nCos + 1 else nCos) [] r4 with
  | error e => rw [a5] at h; cases h
  | ok a =>
  obtain ⟨cos, l5, r5⟩ := a
  obtain ⟨u5, e5, f5⟩ := readBins_uses _ _ _ a5
  simp only [a5] at h
  cases g7 : intAt (tokens l5) 1 with
  | error e => rw [g7] at h; cases h
  | ok nErg =>
  simp only [g7] at h
  cases g8 : flagOf (tokens l5) with
  | error e => rw [g8] at h; cases h
  | ok ergFlag =>
  simp only [g8] at h
  cases a6 : readBins num 't' nErg [] r5 with
  | error e => rw [a6] at h; cases h
  | ok a =>
  obtain ⟨erg, l6, r6⟩ := a
  obtain ⟨u6, e6, f6⟩ := readBins_uses _ _ _ a6
  simp only [a6] at h
  cases g9 : intAt (tokens l6) 1 with
  | error e => rw [g9] at h; cases h
  | ok nTim =>
  simp only [g9] at h
  cases g10 : flagOf (tokens l6) with
  | error e => rw [g10] at h; cases h
  | ok timFlag =>
  simp only [g10] at h
  cases a7 : readTimes num nTim [] r6 with
  | error e => rw [a7] at h; cases h
  | ok a =>
  obtain ⟨tim, r7⟩ := a
  obtain ⟨u7, v, e7, f7, d7⟩ := readTimes_uses _ _ a7
  simp only [a7, Except.ok.injEq, Prod.mk.injEq] at h
  refine ⟨u1 ++ (u2 ++ (u3 ++ (u4 ++ (u5 ++ (u6 ++ u7))))), v, ?_, fun s => ?_, ?_⟩
  · rw [e1, e2, e3, e4, e5, e6, e7, h.2]
    simp only [List.append_assoc]
  · have : (u1 ++ (u2 ++ (u3 ++ (u4 ++ (u5 ++ (u6 ++ u7))))) ++ [v]) ++ s = u1 ++ (u2 ++ (u3 ++ (u4 ++ (u5 ++ (u6 ++ ((u7 ++ [v]) ++ s)))))) := by
      simp only [List.append_assoc]
    rw [this]
    simp only [f1, g2, f2, g3, f3, g4, f4, g5, g6, f5, g7, g8, f6, g9, g10, f7, Except.ok.injEq, Prod.mk.injEq]
    exact ⟨h.1, trivial⟩
  · simp only [f1, g2, f2, g3, f3, g4, f4, g5, g6, f5, g7, g8, f6, g9, g10, d7]

/-! ## A tally: up to its values, and after them -/

/-- a tally up to its values: the last line of values and the lines after it (proof) -/
def headOf (num : ParseNum) (empty : List Nat → Num × Num) (line ls : List Str) : Except PyErr (Tally × Str × List Str) :=
  match parseStart line ls with
  | .error e => .error e
  | .ok (t, ls) =>
    match parseCells num t ls with
    | .error e => .error e
    | .ok (t, l, ls) =>
      match parseBins num t l ls with
      | .error e => .error e
      | .ok (t, ls) =>
        match readValues num empty t.shape ls with
        | .error e => .error e
        | .ok (v, l, ls) => .ok ({ t with vals := v }, l, ls)

/-- what follows the values (proof) -/
def tailOf (num : ParseNum) (t : Tally) (line : Str) (lines : List Str) : Except PyErr (Tally × Option (List Str) × List Str) :=
  if t.mesh then
    let r := skipMesh line lines
    .ok (t, if r.1 = [] then none else some (tokens r.1), r.2)
  else
    match tokens (strip (readline lines).1) with
    | [] => .error .indexError
    | w :: ws =>
      if w ≠ "tfc".toList then .error .ioError
      else
        match toInts ws with
        | .error e => .error e
        | .ok is =>
          if is.length ≠ 9 then .error .ioError
          else
            match readChart num (readline lines).2 with
            | .error e => .error e
            | .ok (ds, l, lines) => .ok ({ t with tfcJtf := is, tfcDat := ds }, if l = [] then none else some (tokens l), lines)

theorem parseTally_eq (num : ParseNum) (empty : List Nat → Num × Num) (line ls : List Str) :
    parseTally num empty line ls = match headOf num empty line ls with
      | .error e => .error e
      | .ok (t, l, ls) => tailOf num t l ls := by
  unfold parseTally headOf tailOf
  simp only [bind, Except.bind]
  cases parseStart line ls with
  | error e => rfl
  | ok a =>
    obtain ⟨t, ls⟩ := a
    simp only
    cases parseCells num t ls with
    | error e => rfl
    | ok a =>
      obtain ⟨t, l, ls⟩ := a
      simp only
      cases parseBins num t l ls with
      | error e => rfl
      | ok a =>
        obtain ⟨t, ls⟩ := a
        simp only
        unfold parseValues
        cases readValues num empty t.shape ls with
        | error e => rfl
        | ok a =>
          obtain ⟨v, l, ls⟩ := a
          rfl

theorem headOf_uses (num : ParseNum) (empty : List Nat → Num × Num) {line ls r : List Str} {t : Tally} {l : Str} (h : headOf num empty line ls = .ok (t, l, r)) :
    ∃ u, ls = u ++ r ∧ u ≠ [] ∧ (∀ s, headOf num empty line (u ++ s) = .ok (t, l, s)) ∧
      ∃ w, w <+: u ∧ w ≠ u ∧ parseTally num empty line w = .error .diverges := by
  unfold headOf at h
  cases h1 : parseStart line ls with
  | error e => rw [h1] at h; cases h
  | ok a =>
    obtain ⟨t1, r1⟩ := a
    simp only [h1] at h
    obtain ⟨u1, e1, n1, f1⟩ := parseStart_uses h1
    cases h2 : parseCells num t1 r1 with
    | error e => rw [h2] at h; cases h
    | ok a =>
      obtain ⟨t2, l2, r2⟩ := a
      simp only [h2] at h
      obtain ⟨u2, e2, f2⟩ := parseCells_uses num h2
      cases h3 : parseBins num t2 l2 r2 with
      | error e => rw [h3] at h; cases h
      | ok a =>
        obtain ⟨t3, r3⟩ := a
        simp only [h3] at h
        obtain ⟨u3, v, e3, f3, d3⟩ := parseBins_uses num h3
        cases h4 : readValues num empty t3.shape r3 with
        | error e => rw [h4] at h; cases h
        | ok a =>
          obtain ⟨vals, l4, r4⟩ := a
          simp only [h4, Except.ok.injEq, Prod.mk.injEq] at h
          obtain ⟨u4, e4, f4⟩ := readValues_uses num empty _ h4
          refine ⟨u1 ++ (u2 ++ ((u3 ++ [v]) ++ u4)), ?_, ?_, fun s => ?_, u1 ++ (u2 ++ u3), ?_, ?_, ?_⟩
          · rw [e1, e2, e3, e4, h.2.2]; simp only [List.append_assoc]
          · cases u1 with
            | nil => exact absurd rfl n1
            | cons y u => simp
          · have : u1 ++ (u2 ++ ((u3 ++ [v]) ++ u4)) ++ s = u1 ++ (u2 ++ ((u3 ++ [v]) ++ (u4 ++ s))) := by simp only [List.append_assoc]
            rw [this]
            unfold headOf
            simp only [f1, f2, f3, f4, Except.ok.injEq, Prod.mk.injEq]
            exact ⟨h.1, h.2.1, trivial⟩
          · exact ⟨[v] ++ u4, by simp only [List.append_assoc]⟩
          · intro hc
            have := congrArg List.length hc
            simp only [List.length_append, List.length_singleton] at this
            omega
          · unfold parseTally
            simp only [bind, Except.bind, f1, f2, d3]

theorem readChart_uses (num : ParseNum) {ls r : List Str} {ds : List (ℤ × List Num)} {l : Str} (h : readChart num ls = .ok (ds, l, r)) (hl : l ≠ []) :
    ∃ u, ls = u ++ r ∧ (∀ s, readChart num (u ++ s) = .ok (ds, l, s)) ∧ ∃ w, w <+: u ∧ w ≠ u ∧ readChart num w = .ok (ds, [], []) := by
  induction ls generalizing ds with
  | nil => simp only [readChart, Except.ok.injEq, Prod.mk.injEq] at h; exact absurd h.2.1.symm hl
  | cons x ls ih =>
    rw [readChart] at h
    by_cases hx : contains "tally".toList (strip x) = true ∨ strip x = []
    · rw [if_pos hx, Except.ok.injEq, Prod.mk.injEq, Prod.mk.injEq] at h
      exact ⟨[x], by rw [h.2.2]; rfl, fun s => by rw [List.singleton_append, readChart, if_pos hx, h.1, h.2.1], [], by simp, by simp, by rw [readChart, h.1]⟩
    · rw [if_neg hx] at h
      cases h1 : chartLine num (tokens (strip x)) with
      | error e => rw [h1] at h; cases h
      | ok d =>
        simp only [h1] at h
        cases h2 : readChart num ls with
        | error e => rw [h2] at h; cases h
        | ok a =>
          obtain ⟨ds', l', r'⟩ := a
          simp only [h2, Except.ok.injEq, Prod.mk.injEq] at h
          obtain ⟨rfl, rfl, rfl⟩ := h
          obtain ⟨u, hu, hr, w, hw, hne, hwr⟩ := ih h2
          refine ⟨x :: u, by rw [hu]; rfl, fun s => by rw [List.cons_append, readChart, if_neg hx]; simp only [h1, hr s], x :: w, ?_, ?_, ?_⟩
          · obtain ⟨z, rfl⟩ := hw; exact ⟨z, rfl⟩
          · simpa using hne
          · rw [readChart, if_neg hx]; simp only [h1, hwr]

theorem readChart_prefix (num : ParseNum) {ls r s r' : List Str} {ds ds' : List (ℤ × List Num)} {l l' : Str} (h : readChart num ls = .ok (ds, l, r))
    (h' : readChart num (ls ++ s) = .ok (ds', l', r')) : ds <+: ds' := by
  induction ls generalizing ds ds' l l' r r' with
  | nil => simp only [readChart, Except.ok.injEq, Prod.mk.injEq] at h; rw [← h.1]; exact List.nil_prefix
  | cons x ls ih =>
    rw [readChart] at h
    rw [List.cons_append, readChart] at h'
    by_cases hx : contains "tally".toList (strip x) = true ∨ strip x = []
    · rw [if_pos hx, Except.ok.injEq, Prod.mk.injEq] at h
      rw [← h.1]; exact List.nil_prefix
    · rw [if_neg hx] at h h'
      cases h1 : chartLine num (tokens (strip x)) with
      | error e => rw [h1] at h; cases h
      | ok d =>
        simp only [h1] at h h'
        cases h2 : readChart num ls with
        | error e => rw [h2] at h; cases h
        | ok a =>
          obtain ⟨e1, e2, e3⟩ := a
          cases h3 : readChart num (ls ++ s) with
          | error e => rw [h3] at h'; cases h'
          | ok b =>
            obtain ⟨g1, g2, g3⟩ := b
            simp only [h2, Except.ok.injEq, Prod.mk.injEq] at h
            simp only [h3, Except.ok.injEq, Prod.mk.injEq] at h'
            rw [← h.1, ← h'.1]
            obtain ⟨z, hz⟩ := ih h2 h3
            exact ⟨z, by rw [List.cons_append, hz]⟩

theorem skipMesh_uses {line l : Str} {ls r : List Str} (h : skipMesh line ls = (l, r)) (hl : l ≠ []) :
    ∃ u, ls = u ++ r ∧ ∀ s, skipMesh line (u ++ s) = (l, s) := by
  induction ls generalizing line with
  | nil =>
    rw [skipMesh] at h
    by_cases hx : contains "tally".toList line = true ∨ line = []
    · rw [if_pos hx, Prod.mk.injEq] at h
      refine ⟨[], by rw [← h.2]; rfl, fun s => ?_⟩
      cases s with
      | nil => rw [List.append_nil, skipMesh, if_pos hx, h.1]
      | cons y s => rw [List.nil_append, skipMesh, if_pos hx, h.1]
    · rw [if_neg hx, Prod.mk.injEq] at h
      exact absurd h.1.symm hl
  | cons x ls ih =>
    rw [skipMesh] at h
    by_cases hx : contains "tally".toList line = true ∨ line = []
    · rw [if_pos hx, Prod.mk.injEq] at h
      refine ⟨[], by rw [← h.2]; rfl, fun s => ?_⟩
      cases s with
      | nil => rw [List.append_nil, skipMesh, if_pos hx, h.1]
      | cons y s => rw [List.nil_append, skipMesh, if_pos hx, h.1]
    · rw [if_neg hx] at h
      obtain ⟨u, hu, hr⟩ := ih h
      exact ⟨x :: u, by rw [hu]; rfl, fun s => by rw [List.cons_append, skipMesh, if_neg hx, hr]⟩

theorem tail_tfc {num : ParseNum} {t t' : Tally} {l : Str} {ls r : List Str} {nx : Option (List Str)} (hm : t.mesh = false)
    (h : tailOf num t l ls = .ok (t', nx, r)) :
    ∃ x ls' is ds l', ls = x :: ls' ∧ readChart num ls' = .ok (ds, l', r) ∧ t' = { t with tfcJtf := is, tfcDat := ds } ∧
      nx = (if l' = [] then none else some (tokens l')) ∧
      ∀ s ds2 l2 r2, readChart num s = .ok (ds2, l2, r2) →
        tailOf num t l (x :: s) = .ok ({ t with tfcJtf := is, tfcDat := ds2 }, if l2 = [] then none else some (tokens l2), r2) := by
  have hm' : ¬ t.mesh = true := by rw [hm]; decide
  unfold tailOf at h
  rw [if_neg hm'] at h
  cases ls with
  | nil =>
    have : tokens (strip (readline []).1) = [] := by decide
    rw [this] at h
    cases h
  | cons x ls' =>
    simp only [readline] at h
    cases h1 : tokens (strip x) with
    | nil => rw [h1] at h; cases h
    | cons w ws =>
      simp only [h1] at h
      by_cases hw : w ≠ "tfc".toList
      · rw [if_pos hw] at h; cases h
      rw [if_neg hw] at h
      cases h2 : toInts ws with
      | error e => rw [h2] at h; cases h
      | ok is =>
        simp only [h2] at h
        by_cases h9 : is.length ≠ 9
        · rw [if_pos h9] at h; cases h
        rw [if_neg h9] at h
        cases h3 : readChart num ls' with
        | error e => rw [h3] at h; cases h
        | ok a =>
          obtain ⟨ds, l', r'⟩ := a
          simp only [h3, Except.ok.injEq, Prod.mk.injEq] at h
          refine ⟨x, ls', is, ds, l', rfl, by rw [h3, h.2.2], h.1.symm, h.2.1.symm, fun s ds2 l2 r2 hs => ?_⟩
          unfold tailOf
          rw [if_neg hm']
          simp only [readline, h1]
          rw [if_neg hw]
          simp only [h2]
          rw [if_neg h9]
          simp only [hs]

theorem parseTally_uses (num : ParseNum) (empty : List Nat → Num × Num) {line ls r nx : List Str} {t : Tally}
    (h : parseTally num empty line ls = .ok (t, some nx, r)) :
    ∃ u, ls = u ++ r ∧ u ≠ [] ∧ ∀ s, parseTally num empty line (u ++ s) = .ok (t, some nx, s) := by
  rw [parseTally_eq] at h
  cases h1 : headOf num empty line ls with
  | error e => rw [h1] at h; cases h
  | ok a =>
    obtain ⟨t1, l1, r1⟩ := a
    simp only [h1] at h
    obtain ⟨u1, e1, n1, f1, -⟩ := headOf_uses num empty h1
    suffices hs : ∃ u2, r1 = u2 ++ r ∧ ∀ s, tailOf num t1 l1 (u2 ++ s) = .ok (t, some nx, s) by
      obtain ⟨u2, e2, f2⟩ := hs
      refine ⟨u1 ++ u2, by rw [e1, e2, List.append_assoc], by simp [n1], fun s => ?_⟩
      rw [parseTally_eq, List.append_assoc, f1]
      exact f2 s
    cases hm : t1.mesh with
    | true =>
      unfold tailOf at h ⊢
      simp only [hm, if_true, Except.ok.injEq, Prod.mk.injEq] at h ⊢
      obtain ⟨ht, hn, hr⟩ := h
      have hne : (skipMesh l1 r1).1 ≠ [] := by intro hc; rw [if_pos hc] at hn; cases hn
      rw [if_neg hne] at hn
      obtain ⟨u, hu, hr'⟩ := skipMesh_uses (line := l1) (ls := r1) (Prod.ext rfl rfl) hne
      refine ⟨u, by rw [← hr]; exact hu, fun s => ?_⟩
      rw [hr' s]
      simp only [if_neg hne, hn]
      exact ⟨ht, trivial, trivial⟩
    | false =>
      obtain ⟨x, ls', is, ds, l', e, hc, ht, hn, hk⟩ := tail_tfc hm h
      have hne : l' ≠ [] := by intro hc; rw [if_pos hc] at hn; cases hn
      obtain ⟨u, hu, hr, -⟩ := readChart_uses num hc hne
      refine ⟨x :: u, by rw [e, hu]; rfl, fun s => ?_⟩
      rw [List.cons_append, hk _ _ _ _ (hr s), ht, hn]

/-! ## Files that were cut off -/

theorem append_split {a x u r : List Str} (h : a ++ x = u ++ r) (hl : x.length ≤ r.length) : ∃ a', a = u ++ a' ∧ r = a' ++ x := by
  rcases List.append_eq_append_iff.1 h with ⟨c, h1, h2⟩ | ⟨c, h1, h2⟩
  · have : c = [] := by
      have := congrArg List.length h2
      rw [List.length_append] at this
      exact List.eq_nil_of_length_eq_zero (by omega)
    rw [this, List.append_nil] at h1
    rw [this, List.nil_append] at h2
    exact ⟨[], by rw [h1, List.append_nil], by rw [← h2]; rfl⟩
  · exact ⟨c, h1, h2⟩

/-- a tally without its fluctuation chart (specification) -/
def Tally.noChart (t : Tally) : Tally := { t with tfcJtf := [], tfcDat := [] }

theorem tallies_nil (num : ParseNum) (empty : List Nat → Num × Num) (fuel : Nat) (line : List Str) :
    ∃ e, parseTallies num empty fuel line [] = .error e := by
  cases fuel with
  | zero => exact ⟨_, rfl⟩
  | succ fuel =>
    cases h : parseTally num empty line [] with
    | error e => exact ⟨e, by rw [parseTallies, h]⟩
    | ok a =>
      exfalso
      obtain ⟨t, nx, r⟩ := a
      rw [parseTally_eq] at h
      cases h1 : headOf num empty line [] with
      | error e => rw [h1] at h; cases h
      | ok a =>
        obtain ⟨t1, l1, r1⟩ := a
        obtain ⟨u, hu, hn, -⟩ := headOf_uses num empty h1
        exact hn (List.append_eq_nil_iff.1 hu.symm).1

theorem tally_end (num : ParseNum) (empty : List Nat → Num × Num) {line a x y r r' : List Str} {nx nx' : Option (List Str)} {t t' : Tally} (hx : x.length ≤ 1)
    (h : parseTally num empty line (a ++ x) = .ok (t, nx, r)) (h' : parseTally num empty line (a ++ y) = .ok (t', nx', r')) :
    (t.mesh = false → t.noChart = t'.noChart) ∧ (x = [] → { t' with tfcDat := t.tfcDat } = t ∧ (t.mesh = true ∨ t.tfcDat <+: t'.tfcDat)) := by
  rw [parseTally_eq] at h h'
  cases h1 : headOf num empty line (a ++ x) with
  | error e => rw [h1] at h; cases h
  | ok b =>
    obtain ⟨t1, l1, r1⟩ := b
    simp only [h1] at h
    obtain ⟨u1, e1, n1, f1, -⟩ := headOf_uses num empty h1
    cases hm : t1.mesh with
    | true =>
      have ht : t1 = t := by
        unfold tailOf at h
        rw [if_pos hm, Except.ok.injEq, Prod.mk.injEq] at h
        exact h.1
      subst ht
      refine ⟨fun hc => absurd (hm.symm.trans hc) (by decide), fun hx0 => ?_⟩
      subst hx0
      obtain ⟨a', ha, hr⟩ := append_split e1 (Nat.zero_le _)
      rw [ha, List.append_assoc, f1] at h'
      simp only at h'
      unfold tailOf at h'
      rw [if_pos hm, Except.ok.injEq, Prod.mk.injEq] at h'
      rw [← h'.1]
      exact ⟨rfl, Or.inl hm⟩
    | false =>
      obtain ⟨z, ls', is, ds, l', e, hc, ht, hn, hk⟩ := tail_tfc hm h
      obtain ⟨a', ha, hr⟩ := append_split e1 (by rw [e]; simp only [List.length_cons]; omega)
      rw [ha, List.append_assoc, f1] at h'
      simp only at h'
      obtain ⟨z2, ls2, is2, ds2, l2, e2, hc2, ht2, hn2, hk2⟩ := tail_tfc hm h'
      refine ⟨fun _ => by rw [ht, ht2]; rfl, fun hx0 => ?_⟩
      subst hx0
      rw [List.append_nil] at hr
      rw [← hr, e, List.cons_append, List.cons.injEq] at e2
      obtain ⟨rfl, e2⟩ := e2
      rw [← e2] at hc2
      have hkk := hk _ _ _ _ hc2
      rw [← hr, e, List.cons_append, hkk, Except.ok.injEq, Prod.mk.injEq] at h'
      refine ⟨by rw [ht, ← h'.1], Or.inr ?_⟩
      rw [ht, ← h'.1]
      exact readChart_prefix num hc hc2

theorem tallies_cut (num : ParseNum) (empty : List Nat → Num × Num) {fuel fuel' : Nat} {line a x y : List Str} {ts ts' : List Tally} (hx : x.length ≤ 1)
    (h : parseTallies num empty fuel line (a ++ x) = .ok ts) (h' : parseTallies num empty fuel' line (a ++ y) = .ok ts') :
    ∃ us t t' vs, ts = us ++ [t] ∧ ts' = us ++ t' :: vs ∧ (t.mesh = false → t.noChart = t'.noChart) ∧
      (x = [] → { t' with tfcDat := t.tfcDat } = t ∧ (t.mesh = true ∨ t.tfcDat <+: t'.tfcDat)) := by
  induction fuel generalizing line a fuel' ts ts' with
  | zero => rw [parseTallies] at h; cases h
  | succ fuel ih =>
    cases fuel' with
    | zero => rw [parseTallies] at h'; cases h'
    | succ fuel' =>
      rw [parseTallies] at h h'
      cases h1 : parseTally num empty line (a ++ x) with
      | error e => rw [h1] at h; cases h
      | ok b =>
        obtain ⟨t, nx, r⟩ := b
        cases nx with
        | none =>
          simp only [h1, Except.ok.injEq] at h
          cases h2 : parseTally num empty line (a ++ y) with
          | error e => rw [h2] at h'; cases h'
          | ok b =>
            obtain ⟨t', nx', r'⟩ := b
            have he := tally_end num empty hx h1 h2
            cases nx' with
            | none =>
              simp only [h2, Except.ok.injEq] at h'
              exact ⟨[], t, t', [], h.symm, h'.symm, he⟩
            | some nx' =>
              simp only [h2] at h'
              cases h3 : parseTallies num empty fuel' nx' r' with
              | error e => rw [h3] at h'; cases h'
              | ok vs =>
                simp only [h3, Except.ok.injEq] at h'
                exact ⟨[], t, t', vs, h.symm, h'.symm, he⟩
        | some nx =>
          simp only [h1] at h
          obtain ⟨u, hu, hn, hf⟩ := parseTally_uses num empty h1
          have hr : r ≠ [] := by
            rintro rfl
            obtain ⟨e, he⟩ := tallies_nil num empty fuel nx
            rw [he] at h; cases h
          obtain ⟨a', ha, hr'⟩ := append_split hu (by have := List.length_pos_iff.2 hr; omega)
          rw [ha, List.append_assoc, hf] at h'
          simp only at h'
          cases h3 : parseTallies num empty fuel nx r with
          | error e => rw [h3] at h; cases h
          | ok ts1 =>
            simp only [h3, Except.ok.injEq] at h
            cases h4 : parseTallies num empty fuel' nx (a' ++ y) with
            | error e => rw [h4] at h'; cases h'
            | ok ts2 =>
              simp only [h4, Except.ok.injEq] at h'
              rw [hr'] at h3
              obtain ⟨us, t1, t2, vs, e1, e2, e3⟩ := ih h3 h4
              exact ⟨t :: us, t1, t2, vs, by rw [← h, e1]; rfl, by rw [← h', e2]; rfl, e3⟩

theorem readNtals_uses {ls r line : List Str} {is : List ℤ} (h : readNtals ls = .ok (is, line, r)) :
    ∃ u, ls = u ++ r ∧ ∀ s, readNtals (u ++ s) = .ok (is, line, s) := by
  induction ls generalizing is with
  | nil => simp [readNtals] at h
  | cons x ls ih =>
    rw [readNtals] at h
    cases h1 : tokens x with
    | nil => rw [h1] at h; cases h
    | cons w ws =>
      simp only [h1] at h
      by_cases hw : w.map Char.toLower = "tally".toList
      · rw [if_pos hw, Except.ok.injEq, Prod.mk.injEq, Prod.mk.injEq] at h
        refine ⟨[x], by rw [h.2.2]; rfl, fun s => ?_⟩
        rw [List.singleton_append, readNtals]
        simp only [h1]
        rw [if_pos hw, h.1, h.2.1]
      · rw [if_neg hw] at h
        cases h2 : toInts (w :: ws) with
        | error e => rw [h2] at h; cases h
        | ok js =>
          simp only [h2] at h
          cases h3 : readNtals ls with
          | error e => rw [h3] at h; cases h
          | ok b =>
            obtain ⟨is', line', r'⟩ := b
            simp only [h3, Except.ok.injEq, Prod.mk.injEq] at h
            obtain ⟨rfl, rfl, rfl⟩ := h
            obtain ⟨u, hu, hf⟩ := ih h3
            refine ⟨x :: u, by rw [hu]; rfl, fun s => ?_⟩
            rw [List.cons_append, readNtals]
            simp only [h1]
            rw [if_neg hw]
            simp only [h2, hf s]

/-- the first line of the header (proof) -/
def headFirst (ws : List Str) : Except PyErr Header :=
  if ws.length = 7 then
    match intAt ws 4 with
    | .error e => .error e
    | .ok knod => match intAt ws 5 with
      | .error e => .error e
      | .ok nps => match intAt ws 6 with
        | .error e => .error e
        | .ok rnr => .ok { kod := ws.getD 0 [], ver := ws.getD 1 [], probid := [ws.getD 2 [], ws.getD 3 []], knod, nps, rnr }
  else if ws.length = 3 then
    match intAt ws 0 with
    | .error e => .error e
    | .ok knod => match intAt ws 1 with
      | .error e => .error e
      | .ok nps => match intAt ws 2 with
        | .error e => .error e
        | .ok rnr => .ok { knod, nps, rnr }
  else .ok {}

/-- the header after its first line (proof) -/
def headRest (h : Header) (l2 l3 : Str) (lines : List Str) : Except PyErr (Header × List Str × List Str) :=
  match intAt (tokens l3) 1 with
  | .error e => .error e
  | .ok ntal =>
    if ntal = 0 then .error .typeError
    else if (tokens l3).length = 4 then
      match intAt (tokens l3) 3 with
      | .error e => .error e
      | .ok _ => .error .typeError
    else
      match readNtals lines with
      | .error e => .error e
      | .ok (ntals, line, lines) => .ok ({ h with title := strip l2, ntal, ntals }, line, lines)

theorem readHeader_eq (ls : List Str) :
    readHeader ls = match headFirst (tokens (readline ls).1) with
      | .error e => .error e
      | .ok h => headRest h (readline (readline ls).2).1 (readline (readline (readline ls).2).2).1 (readline (readline (readline ls).2).2).2 := by
  unfold readHeader headFirst headRest
  simp only [bind, Except.bind, pure, Except.pure, throw, throwThe, MonadExceptOf.throw]
  generalize (readline (readline (readline ls).2).2).2 = rest
  generalize (readline (readline (readline ls).2).2).1 = l3
  generalize (readline (readline ls).2).1 = l2
  generalize (readline ls).1 = l1
  by_cases h7 : (tokens l1).length = 7
  · simp only [if_pos h7]
    cases intAt (tokens l1) 4 with
    | error e => rfl
    | ok v4 =>
    simp only
    cases intAt (tokens l1) 5 with
    | error e => rfl
    | ok v5 =>
    simp only
    cases intAt (tokens l1) 6 with
    | error e => rfl
    | ok v6 =>
    simp only
    cases intAt (tokens l3) 1 with
    | error e => rfl
    | ok ntal =>
      simp only
      split
      · rfl
      · split
        · cases intAt (tokens l3) 3 <;> rfl
        · cases readNtals rest <;> rfl
  · simp only [if_neg h7]
    by_cases h3 : (tokens l1).length = 3
    · simp only [if_pos h3]
      cases intAt (tokens l1) 0 with
      | error e => rfl
      | ok v0 =>
      simp only
      cases intAt (tokens l1) 1 with
      | error e => rfl
      | ok v1 =>
      simp only
      cases intAt (tokens l1) 2 with
      | error e => rfl
      | ok v2 =>
      simp only
      cases intAt (tokens l3) 1 with
      | error e => rfl
      | ok ntal =>
        simp only
        split
        · rfl
        · split
          · cases intAt (tokens l3) 3 <;> rfl
          · cases readNtals rest <;> rfl
    · simp only [if_neg h3]
      cases intAt (tokens l3) 1 with
      | error e => rfl
      | ok ntal =>
        simp only
        split
        · rfl
        · split
          · cases intAt (tokens l3) 3 <;> rfl
          · cases readNtals rest <;> rfl

theorem readHeader_uses {ls r line : List Str} {hd : Header} (h : readHeader ls = .ok (hd, line, r)) :
    ∃ u, ls = u ++ r ∧ ∀ s, readHeader (u ++ s) = .ok (hd, line, s) := by
  rw [readHeader_eq] at h
  cases h0 : headFirst (tokens (readline ls).1) with
  | error e => rw [h0] at h; cases h
  | ok hd0 =>
    simp only [h0] at h
    match ls, h, h0 with
    | [], h, _ => simp [headRest, readline, tokens_nil, intAt] at h
    | [_], h, _ => simp [headRest, readline, tokens_nil, intAt] at h
    | [_, _], h, _ => simp [headRest, readline, tokens_nil, intAt] at h
    | l1 :: l2 :: l3 :: rest, h, h0 =>
      simp only [readline] at h h0
      unfold headRest at h
      cases k1 : intAt (tokens l3) 1 with
      | error e => rw [k1] at h; cases h
      | ok ntal =>
        simp only [k1] at h
        by_cases hz : ntal = 0
        · rw [if_pos hz] at h; cases h
        rw [if_neg hz] at h
        by_cases h4 : (tokens l3).length = 4
        · rw [if_pos h4] at h
          cases k2 : intAt (tokens l3) 3 with
          | error e => rw [k2] at h; cases h
          | ok q => rw [k2] at h; cases h
        rw [if_neg h4] at h
        cases h5 : readNtals rest with
        | error e => rw [h5] at h; cases h
        | ok b =>
          obtain ⟨is, line', r'⟩ := b
          simp only [h5, Except.ok.injEq, Prod.mk.injEq] at h
          obtain ⟨u, hu, hf⟩ := readNtals_uses h5
          refine ⟨l1 :: l2 :: l3 :: u, by rw [hu, h.2.2]; rfl, fun s => ?_⟩
          rw [readHeader_eq]
          simp only [List.cons_append, readline, h0]
          unfold headRest
          simp only [k1]
          rw [if_neg hz, if_neg h4]
          simp only [hf s, Except.ok.injEq, Prod.mk.injEq]
          exact ⟨h.1, h.2.1, trivial⟩

/-- **C206.** Whatever part of a MCTAL file is left when it is cut off (its first lines `a`, with or without the beginning `p` of another one): if it is read at
all, the header is that of the whole file; all tallies but the last are those of the whole file; the last one is the next tally of the whole file, with the same
bins, values and errors if it is no mesh, only its fluctuation chart may be shorter or wrong. Partial: `y` is the rest of the whole file. False as stated (a file
that was cut off is refused): `cut_tallies_lost`, `cut_never_ends`, `cut_mesh_wrong`. -/
theorem cut_values_partial (num : ParseNum) (empty : List Nat → Num × Num) {a x y : List Str} (hx : x.length ≤ 1) {h h' : Header} {ts ts' : List Tally}
    (hc : readMctal num empty (a ++ x) = .ok (h, ts)) (hf : readMctal num empty (a ++ y) = .ok (h', ts')) :
    h = h' ∧ ∃ us t t' vs, ts = us ++ [t] ∧ ts' = us ++ t' :: vs ∧ (t.mesh = false → t.noChart = t'.noChart) ∧
      (x = [] → { t' with tfcDat := t.tfcDat } = t ∧ (t.mesh = true ∨ t.tfcDat <+: t'.tfcDat)) := by
  unfold readMctal at hc hf
  cases h1 : readHeader (a ++ x) with
  | error e => rw [h1] at hc; cases hc
  | ok b =>
    obtain ⟨hd, line, rest⟩ := b
    simp only [h1] at hc
    cases h2 : parseTallies num empty ((a ++ x).length + 1) line rest with
    | error e => rw [h2] at hc; cases hc
    | ok us =>
      simp only [h2, Except.ok.injEq, Prod.mk.injEq] at hc
      obtain ⟨u, hu, hr⟩ := readHeader_uses h1
      have hne : rest ≠ [] := by
        rintro rfl
        obtain ⟨e, he⟩ := tallies_nil num empty ((a ++ x).length + 1) line
        rw [he] at h2; cases h2
      obtain ⟨a', ha, hr'⟩ := append_split hu (by have := List.length_pos_iff.2 hne; omega)
      have e1 : readHeader (a ++ y) = .ok (hd, line, a' ++ y) := by rw [ha, List.append_assoc]; exact hr _
      simp only [e1] at hf
      cases h3 : parseTallies num empty ((a ++ y).length + 1) line (a' ++ y) with
      | error e => rw [h3] at hf; cases hf
      | ok vs =>
        simp only [h3, Except.ok.injEq, Prod.mk.injEq] at hf
        rw [hr'] at h2
        have := tallies_cut num empty hx h2 h3
        rw [hc.2, hf.2] at this
        exact ⟨hc.1.symm.trans hf.1, this⟩

/-- **C206 (negation).** Every MCTAL file that can be read can be cut off so that reading what is left never ends. -/
theorem cut_never_ends (num : ParseNum) (empty : List Nat → Num × Num) {f : List Str} {h : Header} {ts : List Tally} (hf : readMctal num empty f = .ok (h, ts)) :
    ∃ n < f.length, readMctal num empty (f.take n) = .error .diverges := by
  unfold readMctal at hf
  cases h1 : readHeader f with
  | error e => rw [h1] at hf; cases hf
  | ok b =>
    obtain ⟨hd, line, rest⟩ := b
    simp only [h1] at hf
    obtain ⟨u, hu, hr⟩ := readHeader_uses h1
    rw [parseTallies] at hf
    cases h2 : parseTally num empty line rest with
    | error e => rw [h2] at hf; cases hf
    | ok c =>
      obtain ⟨t, nx, r⟩ := c
      rw [parseTally_eq] at h2
      cases h3 : headOf num empty line rest with
      | error e => rw [h3] at h2; cases h2
      | ok c =>
        obtain ⟨t1, l1, r1⟩ := c
        obtain ⟨u1, e1, -, -, w, hw, hne, hd⟩ := headOf_uses num empty h3
        obtain ⟨z, rfl⟩ := hw
        have hz : z ≠ [] := by rintro rfl; exact hne (List.append_nil w).symm
        have hz' := List.length_pos_iff.2 hz
        refine ⟨(u ++ w).length, ?_, ?_⟩
        · rw [hu, e1]; simp only [List.length_append]; omega
        · have e2 : f.take (u ++ w).length = u ++ w := by
            rw [hu, e1, show u ++ (w ++ z ++ r1) = (u ++ w) ++ (z ++ r1) from by simp only [List.append_assoc]]
            exact List.take_left
          rw [e2]
          unfold readMctal
          simp only [hr w]
          rw [parseTallies, hd]

theorem tallies_drop (num : ParseNum) (empty : List Nat → Num × Num) {fuel : Nat} {line ls : List Str} {us vs : List Tally} {t t' : Tally} (hm : t.mesh = false)
    (h : parseTallies num empty fuel line ls = .ok (us ++ t :: t' :: vs)) :
    ∃ w, w <+: ls ∧ w ≠ ls ∧ us.length ≤ w.length ∧ ∀ k, us.length < k → parseTallies num empty k line w = .ok (us ++ [t]) := by
  induction us generalizing fuel line ls with
  | nil =>
    cases fuel with
    | zero => rw [parseTallies] at h; cases h
    | succ fuel =>
      rw [parseTallies] at h
      cases h1 : parseTally num empty line ls with
      | error e => rw [h1] at h; cases h
      | ok c =>
        obtain ⟨t1, nx, r⟩ := c
        cases nx with
        | none => simp only [h1, Except.ok.injEq, List.nil_append, List.cons.injEq] at h; exact absurd h.2 (by simp)
        | some nx =>
          simp only [h1] at h
          have ht : t1 = t := by
            cases h2 : parseTallies num empty fuel nx r with
            | error e => rw [h2] at h; cases h
            | ok ts => simp only [h2, Except.ok.injEq, List.nil_append, List.cons.injEq] at h; exact h.1
          subst ht
          rw [parseTally_eq] at h1
          cases h3 : headOf num empty line ls with
          | error e => rw [h3] at h1; cases h1
          | ok c =>
            obtain ⟨t2, l2, r2⟩ := c
            simp only [h3] at h1
            obtain ⟨u, hu, hn, hf, -⟩ := headOf_uses num empty h3
            have hm2 : t2.mesh = false := by
              cases hmm : t2.mesh with
              | false => rfl
              | true =>
                unfold tailOf at h1
                rw [if_pos hmm, Except.ok.injEq, Prod.mk.injEq] at h1
                rw [h1.1, hm] at hmm
                cases hmm
            obtain ⟨x, ls', is, ds, l', e, hc, ht, hnx, hk⟩ := tail_tfc hm2 h1
            have hne : l' ≠ [] := by intro hc; rw [if_pos hc] at hnx; cases hnx
            obtain ⟨v, hv, -, w, hw, hwne, hwr⟩ := readChart_uses num hc hne
            obtain ⟨z, rfl⟩ := hw
            have hz : z ≠ [] := by rintro rfl; exact hwne (List.append_nil w).symm
            refine ⟨u ++ x :: w, ⟨z ++ r, ?_⟩, ?_, Nat.zero_le _, fun k hk' => ?_⟩
            · rw [hu, e, hv]; simp only [List.append_assoc, List.cons_append]
            · intro hc
              rw [hu, e, hv] at hc
              have := congrArg List.length hc
              have := List.length_pos_iff.2 hz
              simp only [List.length_append, List.length_cons] at *
              omega
            · cases k with
              | zero => cases hk'
              | succ k =>
                rw [parseTallies, parseTally_eq, hf]
                simp only
                rw [hk _ _ _ _ hwr, if_pos rfl]
                simp only [List.nil_append]
                rw [ht]
  | cons s us ih =>
    cases fuel with
    | zero => rw [parseTallies] at h; cases h
    | succ fuel =>
      rw [parseTallies] at h
      cases h1 : parseTally num empty line ls with
      | error e => rw [h1] at h; cases h
      | ok c =>
        obtain ⟨t1, nx, r⟩ := c
        cases nx with
        | none => simp only [h1, Except.ok.injEq, List.cons_append, List.cons.injEq] at h; exact absurd h.2 (by simp)
        | some nx =>
          simp only [h1] at h
          cases h2 : parseTallies num empty fuel nx r with
          | error e => rw [h2] at h; cases h
          | ok ts =>
            simp only [h2, Except.ok.injEq, List.cons_append, List.cons.injEq] at h
            rw [h.2] at h2
            obtain ⟨w, hw, hwne, hl, hk⟩ := ih h2
            obtain ⟨u, hu, hn, hf⟩ := parseTally_uses num empty h1
            obtain ⟨z, rfl⟩ := hw
            refine ⟨u ++ w, ⟨z, by rw [hu, List.append_assoc]⟩, ?_, ?_, fun k hk' => ?_⟩
            · rw [hu]; intro hc; exact hwne (List.append_cancel_left hc)
            · have := List.length_pos_iff.2 hn
              simp only [List.length_append, List.length_cons]
              omega
            · cases k with
              | zero => cases hk'
              | succ k =>
                rw [parseTallies, hf]
                simp only
                rw [hk k (by simpa using hk')]
                simp only [h.1, List.cons_append]

/-- **C206 (negation).** In every MCTAL file that can be read, with two or more tallies, after any of them but the last (that is no mesh) the file can be cut off
so that what is left is read without a message, with the tallies up to that one only. -/
theorem cut_tallies_lost (num : ParseNum) (empty : List Nat → Num × Num) {f : List Str} {h : Header} {us vs : List Tally} {t t' : Tally} (hm : t.mesh = false)
    (hf : readMctal num empty f = .ok (h, us ++ t :: t' :: vs)) : ∃ n < f.length, readMctal num empty (f.take n) = .ok (h, us ++ [t]) := by
  unfold readMctal at hf
  cases h1 : readHeader f with
  | error e => rw [h1] at hf; cases hf
  | ok b =>
    obtain ⟨hd, line, rest⟩ := b
    simp only [h1] at hf
    obtain ⟨u, hu, hr⟩ := readHeader_uses h1
    cases h2 : parseTallies num empty (f.length + 1) line rest with
    | error e => rw [h2] at hf; cases hf
    | ok ts =>
      simp only [h2, Except.ok.injEq, Prod.mk.injEq] at hf
      rw [hf.2] at h2
      obtain ⟨w, ⟨z, hz⟩, hne, hl, hk⟩ := tallies_drop num empty hm h2
      have hz0 : z ≠ [] := by rintro rfl; exact hne (by rw [← hz, List.append_nil])
      have hz' := List.length_pos_iff.2 hz0
      refine ⟨(u ++ w).length, ?_, ?_⟩
      · rw [hu, ← hz]; simp only [List.length_append]; omega
      · have e2 : f.take (u ++ w).length = u ++ w := by
          rw [hu, ← hz, ← List.append_assoc]
          exact List.take_left
        rw [e2]
        unfold readMctal
        simp only [hr w]
        rw [hk _ (by simp only [List.length_append]; omega)]
        simp only [hf.1]

/-- a file with a cell tally and a mesh tally whose last line is `l` (example) -/
def exCut (l : String) : List Str :=
  exHeadLines ++ ("tally 14 1 0".toList :: exBody1 ++ ("tally 24 1 -1".toList :: exBody2.dropLast ++ [l.toList]))

/-- **C206 (negation).** The last number of a mesh can be read wrong: here the line of values `5 0 16 12` was cut off to `5 0 16 1`, and the file is read, with the
error 1 instead of 12. -/
theorem cut_mesh_wrong : " 5 0 16 1".toList <+: " 5 0 16 12".toList ∧
    (readMctal exFloat (fun _ => (none, none)) (exCut " 5 0 16 12")).map (fun r => r.2.map (fun t => t.vals [0, 0, 0, 0, 0, 0, 0, 0, 1, 0, 0])) =
      .ok [(none, none), (some 16, some 12)] ∧
    (readMctal exFloat (fun _ => (none, none)) (exCut " 5 0 16 1")).map (fun r => r.2.map (fun t => t.vals [0, 0, 0, 0, 0, 0, 0, 0, 1, 0, 0])) =
      .ok [(none, none), (some 16, some 1)] := by decide +kernel

/-- the hypotheses of the theorems above are met: the file of two tallies, and the part of it without the second (example) -/
example : (readMctal exFloat (fun _ => (none, none)) (exCut " 5 0 16 12")).map (fun r => (r.1.ntal, r.2.map (·.mesh))) = .ok (2, [false, true]) ∧
    (readMctal exFloat (fun _ => (none, none)) ((exCut " 5 0 16 12").take 23)).map (fun r => (r.1.ntal, r.2.map (·.mesh))) = .ok (2, [false]) ∧
    (readMctal exFloat (fun _ => (none, none)) ((exCut " 5 0 16 12").take 22 ++ [" 100 11".toList])).map (fun r => r.1.ntal) = .error .indexError ∧
    (readMctal exFloat (fun _ => (none, none)) ((exCut " 5 0 16 12").take 18)).map (fun r => r.1.ntal) = .error .diverges := by decide +kernel

end F4Enix.Mctal
