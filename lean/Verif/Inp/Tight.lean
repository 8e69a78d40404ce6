import Verif.Inp.MergeProps
import Verif.Inp.MaterialProps
/-!
# Further theorems about extraction, keys and names

Added after wrong programs had survived the first ones: what `extract_universe` extracts, the number part of a key,
letter case.
-/
namespace F4Enix.Inp
open F4Enix

/-- **C10 (universes: the cells asked for)** are the cells of that universe, in the order of the model. -/
theorem c10_universe_cells (uid : ℤ) (cells : Dict Str Card) :
    (∀ ns, universeCells uid cells = .ok ns →
      ns.map Except.ok = (cells.filter (fun kc => decide (kc.2.univ = some uid))).map (fun kc => kc.2.num)) ∧
    (∀ e, universeCells uid cells = .error e → e = .indexError ∧ ∃ kc ∈ cells, kc.2.univ = some uid ∧ kc.2.values = []) := by
  induction cells with
  | nil => exact ⟨fun ns h => by cases h; rfl, fun e h => by cases h⟩
  | cons kc cells ih =>
    obtain ⟨k, c⟩ := kc
    by_cases hu : c.univ = some uid
    · have hnum : c.num = .error .indexError ∧ c.values = [] ∨ ∃ n, c.num = .ok n := by
        unfold Card.num
        cases hv : c.values with
        | nil => left; exact ⟨rfl, rfl⟩
        | cons v vs => right; exact ⟨v.1, rfl⟩
      rw [universeCells, if_pos hu]
      rcases hnum with ⟨hn, hv⟩ | ⟨n, hn⟩
      · simp only [hn]
        exact ⟨fun ns h => (by cases h), fun e h => by cases h; exact ⟨rfl, (k, c), by simp, hu, hv⟩⟩
      · simp only [hn]
        cases hr : universeCells uid cells with
        | error e' =>
          refine ⟨fun ns h => (by cases h), fun e h => ?_⟩
          cases h
          obtain ⟨h1, kc, hm, h2⟩ := ih.2 _ hr
          exact ⟨h1, kc, by simp [hm], h2⟩
        | ok ns' =>
          refine ⟨fun ns h => ?_, fun e h => (by cases h)⟩
          cases h
          simp only [hu, decide_true, List.filter_cons_of_pos, List.map_cons, hn, ih.1 _ hr]
    · rw [universeCells, if_neg hu]
      refine ⟨fun ns h => ?_, fun e h => ?_⟩
      · rw [ih.1 ns h]; simp [hu]
      · obtain ⟨h1, kc, hm, h2⟩ := ih.2 e h
        exact ⟨h1, kc, by simp [hm], h2⟩

/-- **C10 (extracting a universe).** The extracted model has exactly the cells of the universe and all they need,
fillings included, with their data (the universe keyword is dropped from the cells of the universe unless asked
otherwise); nothing else is extracted. -/
theorem c10_extract_universe (m : Deck) (uid : ℤ) (keep : Bool) (fuel : Nat) (d : Deck)
    (hc : KeysOk id m.cells) (hs : KeysOk keyNum m.surfs) (h : extractUniverse m uid keep fuel = .ok d) :
    ∃ req : List ℤ, (∀ n, n ∈ req ↔ ∃ k c, (k, c) ∈ m.cells ∧ c.univ = some uid ∧ c.num = .ok n) ∧
      (∀ k c', d.cells.get? k = some c' ↔ ∃ n c, k = intStr n ∧ Closure m.cells true req n ∧
        m.cells.get? (intStr n) = some c ∧ c' = extracted keep req c) := by
  unfold extractUniverse at h
  cases hu : universeCells uid m.cells with
  | error e => rw [hu] at h; cases h
  | ok ns =>
    rw [hu] at h
    simp only at h
    refine ⟨ns, fun n => ?_, ?_⟩
    · have hmap := (c10_universe_cells uid m.cells).1 ns hu
      constructor
      · intro hn
        have : (Except.ok n : Except PyErr ℤ) ∈ ns.map Except.ok := List.mem_map_of_mem hn
        rw [hmap] at this
        obtain ⟨⟨k, c⟩, hm, e⟩ := List.mem_map.mp this
        rw [List.mem_filter] at hm
        exact ⟨k, c, hm.1, by simpa using hm.2, e⟩
      · rintro ⟨k, c, hm, hu', hn⟩
        have : (Except.ok n : Except PyErr ℤ) ∈ ns.map Except.ok := by
          rw [hmap]
          exact List.mem_map.mpr ⟨(k, c), List.mem_filter.mpr ⟨hm, by simpa using hu'⟩, hn⟩
        obtain ⟨x, hx, e⟩ := List.mem_map.mp this
        cases e; exact hx
    · cases he : extraction m ns keep true fuel with
      | error e =>
        unfold extractCells at h
        rw [he] at h; cases h
      | ok r =>
        obtain ⟨cs, ss, ml⟩ := r
        rw [c12_written m ns keep true fuel hc hs cs ss ml he] at h
        cases h
        exact (c12_self_contained m ns keep true fuel cs ss ml he).1

/-- **C17 (keys).** The number part of a key is the key, without its first character if there is a star. -/
theorem keyNum_spec : (∀ s : Str, keyNum ('*' :: s) = s) ∧ (∀ s : Str, '*' ∉ s → keyNum s = s) :=
  ⟨fun s => by simp [keyNum], fun s h => by simp [keyNum, h]⟩

/-- **C33 (letter case).** Names are compared in capitals: the 26 small letters become capitals, everything else stays. -/
theorem upperC_spec : (∀ k < 26, upperC (Char.ofNat (97 + k)) = Char.ofNat (65 + k)) ∧
    (∀ c : Char, c ∉ "abcdefghijklmnopqrstuvwxyz".toList → upperC c = c) := by
  refine ⟨by decide, fun c hc => ?_⟩
  unfold upperC
  rw [if_neg]
  rintro ⟨h1, h2⟩
  apply hc
  have e : c = Char.ofNat c.toNat := (Char.ofNat_toNat c).symm
  obtain ⟨k, hk⟩ : ∃ k, c.toNat = 97 + k := ⟨c.toNat - 97, by omega⟩
  have hk2 : k < 26 := by omega
  rw [e, hk]
  clear e hk hc
  revert k
  decide

end F4Enix.Inp
