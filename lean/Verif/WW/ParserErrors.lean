import Verif.WW.ParserProps
/-!
# Window files that cannot be read or written, and how they are refused (C03)
-/
namespace F4Enix.WW
open F4Enix

theorem intsOf_outcome (ws : List Str) : (∃ ns, intsOf ws = .ok ns ∧ ws.map parseInt = ns.map some) ∨
    ((∃ w ∈ ws, parseInt w = none) ∧ intsOf ws = .error .valueError) := by
  induction ws with
  | nil => exact Or.inl ⟨[], rfl, rfl⟩
  | cons w ws ih =>
    unfold intsOf
    cases hw : parseInt w with
    | none => exact Or.inr ⟨⟨w, by simp, hw⟩, rfl⟩
    | some n =>
      rcases ih with ⟨ns, h1, h2⟩ | ⟨⟨u, hu, hn⟩, h2⟩
      · left
        simp only [h1]
        exact ⟨n :: ns, rfl, by simp [hw, h2]⟩
      · right
        simp only [h2]
        exact ⟨⟨u, List.mem_cons_of_mem _ hu, hn⟩, trivial⟩

/-- **C03.** Words that are to be integers: all of them are read, or a word that is none is refused with `ValueError`. -/
theorem ints_read (ws : List Str) (ns : List ℤ) : intsOf ws = .ok ns ↔ ws.map parseInt = ns.map some := by
  rcases intsOf_outcome ws with ⟨ms, h1, h2⟩ | ⟨⟨w, hw, hn⟩, h2⟩
  · rw [h1, Except.ok.injEq]
    constructor
    · rintro rfl; exact h2
    · intro h
      rw [h2] at h
      exact List.map_injective_iff.2 (Option.some_injective _) h
  · rw [h2]
    constructor
    · intro h; cases h
    · intro h
      exfalso
      have : (none : Option ℤ) ∈ ws.map parseInt := by rw [← hn]; exact List.mem_map_of_mem hw
      rw [h] at this
      obtain ⟨x, _, hx⟩ := List.mem_map.1 this
      cases hx

/-- **C03.** A word that is no integer among those that are to be: `ValueError`. -/
theorem ints_refused (ws : List Str) (h : ∃ w ∈ ws, parseInt w = none) : intsOf ws = .error .valueError := by
  rcases intsOf_outcome ws with ⟨ms, h1, h2⟩ | ⟨_, h2⟩
  · exfalso
    obtain ⟨w, hw, hn⟩ := h
    have : (none : Option ℤ) ∈ ws.map parseInt := by rw [← hn]; exact List.mem_map_of_mem hw
    rw [h2] at this
    obtain ⟨x, _, hx⟩ := List.mem_map.1 this
    cases hx
  · exact h2

/-- **C03.** The whole numbers that stand as decimals in the header: a word that is missing gives `IndexError`, one that is no number `ValueError`. -/
theorem whole_outcome (f : NumFmt) (ws : List Str) (i : Nat) :
    (∀ w q, ws[i]? = some w → f.num w = some q → intFloatAt f ws i = .ok (truncQ q)) ∧
    (ws.length ≤ i → intFloatAt f ws i = .error .indexError) ∧
    (∀ w, ws[i]? = some w → f.num w = none → intFloatAt f ws i = .error .valueError) := by
  unfold intFloatAt
  refine ⟨?_, ?_, ?_⟩
  · intro w q h1 h2
    simp only [h1, h2]
  · intro h
    rw [List.getElem?_eq_none h]
  · intro w h1 h2
    simp only [h1, h2]

theorem three_short {xs : List ℚ} (h : xs.length < 3) : three xs = .error .indexError := by
  rcases xs with _ | ⟨a, _ | ⟨b, _ | ⟨c, xs⟩⟩⟩
  · rfl
  · rfl
  · rfl
  · simp only [List.length_cons] at h; omega

theorem block3_short (f : NumFmt) {es vs : List (List ℚ)} (h : vs.length < es.length) : block3Lines f es vs = .error .indexError := by
  induction es generalizing vs with
  | nil => simp at h
  | cons e es ih =>
    cases vs with
    | nil => rfl
    | cons v vs =>
      unfold block3Lines
      simp only [ih (vs := vs) (by simpa using h)]

/-- **C03.** Windows with fewer sets of values than particles, or with an origin or a direction of fewer than three numbers, are not written: `IndexError`. -/
theorem write_refused (f : NumFmt) (r : ParseResult)
    (h : r.values.length < r.energies.length ∨ r.header.origin.length < 3 ∨ ∃ d, r.header.directors = some d ∧ (d.1.length < 3 ∨ d.2.length < 3)) :
    write f r = .error .indexError := by
  have three_cases : ∀ xs : List ℚ, (∃ t, three xs = .ok t ∧ 3 ≤ xs.length) ∨ (three xs = .error .indexError ∧ xs.length < 3) := by
    intro xs
    by_cases hx : xs.length < 3
    · exact Or.inr ⟨three_short hx, hx⟩
    · left
      rcases xs with _ | ⟨a, _ | ⟨b, _ | ⟨c, xs⟩⟩⟩
      · simp at hx
      · simp at hx
      · simp at hx
      · exact ⟨_, rfl, by simp⟩
  have hd : ((r.header.origin.length < 3 ∨ ∃ d, r.header.directors = some d ∧ (d.1.length < 3 ∨ d.2.length < 3)) → headerLines f r.header = .error .indexError) ∧
      ((∃ l, headerLines f r.header = .ok l) ∨ headerLines f r.header = .error .indexError) := by
    unfold headerLines
    rcases three_cases r.header.origin with ⟨⟨o0, o1, o2⟩, h1, l1⟩ | ⟨h1, l1⟩
    · rw [h1]
      cases hdir : r.header.directors with
      | none =>
        refine ⟨?_, Or.inl ⟨_, rfl⟩⟩
        rintro (h | ⟨d, h, _⟩)
        · omega
        · cases h
      | some d =>
        obtain ⟨d1, d2⟩ := d
        rcases three_cases d1 with ⟨⟨a0, a1, a2⟩, h2, l2⟩ | ⟨h2, l2⟩
        · rcases three_cases d2 with ⟨⟨b0, b1, b2⟩, h3, l3⟩ | ⟨h3, l3⟩
          · refine ⟨?_, Or.inl ?_⟩
            · rintro (h | ⟨d, h, h'⟩)
              · omega
              · cases h
                rcases h' with h' | h' <;> simp only at h' <;> omega
            · simp only [bind, Except.bind, h2, h3]
              exact ⟨_, rfl⟩
          · simp only [bind, Except.bind, h2, h3]
            exact ⟨fun _ => trivial, Or.inr trivial⟩
        · simp only [bind, Except.bind, h2]
          exact ⟨fun _ => trivial, Or.inr trivial⟩
    · rw [h1]
      exact ⟨fun _ => rfl, Or.inr rfl⟩
  unfold write
  rcases hd.2 with ⟨l, hl⟩ | hl
  · rcases h with h | h
    · simp only [hl, block3_short f h]
    · rw [hd.1 h] at hl
      cases hl
  · simp only [hl]

/-- words with a letter, windows without values -/
example : (∃ w ∈ ["1".toList, "x".toList], parseInt w = none) ∧ intsOf ["1".toList, "2".toList] = .ok [1, 2] := by
  constructor <;> decide +kernel

/-- `int(words[i])`: the number, `IndexError` for a word that is not there, `ValueError` for one that is no whole number -/
theorem int_outcome (ws : List Str) (i : Nat) :
    (∀ w n, ws[i]? = some w → parseInt w = some n → intAt ws i = .ok n) ∧
    (ws.length ≤ i → intAt ws i = .error .indexError) ∧
    (∀ w, ws[i]? = some w → parseInt w = none → intAt ws i = .error .valueError) := by
  refine ⟨fun w n h1 h2 => ?_, fun h => ?_, fun w h1 h2 => ?_⟩
  · simp [intAt, h1, h2]
  · simp [intAt, List.getElem?_eq_none h]
  · simp [intAt, h1, h2]

end F4Enix.WW
