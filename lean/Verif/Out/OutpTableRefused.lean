import Verif.Out.OutpTableMore
/-!
# Tables that cannot be read, and long headers (C87)
-/
namespace F4Enix.Outp
open F4Enix F4Enix.Find

theorem readAhead_empty (k : ℕ) (rs : List (List (Option Str))) (h : ∀ r ∈ rs, full r = false) : readAhead k rs = ([], if k = 0 then rs else []) := by
  induction rs with
  | nil => cases k <;> simp [readAhead]
  | cons r rs ih =>
    cases k with
    | zero => simp [readAhead]
    | succ k =>
      rw [readAhead, h r (by simp), if_neg (by simp), ih (fun r hr => h r (by simp [hr]))]
      simp

theorem readAhead_some (k : ℕ) (rs : List (List (Option Str))) (h : ∃ r ∈ rs, full r = true) : (readAhead (k + 1) rs).1 ≠ [] := by
  induction rs with
  | nil => simp at h
  | cons r rs ih =>
    rw [readAhead]
    by_cases hr : full r = true
    · rw [if_pos hr]; simp
    · rw [if_neg hr]
      apply ih
      obtain ⟨x, hx, hf⟩ := h
      rcases List.mem_cons.1 hx with rfl | hx
      · exact absurd hf hr
      · exact ⟨x, hx, hf⟩

/-- **C87 (refused).** Reading fixed width rows: a negative number of rows and a rest of the file with nothing in it are refused with `ValueError`; no rows
asked for are no rows. -/
theorem rows_refused (ahead skip : ℕ) (lines : List Str) (widths : List ℕ) :
    (∀ n : ℤ, n < 0 → readFwf ahead lines skip n widths = .error .valueError) ∧
    (∀ n : ℤ, (∀ l ∈ lines.drop skip, full (fields widths l) = false) → readFwf ahead lines skip n widths = .error .valueError) ∧
    (0 < ahead → (∃ l ∈ lines.drop skip, full (fields widths l) = true) → readFwf ahead lines skip 0 widths = .ok []) := by
  refine ⟨fun n hn => by unfold readFwf; rw [if_pos hn], fun n h => ?_, fun ha h => ?_⟩
  · unfold readFwf
    by_cases hn : n < 0
    · rw [if_pos hn]
    · rw [if_neg hn]
      have := readAhead_empty ahead ((lines.drop skip).map (fields widths)) (by
        intro r hr
        obtain ⟨l, hl, rfl⟩ := List.mem_map.1 hr
        exact h l hl)
      simp only [this]
      rw [if_pos trivial]
  · obtain ⟨k, rfl⟩ : ∃ k, ahead = k + 1 := ⟨ahead - 1, by omega⟩
    unfold readFwf
    rw [if_neg (by simp)]
    have := readAhead_some k ((lines.drop skip).map (fields widths)) (by
      obtain ⟨l, hl, hf⟩ := h
      exact ⟨_, List.mem_map.2 ⟨l, hl, rfl⟩, hf⟩)
    simp only
    rw [if_neg this, if_pos (by simp)]
    simp

theorem headLoop_long (k : ℕ) : ∀ (i : ℕ) (rows : List (List (Option Str))) (cols : List Str), 0 < k → k ≤ rows.length →
    (∀ r ∈ rows.take k, (r.headD none).isSome = false) → ∃ cols', headLoop k i rows cols = .ok (i + k - 1, cols') ∧
      (∀ n, (∀ r ∈ rows.take k, r.length = n) → (0 < i → cols.length = n) → cols'.length = n) := by
  induction k with
  | zero => intro i rows cols h; omega
  | succ k ih =>
    intro i rows cols _ hl h
    cases rows with
    | nil => simp at hl
    | cons r rs =>
      rw [headLoop, h r (by simp), if_neg (by simp)]
      set cols1 := if i = 0 then r.map (fun c => c.getD []) else List.zipWith (fun t c => t ++ ' ' :: c.getD []) cols r with hc1
      have len1 : ∀ n, r.length = n → (0 < i → cols.length = n) → cols1.length = n := by
        intro n h1 h2
        rw [hc1]
        split
        · simpa using h1
        · simp [h1, h2 (by omega)]
      rcases Nat.eq_zero_or_pos k with rfl | hk
      · exact ⟨cols1, by simp [headLoop], fun n h1 h2 => len1 n (h1 r (by simp)) h2⟩
      · obtain ⟨cols', e, hn⟩ := ih (i + 1) rs cols1 hk (by simpa using hl) (fun x hx => h x (by simp [hx]))
        refine ⟨cols', by rw [e]; congr 2; omega, fun n h1 h2 => hn n (fun x hx => h1 x (by simp [hx])) (fun _ => len1 n (h1 r (by simp)) h2)⟩

/-- **C87 (titles).** At most ten rows are taken for titles: if more rows than nine have an empty first cell, the table begins at the tenth row, which is then both part
of the titles and a row of the table. A table whose first row has something in its first cell has no titles and is refused with `ValueError`; one without
rows with `IndexError`. -/
theorem titles_ten (ncols : ℕ) (rows : List (List (Option Str))) :
    (10 ≤ rows.length → (∀ r ∈ rows.take 10, (r.headD none).isSome = false ∧ r.length = ncols) →
      ∃ cols : List Str, cols.length = ncols ∧ makeFrame ncols rows = .ok (dropEmpty ⟨cols, rows.drop 9⟩)) ∧
    (∀ r rs, rows = r :: rs → (r.headD none).isSome = true → 0 < ncols → makeFrame ncols rows = .error .valueError) ∧
    (rows = [] → makeFrame ncols rows = .error .indexError) := by
  refine ⟨fun hl h => ?_, ?_, ?_⟩
  · obtain ⟨cols, e, hn⟩ := headLoop_long 10 0 rows [] (by decide) hl (fun r hr => (h r hr).1)
    have hc := hn ncols (fun r hr => (h r hr).2) (by simp)
    refine ⟨cols, hc, ?_⟩
    unfold makeFrame
    simp only [e]
    rw [if_neg (by simp [hc])]
  · rintro r rs rfl hr h0
    unfold makeFrame
    rw [headLoop, if_pos hr]
    simp only
    rw [if_pos (by simp; omega)]
  · rintro rfl
    unfold makeFrame
    rw [headLoop]

/-- ten rows of titles and two rows of numbers -/
example : makeFrame 2 (List.replicate 10 [none, some ['a']] ++ [[some ['1'], some ['2']]]) =
    .ok ⟨[[' ', ' ', ' ', ' ', ' ', ' ', ' ', ' ', ' '], "a a a a a a a a a a".toList], [[none, some ['a']], [some ['1'], some ['2']]]⟩ := by decide +kernel

end F4Enix.Outp
