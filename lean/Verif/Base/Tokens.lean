import Verif.Base.TextLemmas
/-!
# `str.split()` and lines of padded fields
-/
namespace F4Enix

/-- `s.split()`: the maximal runs of non-space characters (Python) -/
def tokens (s : Str) : List Str := (splitWs s).filter (fun t => decide (t ≠ []))

theorem tokens_nil : tokens [] = [] := by decide

theorem tokens_space {c : Char} (s : Str) (h : isSpace c = true) : tokens (c :: s) = tokens s := by
  unfold tokens
  simp only [splitWs, h, if_true]
  split
  · rfl
  · simp

theorem tokens_spaces (n : Nat) (s : Str) : tokens (List.replicate n ' ' ++ s) = tokens s := by
  induction n with
  | zero => rfl
  | succ n ih => rw [List.replicate_succ, List.cons_append, tokens_space _ isSpace_space, ih]

theorem tokens_word {w s : Str} (hw : IsWord w) (hs : s = [] ∨ startsSpace s = true) :
    tokens (w ++ s) = w :: tokens s := by
  unfold tokens
  rcases hs with rfl | hs
  · rw [List.append_nil, splitWs_word w hw.2]
    simp [splitWs, hw.1]
  · rw [splitWs_word_space w s hw.2 hs]
    obtain ⟨ts, h⟩ := splitWs_head_of_startsSpace s hs
    rw [h]; simp [hw.1]

theorem tokens_padLeft {n : Nat} {w s : Str} (hw : IsWord w) (hs : s = [] ∨ startsSpace s = true) :
    tokens (padLeft n w ++ s) = w :: tokens s := by
  rw [padLeft, List.append_assoc, tokens_spaces, tokens_word hw hs]

/-- text fields written one after the other, each right-aligned in its width (Python) -/
def fields (fs : List (Nat × Str)) : Str := (fs.map (fun f => padLeft f.1 f.2)).flatten

/-- every field is a word, and every field but possibly the first is narrower than its column (specification) -/
def FieldsOk : List (Nat × Str) → Prop
  | [] => True
  | f :: fs => IsWord f.2 ∧ ∀ g ∈ fs, IsWord g.2 ∧ g.2.length < g.1

theorem fields_tail_ok (fs : List (Nat × Str)) (h : ∀ g ∈ fs, IsWord g.2 ∧ g.2.length < g.1)
    (s : Str) (hs : startsSpace s = true) :
    startsSpace (fields fs ++ s) = true ∧ tokens (fields fs ++ s) = fs.map Prod.snd ++ tokens s := by
  induction fs with
  | nil => exact ⟨hs, rfl⟩
  | cons f fs ih =>
    obtain ⟨i1, i2⟩ := ih (fun g hg => h g (List.mem_cons_of_mem _ hg))
    obtain ⟨hw, hl⟩ := h f (by simp)
    have e : fields (f :: fs) ++ s = padLeft f.1 f.2 ++ (fields fs ++ s) := by
      simp [fields, List.append_assoc]
    refine ⟨by rw [e]; exact startsSpace_pad hl, ?_⟩
    rw [e, tokens_padLeft hw (Or.inr i1), i2]; rfl

/-- splitting a written line gives back the fields -/
theorem tokens_fields (fs : List (Nat × Str)) (h : FieldsOk fs) :
    tokens (fields fs ++ ['\n']) = fs.map Prod.snd := by
  have hn : tokens ['\n'] = [] := by decide
  cases fs with
  | nil => exact hn
  | cons f fs =>
    obtain ⟨hw, h⟩ := h
    obtain ⟨i1, i2⟩ := fields_tail_ok fs h ['\n'] (by decide)
    have e : fields (f :: fs) ++ ['\n'] = padLeft f.1 f.2 ++ (fields fs ++ ['\n']) := by
      simp [fields, List.append_assoc]
    rw [e, tokens_padLeft hw (Or.inr i1), i2, hn]; simp

theorem fieldsOk_append (fs gs : List (Nat × Str)) (h : FieldsOk fs) (hne : fs ≠ [])
    (hg : ∀ g ∈ gs, IsWord g.2 ∧ g.2.length < g.1) : FieldsOk (fs ++ gs) := by
  cases fs with
  | nil => exact absurd rfl hne
  | cons f fs =>
    refine ⟨h.1, ?_⟩
    intro g hm
    rcases List.mem_append.mp hm with hm | hm
    · exact h.2 g hm
    · exact hg g hm

theorem word_no_nl {w : Str} (h : IsWord w) : ∀ c ∈ w, c ≠ '\n' := by
  rintro c hc rfl
  have := h.2 _ hc
  rw [isSpace_nl] at this; cases this

theorem fields_no_nl (fs : List (Nat × Str)) (h : ∀ g ∈ fs, ∀ c ∈ g.2, c ≠ '\n') :
    ∀ c ∈ fields fs, c ≠ '\n' := by
  intro c hc
  simp only [fields, List.mem_flatten, List.mem_map] at hc
  obtain ⟨l, ⟨f, hf, rfl⟩, hl⟩ := hc
  simp only [padLeft, List.mem_append, List.mem_replicate] at hl
  rcases hl with ⟨_, rfl⟩ | hl
  · decide
  · exact h f hf c hl

theorem fieldsOk_words {fs : List (Nat × Str)} (h : FieldsOk fs) : ∀ g ∈ fs, IsWord g.2 := by
  cases fs with
  | nil => simp
  | cons f fs =>
    intro g hg
    rcases List.mem_cons.mp hg with rfl | hg
    · exact h.1
    · exact (h.2 g hg).1

end F4Enix
