import Verif.Mat.Text
import Verif.Mat.CollapseProps
import Verif.Base.Tokens
import Verif.Inp.WriteProps
/-!
# Material cards: lines, words, newlines
-/
namespace F4Enix.Mat
open F4Enix F4Enix.Write

/-! ### words -/

theorem splitWs_space {s : Str} (h : startsSpace s = true) : splitWs s = [] :: splitWs (lstrip s) := by
  induction s with
  | nil => cases h
  | cons c cs ih =>
    have hc : isSpace c = true := h
    rw [lstrip_cons_space hc]
    simp only [splitWs, hc, if_true]
    cases hs : startsSpace cs with
    | true => simp only [if_true]; exact ih hs
    | false => simp only [Bool.false_eq_true, if_false]; rw [lstrip_of_not_startsSpace hs]

theorem lstrip_startsSpace (s : Str) : startsSpace (lstrip s) = false := by
  induction s with
  | nil => rfl
  | cons c cs ih =>
    cases h : isSpace c with
    | true => rw [lstrip_cons_space h]; exact ih
    | false => unfold lstrip; rw [List.dropWhile_cons, h]; exact h

theorem splitWs_mid {s : Str} (h : startsSpace s = false) :
    ∃ a t, splitWs s = a :: t ∧ (∀ x ∈ t.dropLast, x ≠ []) ∧ (s ≠ [] → a ≠ []) := by
  induction hn : s.length using Nat.strong_induction_on generalizing s with
  | _ n ih =>
    cases s with
    | nil => exact ⟨[], [], rfl, by simp, fun h => absurd rfl h⟩
    | cons c cs =>
      have hc : isSpace c = false := h
      simp only [splitWs, hc, Bool.false_eq_true, if_false]
      cases hs : startsSpace cs with
      | false =>
        obtain ⟨a, t, e, h1, h2⟩ := ih cs.length (by rw [← hn]; simp) hs rfl
        rw [e]
        exact ⟨c :: a, t, rfl, h1, by simp⟩
      | true =>
        rw [splitWs_space hs]
        obtain ⟨a, t, e, h1, h2⟩ := ih (lstrip cs).length (by
          rw [← hn]
          have : (lstrip cs).length ≤ cs.length := by
            unfold lstrip; exact (List.dropWhile_suffix _).length_le
          simp only [List.length_cons]; omega) (lstrip_startsSpace cs) rfl
        rw [e]
        refine ⟨[c], a :: t, rfl, ?_, by simp⟩
        cases t with
        | nil => simp
        | cons b t =>
          intro x hx
          simp only [List.dropLast_cons_cons, List.mem_cons] at hx
          rcases hx with rfl | hx
          · apply h2
            intro h0
            rw [h0] at e
            simp [splitWs] at e
          · exact h1 x hx

theorem tokens_lstrip' (s : Str) : tokens (lstrip s) = tokens s := by
  induction s with
  | nil => rfl
  | cons c cs ih =>
    cases h : isSpace c with
    | true => rw [lstrip_cons_space h, ih, tokens_space _ h]
    | false => rw [lstrip_of_not_startsSpace (s := c :: cs) h]

/-- the pieces that `_readLine` keeps are the words of the line -/
theorem readLine_tokens (num : Str → Option ℚ) {s : Str} (h : s ≠ []) :
    readLine num s = readPairs num ((tokens s).takeWhile (fun p => !isDollar p)) := by
  have key : ∀ u : Str, startsSpace u = false → tokens u = tokens s → (dropFirst (splitWs s) = splitWs u) →
      readLine num s = readPairs num ((tokens s).takeWhile (fun p => !isDollar p)) := by
    intro u hu ht hd
    unfold readLine
    rw [hd, ← ht]
    obtain ⟨a, t, e, h1, h2⟩ := splitWs_mid hu
    unfold tokens
    rw [e]
    rcases List.eq_nil_or_concat t with rfl | ⟨t', b, rfl⟩
    · cases a with
      | nil => simp
      | cons c a => simp
    · rw [List.concat_eq_append] at h1 ⊢
      rw [List.dropLast_concat] at h1
      have hne : u ≠ [] := by
        rintro rfl
        simp [splitWs] at e
      have ha := h2 hne
      have hf : (a :: t').filter (fun t => decide (t ≠ [])) = a :: t' := by
        rw [List.filter_eq_self]
        intro x hx
        rcases List.mem_cons.1 hx with rfl | hx
        · simpa using ha
        · simpa using h1 x hx
      rw [← List.cons_append, List.reverse_append, List.filter_append, hf]
      cases b with
      | nil => simp
      | cons c b => simp
  cases hs : startsSpace s with
  | true => exact key (lstrip s) (lstrip_startsSpace s) (tokens_lstrip' s) (by rw [splitWs_space hs]; rfl)
  | false =>
    refine key s hs rfl ?_
    obtain ⟨a, t, e, _, h2⟩ := splitWs_mid hs
    rw [e]
    cases a with
    | nil => exact absurd rfl (h2 h)
    | cons c a => rfl

/-- pairs of zaid and fraction followed by keywords -/
theorem readPairs_ok (num : Str → Option ℚ) (ps : List (Str × Str × ℚ)) (ks : List Str)
    (h1 : ∀ p ∈ ps, startsDigit p.1 = true ∧ num p.2.1 = some p.2.2)
    (h2 : ∀ k, ks.head? = some k → startsDigit k = false) :
    readPairs num (ps.flatMap (fun p => [p.1, p.2.1]) ++ ks) =
      .ok (ps.map (fun p => fromString p.1 p.2.2), if ks = [] then none else some ks) := by
  induction ps with
  | nil =>
    rw [List.flatMap_nil, List.nil_append]
    match ks, h2 with
    | [], _ => rfl
    | [k], h2 => simp [readPairs, h2 k rfl]
    | k :: k' :: ks, h2 => simp [readPairs, h2 k rfl]
  | cons p ps ih =>
    obtain ⟨d1, d2⟩ := h1 p (by simp)
    rw [List.flatMap_cons, List.append_assoc]
    show readPairs num (p.1 :: p.2.1 :: _) = _
    simp only [readPairs, d1, if_true, d2]
    have := ih (fun q hq => h1 q (List.mem_cons_of_mem _ hq))
    simp only [List.append_eq] at this ⊢
    rw [List.nil_append, this]
    rfl

/-! ### newlines -/

/-- lines joined by newlines (specification) -/
def unl : List Str → Str
  | [] => []
  | [l] => l
  | l :: l' :: ls => l ++ '\n' :: unl (l' :: ls)

theorem unl_endl {ls : List Str} (h : ls ≠ []) : unl ls ++ ['\n'] = ls.flatMap endl := by
  induction ls with
  | nil => exact absurd rfl h
  | cons l ls ih =>
    cases ls with
    | nil => simp [unl, endl]
    | cons l' ls =>
      rw [unl, List.append_assoc, List.cons_append, ih (by simp), List.flatMap_cons, List.flatMap_cons]
      simp [endl]

theorem unl_append {a b : List Str} (ha : a ≠ []) (hb : b ≠ []) : unl (a ++ b) = unl a ++ '\n' :: unl b := by
  induction a with
  | nil => exact absurd rfl ha
  | cons l ls ih =>
    cases ls with
    | nil =>
      cases b with
      | nil => exact absurd rfl hb
      | cons x xs => simp [unl]
    | cons l' ls =>
      rw [List.cons_append, List.cons_append]
      simp only [unl]
      rw [← List.cons_append, ih (by simp), List.append_assoc]
      rfl

/-- neither end of the text is a newline (proof) -/
def Tidy (s : Str) : Prop := s ≠ [] ∧ s.head? ≠ some '\n' ∧ s.getLast? ≠ some '\n'

theorem stripNL_pad {s : Str} (h : Tidy s) (a b : Nat) :
    stripNL (List.replicate a '\n' ++ s ++ List.replicate b '\n') = s := by
  obtain ⟨hne, h1, h2⟩ := h
  have key : ∀ (n : Nat) (t : Str), t.head? ≠ some '\n' → t ≠ [] →
      (List.replicate n '\n' ++ t).dropWhile (fun c => c == '\n') = t := by
    intro n t ht htne
    rw [List.dropWhile_append_of_pos (by simp)]
    cases t with
    | nil => exact absurd rfl htne
    | cons c cs =>
      have hc : (c == '\n') = false := by
        simp only [beq_eq_false_iff_ne, ne_eq]
        rintro rfl; exact ht rfl
      rw [List.dropWhile_cons, hc]; rfl
  unfold stripNL
  rw [List.append_assoc, key a _ (by
    cases s with
    | nil => exact absurd rfl hne
    | cons c cs => exact h1) (by simp [hne])]
  rw [List.reverse_append, List.reverse_replicate, key b _ (by rw [List.head?_reverse]; exact h2) (by simpa using hne),
    List.reverse_reverse]

theorem stripNL_tidy {s : Str} (h : Tidy s) : stripNL s = s := by
  have := stripNL_pad h 0 0
  simpa using this

theorem unl_tidy {ls : List Str} (hne : ls ≠ []) (h : ∀ l ∈ ls, l ≠ [] ∧ ∀ c ∈ l, c ≠ '\n') : Tidy (unl ls) := by
  induction ls with
  | nil => exact absurd rfl hne
  | cons l ls ih =>
    obtain ⟨h1, h2⟩ := h l (by simp)
    cases ls with
    | nil =>
      refine ⟨h1, ?_, ?_⟩
      · intro hh; exact h2 _ (List.mem_of_mem_head? hh) rfl
      · intro hh; exact h2 _ (List.mem_of_mem_getLast? hh) rfl
    | cons l' ls =>
      obtain ⟨i1, i2, i3⟩ := ih (by simp) (fun x hx => h x (List.mem_cons_of_mem _ hx))
      refine ⟨by simp [unl, h1], ?_, ?_⟩
      · rw [unl]
        cases l with
        | nil => exact absurd rfl h1
        | cons c cs =>
          intro hh
          exact h2 c (by simp) (by simpa using hh)
      · rw [unl]
        have : l ++ '\n' :: unl (l' :: ls) = (l ++ ['\n']) ++ unl (l' :: ls) := by simp
        rw [this, List.getLast?_append_of_ne_nil _ i1]
        exact i3

end F4Enix.Mat
