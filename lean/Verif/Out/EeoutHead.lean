import Verif.Out.EeoutProps
/-!
# Reading of the head of an eeout file (C124-C127)
-/
namespace F4Enix.Eeout
open F4Enix

variable {K : Type}

/-! ### dictionaries -/

theorem set_fresh {κ ν : Type} [DecidableEq κ] {d : Dict κ ν} {k : κ} (v : ν) (h : k ∉ d.map Prod.fst) : Dict.set d k v = d ++ [(k, v)] := by
  induction d with
  | nil => rfl
  | cons e d ih =>
    obtain ⟨k', v'⟩ := e
    rw [List.map_cons, List.mem_cons, not_or] at h
    rw [Dict.set, if_neg (fun e => h.1 e.symm), ih h.2]
    rfl

theorem set_set {κ ν : Type} [DecidableEq κ] (d : Dict κ ν) (k : κ) (v w : ν) : Dict.set (Dict.set d k v) k w = Dict.set d k w := by
  induction d with
  | nil => simp [Dict.set]
  | cons e d ih =>
    obtain ⟨k', v'⟩ := e
    by_cases h : k' = k
    · simp [Dict.set, h]
    · simp [Dict.set, h, ih]

/-! ### stripping -/

theorem rstrip_spaces (s : Str) (k : ℕ) : rstrip (s ++ List.replicate k ' ') = rstrip s := by
  induction k with
  | zero => simp
  | succ k ih => rw [List.replicate_succ', ← List.append_assoc, rstrip_append_space (by decide), ih]

theorem lstrip_self {x : Str} (h : strip x = x) : lstrip x = x := by
  have h1 : (lstrip x) <:+ x := List.dropWhile_suffix _
  have h2 : (strip x).length ≤ (lstrip x).length := by
    unfold strip rstrip
    rw [List.length_reverse]
    have := (List.dropWhile_sublist (p := isSpace) (l := (lstrip x).reverse)).length_le
    rwa [List.length_reverse] at this
  rw [h] at h2
  exact h1.eq_of_length_le h2

theorem startsSpace_self {x : Str} (h : strip x = x) : startsSpace x = false := by
  have := lstrip_self h
  cases x with
  | nil => rfl
  | cons c x =>
    cases hc : isSpace c with
    | false => exact hc
    | true =>
      exfalso
      rw [lstrip_cons_space hc] at this
      have h1 : (lstrip x).length ≤ x.length := (List.dropWhile_sublist _).length_le
      rw [this, List.length_cons] at h1
      omega

theorem strip_pad {x : Str} (hne : x ≠ []) (h : strip x = x) (k : ℕ) : strip (x ++ List.replicate k ' ') = x := by
  have h1 := startsSpace_self h
  have h2 : startsSpace (x ++ List.replicate k ' ') = false := by
    cases x with
    | nil => exact absurd rfl hne
    | cons c x => exact h1
  unfold strip
  rw [lstrip_of_not_startsSpace h2, rstrip_spaces]
  have := h
  unfold strip at this
  rwa [lstrip_self h] at this

/-! ### numbers of the head -/

theorem natStr_digits (n : ℕ) : ∀ c ∈ natStr n, isDigit c = true := natStr_all_digit n

theorem infoLine_ok {l name : Str} {n : ℕ} (h : IsInfo l name n) : infoLine l = .ok (name, n) := by
  obtain ⟨a, b, rfl, h1, h2, h3⟩ := h
  have e : ' ' :: name ++ List.replicate a ' ' ++ ':' :: List.replicate b ' ' ++ natStr n ++ ['\n'] =
      (' ' :: (name ++ List.replicate a ' ')) ++ ':' :: (List.replicate b ' ' ++ (natStr n ++ ['\n'])) := by simp
  rw [e]
  have t := (Find.takeWhile_run (p := isInfoChar) (a := ' ' :: (name ++ List.replicate a ' '))
    (s := ':' :: (List.replicate b ' ' ++ (natStr n ++ ['\n']))) (by
      intro c hc
      rcases List.mem_cons.1 hc with rfl | hc
      · decide
      · rcases List.mem_append.1 hc with hc | hc
        · exact h1 c hc
        · rw [(List.mem_replicate.1 hc).2]; decide) (by
      intro c t hc
      rw [List.cons.injEq] at hc
      rw [← hc.1]; decide)).1
  have g : digitGroups ((' ' :: (name ++ List.replicate a ' ')) ++ ':' :: (List.replicate b ' ' ++ (natStr n ++ ['\n']))) =
      digitGroups (' ' :: (name ++ List.replicate a ' ')) ++ [natStr n] := by
    rw [digitGroups_append _ _ (Nat.le_refl _) _ _ (by decide), digitGroups_spaces, digitGroups_run (natStr_ne_nil n) (natStr_digits n) (by
      intro c t hc
      rw [List.cons.injEq] at hc
      rw [← hc.1]; decide)]
    rfl
  unfold infoLine
  rw [t]
  simp only [g, List.getLast?_append, List.getLast?_singleton, Option.some_or, digitsVal_natStr]
  congr 2
  have : strip (' ' :: (name ++ List.replicate a ' ')) = strip (name ++ List.replicate a ' ') := by
    unfold strip
    rw [lstrip_cons_space (by decide)]
  rw [this, strip_pad h3 h2]

theorem info_front {A ls : List Str} (h : ∀ l ∈ A, ¬ "NUMBER OF PARTICLES".toList <:+: l ∧ ¬ "NUMBER OF EDITS".toList <:+: l) :
    infoLoop false [] (A ++ ls) = infoLoop false [] ls := by
  induction A with
  | nil => rfl
  | cons l A ih =>
    obtain ⟨h1, h2⟩ := h l (by simp)
    rw [List.cons_append, infoLoop, has_false h1, has_false h2]
    simp only [Bool.or_false, Bool.false_eq_true, if_false]
    exact ih (fun x hx => h x (by simp [hx]))

theorem info_lines {L : List Str} {d : List (Str × ℕ)} (h : List.Forall₂ (fun l x => IsInfo l x.1 x.2) L d) (d0 : Dict Str ℕ)
    (hn : ((d0 ++ d).map Prod.fst).Nodup) (hE : ∃ l r, L = r ++ [l] ∧ "NUMBER OF EDITS".toList <:+: l ∧ ∀ y ∈ r, ¬ "NUMBER OF EDITS".toList <:+: y)
    (f : Bool) (hf : f = true ∨ ∃ l r, L = l :: r ∧ "NUMBER OF PARTICLES".toList <:+: l) (rest : List Str) :
    infoLoop f d0 (L ++ rest) = .ok (d0 ++ d) := by
  induction h generalizing d0 f with
  | nil => obtain ⟨l, r, h, _⟩ := hE; cases r <;> cases h
  | @cons l x L d hl hr ih =>
    have e0 : (f || has "NUMBER OF PARTICLES" l) = true := by
      rcases hf with rfl | ⟨l', r, h, hp⟩
      · rfl
      · rw [List.cons.injEq] at h
        rw [h.1, (has_iff _ _).2 hp]; simp
    have hx : x.1 ∉ d0.map Prod.fst := by
      rw [List.map_append, List.map_cons] at hn
      intro hm
      exact (List.nodup_append.1 hn).2.2 _ hm _ (by simp) rfl
    rw [List.cons_append, infoLoop, if_pos e0, infoLine_ok hl]
    simp only [set_fresh x.2 hx]
    obtain ⟨e, r, he, h1, h2⟩ := hE
    cases r with
    | nil =>
      rw [List.nil_append, List.cons.injEq] at he
      rw [he.1, (has_iff _ _).2 h1]
      have hd : d = [] := by
        rw [he.2] at hr; cases hr; rfl
      simp [hd]
    | cons y r =>
      rw [List.cons_append, List.cons.injEq] at he
      rw [he.1, has_false (h2 y (by simp))]
      simp only [Bool.false_eq_true, if_false]
      have := ih (d0 ++ [(x.1, x.2)]) (by simpa using hn) ⟨e, r, he.2, h1, fun z hz => h2 z (by simp [hz])⟩ true (Or.inl rfl)
      rw [this]
      simp

theorem info_read {A L rest : List Str} {d : List (Str × ℕ)}
    (hA : ∀ l ∈ A, ¬ "NUMBER OF PARTICLES".toList <:+: l ∧ ¬ "NUMBER OF EDITS".toList <:+: l) (h : InfoLines L d) :
    infoLoop false [] (A ++ (L ++ rest)) = .ok d := by
  obtain ⟨h1, h2, h3, h4⟩ := h
  rw [info_front hA]
  have := info_lines h1 [] (by simpa using h2) h4 false (Or.inr h3) rest
  rwa [List.nil_append] at this

theorem getInfo_ok {d : List (Str × ℕ)} (h : (d.map Prod.fst).Nodup) {name : String} {n : ℕ} (hm : (name.toList, n) ∈ d) : getInfo d name = .ok n := by
  unfold getInfo
  rw [Dict.get?_of_mem h hm]

/-! ### names of the materials -/

theorem behindMats_read {A rest : List Str} (h : ∀ l ∈ A, ¬ "MATERIALS".toList <+: lstrip l) :
    behindMats (A ++ " MATERIALS\n".toList :: rest) = rest := by
  induction A with
  | nil => rw [List.nil_append, behindMats, if_pos (by decide)]
  | cons l A ih =>
    rw [List.cons_append, behindMats, isMatHead, isPrefixOf_false (h l (by simp)), Bool.and_false, if_neg (by simp)]
    exact ih (fun x hx => h x (by simp [hx]))

/-- the names, numbered from `i + 1` (proof) -/
def numbered : ℕ → List Str → Dict ℕ Str
  | _, [] => []
  | i, x :: xs => (i + 1, x) :: numbered (i + 1) xs

theorem numbered_keys (i : ℕ) (xs : List Str) : ∀ k ∈ (numbered i xs).map Prod.fst, i < k := by
  induction xs generalizing i with
  | nil => simp [numbered]
  | cons x xs ih =>
    intro k hk
    rw [numbered, List.map_cons, List.mem_cons] at hk
    rcases hk with rfl | hk
    · exact Nat.lt_succ_self i
    · have := ih (i + 1) k hk
      omega

theorem numbered_get (i : ℕ) (xs : List Str) (k : ℕ) : Dict.get? (numbered i xs) (i + 1 + k) = xs[k]? := by
  induction xs generalizing i k with
  | nil => rfl
  | cons x xs ih =>
    rw [numbered, Dict.get?]
    cases k with
    | zero => simp
    | succ k =>
      rw [if_neg (by omega)]
      have := ih (i + 1) k
      rw [show i + 1 + (k + 1) = i + 1 + 1 + k by omega, this]
      simp

theorem matNames_ok {L : List Str} {xs : List Str}
    (h : List.Forall₂ (fun l x => ∃ k, l = x ++ List.replicate k ' ' ++ ['\n'] ∧ x ≠ [] ∧ '\n' ∉ x ∧ strip x = x) L xs) (i : ℕ)
    (d : Dict ℕ Str) (hd : ∀ k ∈ d.map Prod.fst, k ≤ i) (rest : List Str) : matNames xs.length i d (L ++ rest) = .ok (d ++ numbered i xs) := by
  induction h generalizing i d with
  | nil => simp [matNames, numbered]
  | @cons l x L xs hl hr ih =>
    obtain ⟨k, rfl, hne, hnl, hs⟩ := hl
    have t := (Find.takeWhile_run (p := fun c => decide (c ≠ '\n')) (a := x ++ List.replicate k ' ') (s := ['\n']) (by
      intro c hc
      rcases List.mem_append.1 hc with hc | hc
      · exact decide_eq_true (fun e => hnl (e ▸ hc))
      · rw [(List.mem_replicate.1 hc).2]; decide) (by
      intro c t hc
      rw [List.cons.injEq] at hc
      rw [← hc.1]; decide)).1
    rw [List.length_cons, List.cons_append, matNames, t]
    have hw : x ++ List.replicate k ' ' ≠ [] := by simp [hne]
    split
    · rename_i h0; exact absurd h0 hw
    · rw [strip_pad hne hs, set_fresh x (fun hm => by have := hd _ hm; omega)]
      rw [ih (i + 1) _ (by
        intro j hj
        rw [List.map_append, List.mem_append] at hj
        rcases hj with hj | hj
        · have := hd j hj; omega
        · simp at hj; omega)]
      simp [numbered]

/-! ### particles -/

theorem particle_read {A rest : List Str} {w : ℕ} {ps : List ℕ} (hA : ∀ l ∈ A, ¬ "PARTICLE LIST".toList <:+: l) (h : ∀ p ∈ ps, (natStr p).length < w) :
    particleList (A ++ " PARTICLE LIST\n".toList :: intLine w ps :: rest) = .ok ps := by
  induction A with
  | nil =>
    rw [List.nil_append, particleList.eq_def]
    have e : has "PARTICLE LIST" " PARTICLE LIST\n".toList = true := by decide
    simp only [e, if_true, digitGroups_intLine h, List.map_map]
    congr 1
    conv_rhs => rw [← List.map_id ps]
    exact List.map_congr_left (fun p _ => digitsVal_natStr p)
  | cons l A ih =>
    rw [List.cons_append, particleList.eq_def]
    simp only [has_false (hA l (by simp)), Bool.false_eq_true, if_false]
    exact ih (fun x hx => hA x (by simp [hx]))

end F4Enix.Eeout
