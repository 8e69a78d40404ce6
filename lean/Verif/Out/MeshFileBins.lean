import Verif.Out.MeshFileScan
/-!
# The head and the bins of a tally as they stand in the file (C164)
-/
namespace F4Enix.MeshFile
open F4Enix F4Enix.Mesh F4Enix.Find

/-! ### what the lines look like -/

/-- the text shows the numbers `qs` and nothing else (specification) -/
def ShowsNums (num : ParseNum) (s : Str) (qs : List ℚ) : Prop := (tokens s).map num = qs.map some

/-- a line with a label, a colon and the numbers `qs` (specification) -/
def ShowsList (num : ParseNum) (lab l : Str) (qs : List ℚ) : Prop :=
  ':' ∉ lab ∧ ∃ s, l = lab ++ ':' :: s ∧ ShowsNums num s qs

/-- the words by which the kinds of bins are named (specification) -/
def Named : Tag → Str → Prop
  | .erg, s => "Energy".toList <:+: s
  | .dtme, s => "Decay time".toList <:+: s ∧ ¬ "Energy".toList <:+: s
  | .tme, s => "Time".toList <:+: s ∧ ¬ "Energy".toList <:+: s ∧ ¬ "Decay time".toList <:+: s
  | .nuc, s => "Nuclide".toList <:+: s ∧ ¬ "Energy".toList <:+: s ∧ ¬ "Decay time".toList <:+: s ∧ ¬ "Time".toList <:+: s
  | .cel, s => "Cell".toList <:+: s ∧ ¬ "Energy".toList <:+: s ∧ ¬ "Decay time".toList <:+: s ∧ ¬ "Time".toList <:+: s ∧ ¬ "Nuclide".toList <:+: s
  | .line, _ => False

/-- a line that shows bins of a kind (specification) -/
def ShowsBin (num : ParseNum) (l : Str) (b : EBin) : Prop :=
  b.explicit = true ∧ ∃ lab, Named b.tag lab ∧ ShowsList num lab l b.data

/-- the line that places a cylinder, as MCNP6 writes it: origin, axis and direction of the angle zero (specification) -/
def PlaceLine6 (num : ParseNum) (l : Str) (o a v : Vec) : Prop :=
  ∃ k so sa sv, l = List.replicate k ' ' ++ "origin at".toList ++ so ++ "axis in".toList ++ sa ++ "direction, VEC direction".toList ++ sv ∧
    'a' ∉ so ∧ 'd' ∉ so ∧ 'd' ∉ sa ∧
    ShowsNums num so [o.x, o.y, o.z] ∧ ShowsNums num sa [a.x, a.y, a.z] ∧ ShowsNums num sv [v.x, v.y, v.z]

/-- the same as MCNP5 writes it: origin and axis (specification) -/
def PlaceLine5 (num : ParseNum) (l : Str) (o a : Vec) : Prop :=
  ∃ k so sa, l = List.replicate k ' ' ++ "origin at".toList ++ so ++ ", axis in".toList ++ sa ++ "direction\n".toList ∧
    'a' ∉ so ∧ 'd' ∉ so ∧ ',' ∉ so ∧ 'V' ∉ so ∧ 'd' ∉ sa ∧ 'V' ∉ sa ∧
    ShowsNums num so [o.x, o.y, o.z] ∧ ShowsNums num sa [a.x, a.y, a.z]

/-- the first lines of the bins: nothing for a rectangular mesh, the place of a cylinder (specification) -/
inductive ShowsPlace (num : ParseNum) : Bool → Option Place → List Str → Prop
  | flat : ShowsPlace num false none []
  | cyl6 {l : Str} {o a v : Vec} {p : Option Trsf} : PlaceLine6 num l o a v → getTransformation o a (some v) = .ok p →
      ShowsPlace num true (p.map (fun t => ⟨t, a, some v⟩)) [l]
  | cyl5 {l : Str} {o a : Vec} {p : Option Trsf} : PlaceLine5 num l o a → getTransformation o a none = .ok p →
      ShowsPlace num true (p.map (fun t => ⟨t, a, none⟩)) [l]

/-- the lines with the bins besides the axes: one list of energies (or of another kind), or a list of times (or of another kind) and one of energies; a
line with the number of bins may come first (specification) -/
inductive ShowsExtra (num : ParseNum) : EBin → EBin → List Str → Prop
  | one {l : Str} {e : EBin} : ShowsBin num l e → ¬ "number:".toList <:+: l → ShowsExtra num e noTime [l]
  | two {l l' : Str} {e t : EBin} : ShowsBin num l t → ShowsBin num l' e → Visible l' → ¬ "number:".toList <:+: l → ShowsExtra num e t [l, l']
  | counted {c : Str} {e t : EBin} {ls : List Str} : "number:".toList <:+: c →
      (∃ l, ls = [l] ∧ ShowsBin num l e ∧ t = noTime) ∨ (∃ l l', ls = [l, l'] ∧ ShowsBin num l t ∧ ShowsBin num l' e ∧ Visible l') →
      ShowsExtra num e t (c :: ls)

/-- the lines between `Tally bin boundaries:` and the blank line show these bins (specification) -/
def ShowsBounds (num : ParseNum) (b : Bounds) (bins : List Str) : Prop :=
  ∃ pl l1 l2 l3 ex lab1 lab2 lab3, bins = pl ++ l1 :: l2 :: l3 :: ex ∧ ShowsPlace num b.cyl b.place pl ∧
    ShowsList num lab1 l1 b.x1 ∧ ShowsList num lab2 l2 b.x2 ∧ ShowsList num lab3 l3 b.x3 ∧ ShowsExtra num b.ebin b.tbin ex ∧
    (b.cyl = false → ¬ "origin at".toList <:+: l1)

/-! ### proofs -/

theorem contains_false {sub l : Str} (h : ¬ sub <:+: l) : contains sub l = false := by
  cases hc : contains sub l
  · rfl
  · exact absurd ((contains_iff sub l).1 hc) h

theorem contains_true {sub l : Str} (h : sub <:+: l) : contains sub l = true := (contains_iff sub l).2 h

theorem afterColon_of {lab s : Str} (h : ':' ∉ lab) : afterColon (lab ++ ':' :: s) = .ok s := by
  unfold afterColon
  rw [dropWhile_all_append (fun c hc => by
    have : c ≠ ':' := fun he => h (he ▸ hc)
    simpa using this) (by simp)]

theorem label_of {lab s : Str} (h : ':' ∉ lab) : (lab ++ ':' :: s).takeWhile (fun c => c != ':') = lab := by
  rw [takeWhile_all_append (fun c hc => by
    have : c ≠ ':' := fun he => h (he ▸ hc)
    simpa using this) (by simp)]

theorem binList_of {num : ParseNum} {lab l : Str} {qs : List ℚ} (h : ShowsList num lab l qs) : binList num l = .ok qs := by
  obtain ⟨hl, s, rfl, hs⟩ := h
  unfold binList
  rw [afterColon_of hl]
  exact rowNums_ok hs

theorem etTag_of {t : Tag} {s : Str} (h : Named t s) : etTag s = some t := by
  unfold etTag
  cases t with
  | erg => rw [if_pos (contains_true h)]
  | dtme =>
    obtain ⟨h, h1⟩ := h
    rw [contains_false h1, contains_true h]; rfl
  | tme =>
    obtain ⟨h, h1, h2⟩ := h
    rw [contains_false h1, contains_false h2, contains_true h]; rfl
  | nuc =>
    obtain ⟨h, h1, h2, h3⟩ := h
    rw [contains_false h1, contains_false h2, contains_false h3, contains_true h]; rfl
  | cel =>
    obtain ⟨h, h1, h2, h3, h4⟩ := h
    rw [contains_false h1, contains_false h2, contains_false h3, contains_false h4, contains_true h]; rfl
  | line => exact absurd h (by simp [Named])

theorem extraBin_of {num : ParseNum} {l : Str} {b : EBin} (h : ShowsBin num l b) : extraBin num l = .ok b := by
  obtain ⟨he, lab, hn, hl⟩ := h
  unfold extraBin
  rw [binList_of hl]
  simp only
  obtain ⟨hc, s, rfl, _⟩ := hl
  rw [label_of hc, etTag_of hn]
  cases b
  simp only at he
  subst he
  rfl

theorem extraLines_of {num : ParseNum} {e t : EBin} {ls : List Str} (h : ShowsExtra num e t ls) {gap : Str} (hg : IsBlank gap) (rest : List Str) :
    ∃ r, extraLines num (ls ++ gap :: rest) = .ok (e, t, r) ∧ (t = noTime → r = rest) ∧ (t ≠ noTime → r = gap :: rest) := by
  have expl : ∀ {l : Str} {b : EBin}, ShowsBin num l b → b ≠ noTime := by
    intro l b h he
    have h1 := h.1
    rw [he] at h1
    exact absurd h1 (by decide)
  have one : ∀ (l : Str) (e : EBin), ShowsBin num l e → extraLists num (l :: gap :: rest) = .ok (e, noTime, rest) := by
    intro l e hl
    unfold extraLists
    rw [List.headD_cons, extraBin_of hl]
    simp only
    rw [if_pos (show blank ((l :: gap :: rest).tail.headD []) = true from blank_of_isBlank hg)]
    rfl
  have two : ∀ (l l' : Str) (e t : EBin), ShowsBin num l t → ShowsBin num l' e → Visible l' →
      extraLists num (l :: l' :: gap :: rest) = .ok (e, t, gap :: rest) := by
    intro l l' e t hl hl' hv
    unfold extraLists
    rw [List.headD_cons, extraBin_of hl]
    simp only
    rw [if_neg (by
      show ¬ blank l' = true
      rw [blank_of_visible hv]; simp)]
    rw [List.tail_cons, List.headD_cons, extraBin_of hl']
    rfl
  unfold extraLines
  cases h with
  | one hl hn =>
    rw [List.cons_append, List.nil_append, List.headD_cons, contains_false hn]
    simp only [Bool.false_eq_true, if_false]
    exact ⟨rest, one _ _ hl, fun _ => rfl, fun h => absurd rfl h⟩
  | two hl hl' hv hn =>
    rw [List.cons_append, List.cons_append, List.nil_append, List.headD_cons, contains_false hn]
    simp only [Bool.false_eq_true, if_false]
    exact ⟨_, two _ _ _ _ hl hl' hv, fun h => absurd h (expl hl), fun _ => rfl⟩
  | counted hc h =>
    rw [List.cons_append, List.headD_cons, contains_true hc]
    simp only [if_true, List.tail_cons]
    rcases h with ⟨l, rfl, hl, rfl⟩ | ⟨l, l', rfl, hl, hl', hv⟩
    · exact ⟨rest, one _ _ hl, fun _ => rfl, fun h => absurd rfl h⟩
    · exact ⟨_, two _ _ _ _ hl hl' hv, fun h => absurd h (expl hl), fun _ => rfl⟩

/-! ### the place of a cylinder -/

theorem strIndex_here {sub s : Str} (h : sub ≠ []) : strIndex sub (sub ++ s) = .ok 0 := by
  cases sub with
  | nil => exact absurd rfl h
  | cons c cs =>
    rw [List.cons_append, strIndex, if_pos]
    rw [List.isPrefixOf_iff_prefix, ← List.cons_append]
    exact List.prefix_append _ _

theorem strIndex_skip {sub : Str} {c : Char} {cs : Str} {p s : Str} {n : Nat} (hsub : sub = c :: cs) (hp : c ∉ p) (h : strIndex sub s = .ok n) :
    strIndex sub (p ++ s) = .ok (p.length + n) := by
  induction p with
  | nil => rw [List.nil_append, h, List.length_nil, Nat.zero_add]
  | cons a p ih =>
    rw [List.cons_append, strIndex, if_neg, ih (fun hc => hp (List.mem_cons_of_mem _ hc))]
    · simp only [List.length_cons, Except.ok.injEq]; omega
    · rw [hsub]
      intro he
      rw [List.isPrefixOf_iff_prefix, List.cons_prefix_cons] at he
      exact hp (by rw [he.1]; simp)

theorem vec3_of {num : ParseNum} {s : Str} {v : Vec} (h : ShowsNums num s [v.x, v.y, v.z]) : vec3 num s = .ok v := by
  unfold vec3
  rw [rowNums_ok h]

theorem slice_mid (p q r : Str) : slice p.length (p.length + q.length) (p ++ q ++ r) = q := by
  unfold slice
  rw [List.take_append_of_le_length (by rw [List.length_append]), List.take_of_length_le (by rw [List.length_append]), List.drop_left]

theorem not_mem_replicate_space {c : Char} (k : Nat) (h : c ≠ ' ') : c ∉ List.replicate k ' ' := by
  intro hc
  exact h (List.eq_of_mem_replicate hc)

/-- the position of the words before the origin and of those before the axis -/
theorem index_at (k : Nat) (r : Str) : strIndex "at".toList (List.replicate k ' ' ++ "origin at".toList ++ r) = .ok (k + 7) := by
  have e : List.replicate k ' ' ++ "origin at".toList ++ r = (List.replicate k ' ' ++ "origin ".toList) ++ ("at".toList ++ r) := by
    rw [show "origin at".toList = "origin ".toList ++ "at".toList by decide]; simp only [List.append_assoc]
  rw [e, strIndex_skip (c := 'a') (cs := ['t']) (by decide) _ (strIndex_here (by decide))]
  · rw [List.length_append, List.length_replicate]; rfl
  · intro h
    rcases List.mem_append.1 h with h | h
    · exact not_mem_replicate_space k (by decide) h
    · revert h; decide

theorem index_axis {sub cs : Str} (k : Nat) (so r : Str) (hs : sub = 'a' :: 'x' :: cs) (ho : 'a' ∉ so) (hr : strIndex sub r = .ok 0) :
    strIndex sub (List.replicate k ' ' ++ "origin at".toList ++ so ++ r) = .ok (k + 9 + so.length) := by
  have e : List.replicate k ' ' ++ "origin at".toList ++ so ++ r = (List.replicate k ' ' ++ "origin ".toList) ++ ('a' :: (('t' :: so) ++ r)) := by
    rw [show "origin at".toList = "origin ".toList ++ ['a', 't'] by decide]; simp only [List.append_assoc, List.cons_append, List.nil_append]
  have h1 : strIndex sub (('t' :: so) ++ r) = .ok (so.length + 1) := by
    rw [strIndex_skip (c := 'a') (cs := 'x' :: cs) hs _ hr]
    · simp
    · intro h
      rcases List.mem_cons.1 h with h | h
      · revert h; decide
      · exact ho h
  have h2 : strIndex sub ('a' :: (('t' :: so) ++ r)) = .ok (so.length + 2) := by
    rw [strIndex, if_neg, h1]
    rw [hs, List.isPrefixOf_iff_prefix, List.cons_append, List.cons_prefix_cons, List.cons_prefix_cons]
    rintro ⟨_, h, _⟩
    exact absurd h (by decide)
  rw [e, strIndex_skip (c := 'a') (cs := 'x' :: cs) hs _ h2]
  · rw [List.length_append, List.length_replicate, show "origin ".toList.length = 7 by decide]
    simp only [Except.ok.injEq]; omega
  · intro h
    rcases List.mem_append.1 h with h | h
    · exact not_mem_replicate_space k (by decide) h
    · revert h; decide

theorem cylPlace6 {num : ParseNum} {l : Str} {o a v : Vec} (h : PlaceLine6 num l o a v) {p : Option Trsf}
    (hp : getTransformation o a (some v) = .ok p) :
    cylPlace num l = .ok (p.map (fun t => ⟨t, a, some v⟩)) := by
  obtain ⟨k, so, sa, sv, hl, h1, h2, h3, n1, n2, n3⟩ := h
  have c6 : contains "VEC direction".toList l = true := by
    apply contains_true
    refine ⟨List.replicate k ' ' ++ "origin at".toList ++ so ++ "axis in".toList ++ sa ++ "direction, ".toList, sv, ?_⟩
    rw [hl, show "direction, VEC direction".toList = "direction, ".toList ++ "VEC direction".toList by decide]
    simp only [List.append_assoc]
  have i1 : strIndex "at".toList l = .ok (k + 7) := by
    have := index_at k (so ++ ("axis in".toList ++ (sa ++ ("direction, VEC direction".toList ++ sv))))
    rw [hl]; simpa only [List.append_assoc] using this
  have i2 : strIndex "axis".toList l = .ok (k + 9 + so.length) := by
    have := index_axis (sub := "axis".toList) (cs := "is".toList) k so ("axis in".toList ++ (sa ++ ("direction, VEC direction".toList ++ sv))) (by decide) h1 (by
      rw [show "axis in".toList = "axis".toList ++ " in".toList by decide, List.append_assoc]
      exact strIndex_here (by decide))
    rw [hl]; simpa only [List.append_assoc] using this
  have i3 : strIndex "axis in".toList l = .ok (k + 9 + so.length) := by
    have := index_axis (sub := "axis in".toList) (cs := "is in".toList) k so ("axis in".toList ++ (sa ++ ("direction, VEC direction".toList ++ sv))) (by decide) h1
      (strIndex_here (by decide))
    rw [hl]; simpa only [List.append_assoc] using this
  have i4 : strIndex "direction".toList l = .ok (k + 16 + so.length + sa.length) := by
    have e : l = (List.replicate k ' ' ++ "origin at".toList ++ so ++ "axis in".toList ++ sa) ++ ("direction".toList ++ (", VEC direction".toList ++ sv)) := by
      rw [hl, show "direction, VEC direction".toList = "direction".toList ++ ", VEC direction".toList by decide]
      simp only [List.append_assoc]
    rw [e, strIndex_skip (c := 'd') (cs := "irection".toList) (by decide) _ (strIndex_here (by decide))]
    · simp only [List.length_append, List.length_replicate, show "origin at".toList.length = 9 by decide, show "axis in".toList.length = 7 by decide,
        Except.ok.injEq]
      omega
    · intro h
      simp only [List.mem_append] at h
      rcases h with (((h | h) | h) | h) | h
      · exact not_mem_replicate_space k (by decide) h
      · revert h; decide
      · exact h2 h
      · revert h; decide
      · exact h3 h
  have dl : l.drop (k + 16 + so.length + sa.length + 1) = "irection, VEC ".toList ++ ("direction".toList ++ sv) := by
    have e : l = (List.replicate k ' ' ++ "origin at".toList ++ so ++ "axis in".toList ++ sa ++ ['d']) ++ ("irection, VEC ".toList ++ ("direction".toList ++ sv)) := by
      rw [hl, show "direction, VEC direction".toList = 'd' :: ("irection, VEC ".toList ++ "direction".toList) by decide]
      simp only [List.append_assoc, List.cons_append, List.nil_append]
    have hlen : (List.replicate k ' ' ++ "origin at".toList ++ so ++ "axis in".toList ++ sa ++ ['d']).length = k + 16 + so.length + sa.length + 1 := by
      simp only [List.length_append, List.length_replicate, show "origin at".toList.length = 9 by decide, show "axis in".toList.length = 7 by decide,
        List.length_singleton]
      omega
    rw [e, ← hlen, List.drop_left]
  have i5 : strIndex "direction".toList (l.drop (k + 16 + so.length + sa.length + 1)) = .ok 14 := by
    rw [dl, strIndex_skip (c := 'd') (cs := "irection".toList) (by decide) (by decide) (strIndex_here (by decide))]
    rfl
  have s1 : slice (k + 7 + 2) (k + 9 + so.length) l = so := by
    have := slice_mid (List.replicate k ' ' ++ "origin at".toList) so ("axis in".toList ++ (sa ++ ("direction, VEC direction".toList ++ sv)))
    rw [List.length_append, List.length_replicate, show "origin at".toList.length = 9 by decide] at this
    rw [hl]; simpa only [List.append_assoc, Nat.add_assoc] using this
  have s2 : slice (k + 9 + so.length + 7) (k + 16 + so.length + sa.length) l = sa := by
    have := slice_mid (List.replicate k ' ' ++ "origin at".toList ++ so ++ "axis in".toList) sa ("direction, VEC direction".toList ++ sv)
    simp only [List.length_append, List.length_replicate, show "origin at".toList.length = 9 by decide, show "axis in".toList.length = 7 by decide] at this
    rw [show k + 16 + so.length + sa.length = k + 9 + so.length + 7 + sa.length by omega, hl]
    simpa only [List.append_assoc] using this
  have s3 : l.drop (k + 16 + so.length + sa.length + 1 + 14 + 9) = sv := by
    rw [show k + 16 + so.length + sa.length + 1 + 14 + 9 = (k + 16 + so.length + sa.length + 1) + 23 by omega, ← List.drop_drop, dl]
    rw [← List.append_assoc, show 23 = ("irection, VEC ".toList ++ "direction".toList).length by decide, List.drop_left]
  unfold cylPlace
  simp only [c6, if_true, i1, i2, i3, i4, i5, s1, s2, s3, vec3_of n1, vec3_of n2, vec3_of n3, bind, Except.bind, pure, Except.pure, Except.map]
  rw [hp]

theorem cylPlace5 {num : ParseNum} {l : Str} {o a : Vec} (h : PlaceLine5 num l o a) {p : Option Trsf}
    (hp : getTransformation o a none = .ok p) :
    cylPlace num l = .ok (p.map (fun t => ⟨t, a, none⟩)) := by
  obtain ⟨k, so, sa, hl, h1, h2, h4, h5, h3, h6, n1, n2⟩ := h
  have c6 : contains "VEC direction".toList l = false := by
    apply contains_false
    intro hc
    have hv : 'V' ∈ l := hc.subset (by decide)
    rw [hl] at hv
    simp only [List.mem_append] at hv
    rcases hv with (((((h | h) | h) | h) | h) | h)
    · exact not_mem_replicate_space k (by decide) h
    · revert h; decide
    · exact h5 h
    · revert h; decide
    · exact h6 h
    · revert h; decide
  have i1 : strIndex "at".toList l = .ok (k + 7) := by
    have := index_at k (so ++ (", axis in".toList ++ (sa ++ "direction\n".toList)))
    rw [hl]; simpa only [List.append_assoc] using this
  have i2 : strIndex ",".toList l = .ok (k + 9 + so.length) := by
    have e : l = (List.replicate k ' ' ++ "origin at".toList ++ so) ++ (",".toList ++ (" axis in".toList ++ (sa ++ "direction\n".toList))) := by
      rw [hl, show ", axis in".toList = ",".toList ++ " axis in".toList by decide]
      simp only [List.append_assoc]
    rw [e, strIndex_skip (c := ',') (cs := []) (by decide) _ (strIndex_here (by decide))]
    · simp only [List.length_append, List.length_replicate, show "origin at".toList.length = 9 by decide, Nat.add_zero]
    · intro h
      simp only [List.mem_append] at h
      rcases h with (h | h) | h
      · exact not_mem_replicate_space k (by decide) h
      · revert h; decide
      · exact h4 h
  have i3 : strIndex "axis in".toList l = .ok (k + 11 + so.length) := by
    have := index_axis (sub := "axis in".toList) (cs := "is in".toList) k (so ++ ", ".toList) ("axis in".toList ++ (sa ++ "direction\n".toList)) (by decide)
      (by
        intro h
        rcases List.mem_append.1 h with h | h
        · exact h1 h
        · revert h; decide) (strIndex_here (by decide))
    have e : l = List.replicate k ' ' ++ "origin at".toList ++ (so ++ ", ".toList) ++ ("axis in".toList ++ (sa ++ "direction\n".toList)) := by
      rw [hl, show ", axis in".toList = ", ".toList ++ "axis in".toList by decide]
      simp only [List.append_assoc]
    rw [e, this, List.length_append, show ", ".toList.length = 2 by decide]
    simp only [Except.ok.injEq]; omega
  have i4 : strIndex "direction".toList l = .ok (k + 18 + so.length + sa.length) := by
    have e : l = (List.replicate k ' ' ++ "origin at".toList ++ so ++ ", axis in".toList ++ sa) ++ ("direction".toList ++ "\n".toList) := by
      rw [hl, show "direction\n".toList = "direction".toList ++ "\n".toList by decide]
    rw [e, strIndex_skip (c := 'd') (cs := "irection".toList) (by decide) _ (strIndex_here (by decide))]
    · simp only [List.length_append, List.length_replicate, show "origin at".toList.length = 9 by decide, show ", axis in".toList.length = 9 by decide,
        Except.ok.injEq]
      omega
    · intro h
      simp only [List.mem_append] at h
      rcases h with (((h | h) | h) | h) | h
      · exact not_mem_replicate_space k (by decide) h
      · revert h; decide
      · exact h2 h
      · revert h; decide
      · exact h3 h
  have s1 : slice (k + 7 + 2) (k + 9 + so.length) l = so := by
    have := slice_mid (List.replicate k ' ' ++ "origin at".toList) so (", axis in".toList ++ (sa ++ "direction\n".toList))
    rw [List.length_append, List.length_replicate, show "origin at".toList.length = 9 by decide] at this
    rw [hl]; simpa only [List.append_assoc, Nat.add_assoc] using this
  have s2 : slice (k + 11 + so.length + 7) (k + 18 + so.length + sa.length) l = sa := by
    have := slice_mid (List.replicate k ' ' ++ "origin at".toList ++ so ++ ", axis in".toList) sa "direction\n".toList
    simp only [List.length_append, List.length_replicate, show "origin at".toList.length = 9 by decide, show ", axis in".toList.length = 9 by decide] at this
    rw [show k + 11 + so.length + 7 = k + 9 + so.length + 9 by omega, show k + 18 + so.length + sa.length = k + 9 + so.length + 9 + sa.length by omega, hl]
    exact this
  unfold cylPlace
  simp only [c6, Bool.false_eq_true, if_false, i1, i2, i3, i4, s1, s2, vec3_of n1, vec3_of n2, bind, Except.bind, pure, Except.pure]
  rw [hp]

theorem place_infix6 {num : ParseNum} {l : Str} {o a v : Vec} (h : PlaceLine6 num l o a v) : "origin at".toList <:+: l := by
  obtain ⟨k, so, sa, sv, rfl, _⟩ := h
  refine ⟨List.replicate k ' ', so ++ ("axis in".toList ++ (sa ++ ("direction, VEC direction".toList ++ sv))), ?_⟩
  simp only [List.append_assoc]

theorem place_infix5 {num : ParseNum} {l : Str} {o a : Vec} (h : PlaceLine5 num l o a) : "origin at".toList <:+: l := by
  obtain ⟨k, so, sa, rfl, _⟩ := h
  refine ⟨List.replicate k ' ', so ++ (", axis in".toList ++ (sa ++ "direction\n".toList)), ?_⟩
  simp only [List.append_assoc]

theorem originLine_flat {num : ParseNum} {l : Str} (ls : List Str) (h : ¬ "origin at".toList <:+: l) : originLine num (l :: ls) = .ok (false, none, l :: ls) := by
  unfold originLine
  rw [if_neg]
  rw [List.headD_cons, contains_false h]
  simp

theorem originLine_cyl {num : ParseNum} {l : Str} {p : Option Place} (ls : List Str) (h : "origin at".toList <:+: l) (hp : cylPlace num l = .ok p) :
    originLine num (l :: ls) = .ok (true, p, ls) := by
  unfold originLine
  rw [if_pos, List.headD_cons, hp]
  · rfl
  · rw [List.headD_cons, contains_true h]

/-- the bins are read as they stand; `r` is where the reader then is: after the blank line if there is one list -/
theorem boundaries_of {num : ParseNum} {b : Bounds} {bins : List Str} (h : ShowsBounds num b bins) {gap : Str} (hg : IsBlank gap) (rest : List Str) :
    ∃ r, boundaries num (bins ++ gap :: rest) = .ok (b, r) ∧ (b.tbin = noTime → r = rest) ∧ (b.tbin ≠ noTime → r = gap :: rest) := by
  obtain ⟨pl, l1, l2, l3, ex, lab1, lab2, lab3, rfl, hpl, h1, h2, h3, hex, ho⟩ := h
  obtain ⟨r, hr, hr'⟩ := extraLines_of hex hg rest
  have horig : originLine num (pl ++ l1 :: l2 :: l3 :: ex ++ gap :: rest) = .ok (b.cyl, b.place, l1 :: l2 :: l3 :: (ex ++ gap :: rest)) := by
    rcases b with ⟨cyl, place, x1, x2, x3, e, t⟩
    simp only at hpl ho ⊢
    cases hpl with
    | flat => exact originLine_flat _ (ho rfl)
    | cyl6 hl hp => exact originLine_cyl _ (place_infix6 hl) (cylPlace6 hl hp)
    | cyl5 hl hp => exact originLine_cyl _ (place_infix5 hl) (cylPlace5 hl hp)
  refine ⟨r, ?_, ?_⟩
  · unfold boundaries
    rw [horig]
    simp only [bind, Except.bind, pure, Except.pure, List.headD_cons, List.tail_cons, binList_of h1, binList_of h2, binList_of h3, hr]
  · exact hr'

/-! ### the head -/

theorem headLoop_of {c : List Str} {k : Str} (hc : ∀ l ∈ c, ¬ "mesh tally.".toList <:+: l) (hk : "mesh tally.".toList <:+: k) (rest : List Str) (acc : Str) :
    headLoop (c ++ k :: rest) acc = .ok (acc ++ c.flatten, k) := by
  induction c generalizing acc with
  | nil => rw [List.nil_append, headLoop, if_pos (contains_true hk)]; simp
  | cons l c ih =>
    rw [List.cons_append, headLoop, contains_false (hc l (by simp))]
    simp only [Bool.false_eq_true, if_false]
    rw [ih (fun l hl => hc l (List.mem_cons_of_mem _ hl))]
    simp

theorem header_of {n : Nat} {t : TallyText} (h : IsTally n t) (rest : List Str) :
    header (t.lines ++ rest) = .ok (particleOf t.kind, if t.comment.flatten = [] then none else some t.comment.flatten) := by
  unfold header
  have e : (t.lines ++ rest).tail = t.comment ++ t.kind :: ((t.more ++ t.gap :: t.title :: t.fromBins) ++ rest) := by
    simp [TallyText.lines]
  rw [e, headLoop_of (fun l hl => (h.comment l hl).2) h.kind.2]
  simp

end F4Enix.MeshFile
