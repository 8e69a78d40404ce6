import Verif.Inp.XsdirProps
import Verif.Out.OutpCut
/-!
# Cross section directories that were cut off (xsdirpyne.py)
-/
namespace F4Enix.Xs
open F4Enix F4Enix.Outp

/-- without the signs at the end (xsdirpyne.py:146-149) -/
def strip1 (ws : List Str) : List Str := (ws.reverse.dropWhile (fun w => w = "+".toList)).reverse

/-- the first six words of an entry: name, ratio, file, access, type, address (specification) -/
def Table.place (t : Table) : Str × ℚ × Str × Str × ℤ × ℤ := (t.name, t.awr, t.filename, t.access, t.filetype, t.address)

theorem strip1_plus (u : List Str) : strip1 (u ++ ["+".toList]) = strip1 u := by
  unfold strip1
  rw [List.reverse_append]
  simp

theorem strip1_word {u : List Str} {w : Str} (h : w ≠ "+".toList) : strip1 (u ++ [w]) = u ++ [w] := by
  unfold strip1
  rw [List.reverse_append, List.reverse_singleton, List.singleton_append, List.dropWhile_cons,
    if_neg (by simpa using h)]
  simp

theorem strip1_prefix (u : List Str) : strip1 u <+: u := by
  unfold strip1
  have := List.dropWhile_suffix (l := u.reverse) (fun w => decide (w = "+".toList))
  rw [← List.reverse_prefix, List.reverse_reverse] at this
  exact this

/-- stripping a longer list leaves more -/
theorem strip1_mono (u x : List Str) : strip1 u <+: strip1 (u ++ x) := by
  induction x using List.reverseRecOn with
  | nil => rw [List.append_nil]
  | append_singleton x w ih =>
    rw [← List.append_assoc]
    by_cases h : w = "+".toList
    · rw [h, strip1_plus]; exact ih
    · rw [strip1_word h]
      exact ((strip1_prefix u).trans (List.prefix_append _ _)).trans (List.prefix_append _ _)

theorem strip1_le {u v : List Str} (h : u <+: v) : strip1 u <+: strip1 v := by
  obtain ⟨x, rfl⟩ := h
  exact strip1_mono u x

theorem last_split {u : List Str} {w : Str} (h : u.getLast? = some w) : u = u.dropLast ++ [w] := by
  cases u using List.reverseRecOn with
  | nil => simp at h
  | append_singleton a b => simp at h; simp [h]

/-- the words of an entry begin with those of its lines -/
theorem joinCont_words {ws ls W rest : List Str} (h : joinCont ws ls = .ok (W, rest)) : strip1 ws <+: W := by
  induction ls generalizing ws with
  | nil =>
    rw [joinCont] at h
    split_ifs at h
    simp only [Except.ok.injEq, Prod.mk.injEq] at h
    rw [← h.1]; exact List.prefix_refl _
  | cons l ls ih =>
    rw [joinCont] at h
    cases hl : ws.getLast? with
    | none => rw [hl] at h; simp at h
    | some w =>
      rw [hl] at h
      simp only at h
      by_cases hw : w = "+".toList
      · rw [if_pos hw] at h
        have e := last_split hl
        rw [e, hw, strip1_plus]
        exact (strip1_mono _ _).trans (ih h)
      · rw [if_neg hw] at h
        simp only [Except.ok.injEq, Prod.mk.injEq] at h
        rw [← h.1]; exact strip1_prefix _

theorem broken_words {part l : Str} (h : part <+: l) (u : List Str) :
    (strip1 (u ++ tokens part)).dropLast <+: strip1 (u ++ tokens l) := by
  rcases tokens_prefix h with ⟨x, hx⟩ | ⟨ts, w, w', h1, h2, h3, ⟨x, h4⟩⟩
  · rw [← hx, ← List.append_assoc]
    exact (List.dropLast_prefix _).trans (strip1_mono _ _)
  · rw [h3, ← h4, ← List.append_assoc]
    by_cases hp : w' = "+".toList
    · rw [hp, strip1_plus]
      refine (List.dropLast_prefix _).trans (strip1_le ?_)
      rw [List.append_assoc, ← List.append_assoc u]
      exact List.prefix_append _ _
    · rw [strip1_word hp, List.dropLast_concat]
      have hw : w ≠ "+".toList := by
        rintro rfl
        apply hp
        have e : "+".toList = ['+'] := by decide
        rw [e] at h2 ⊢
        cases w' with
        | nil => exact absurd rfl h1
        | cons c r =>
          obtain ⟨rfl, h5⟩ := List.cons_prefix_cons.1 h2
          rw [List.prefix_nil.mp h5]
      have : strip1 (u ++ ts ++ [w]) <+: strip1 (u ++ (ts ++ [w] ++ x)) := by
        have e : u ++ (ts ++ [w] ++ x) = u ++ ts ++ [w] ++ x := by simp
        rw [e]
        exact strip1_mono _ _
      rw [strip1_word hw] at this
      exact (List.prefix_append _ _).trans this

/-- an entry of a file that was cut off: it ends before the end of the file, or is the last thing there is -/
theorem joinCont_cut {ws pre tl W rest : List Str} (ht : tl.length ≤ 1) (h : joinCont ws (pre ++ tl) = .ok (W, rest)) :
    (∃ pre2, pre2.length ≤ pre.length ∧ rest = pre2 ++ tl ∧ ∀ tl2, tl2 ≠ [] → joinCont ws (pre ++ tl2) = .ok (W, pre2 ++ tl2)) ∨
    rest = [] := by
  induction pre generalizing ws with
  | nil =>
    rw [List.nil_append] at h
    cases tl with
    | nil =>
      rw [joinCont] at h
      split_ifs at h
      simp only [Except.ok.injEq, Prod.mk.injEq] at h
      exact .inr h.2.symm
    | cons p t =>
      have : t = [] := by simp at ht; exact ht
      subst this
      rw [joinCont] at h
      cases hl : ws.getLast? with
      | none => rw [hl] at h; simp at h
      | some w =>
        rw [hl] at h
        simp only at h
        by_cases hw : w = "+".toList
        · rw [if_pos hw, joinCont] at h
          split_ifs at h
          simp only [Except.ok.injEq, Prod.mk.injEq] at h
          exact .inr h.2.symm
        · rw [if_neg hw] at h
          simp only [Except.ok.injEq, Prod.mk.injEq] at h
          refine .inl ⟨[], by simp, h.2.symm, ?_⟩
          intro tl2 h2
          cases tl2 with
          | nil => exact absurd rfl h2
          | cons a b =>
            rw [List.nil_append, joinCont, hl]
            simp only
            rw [if_neg hw, h.1]
  | cons x pre ih =>
    rw [List.cons_append, joinCont] at h
    cases hl : ws.getLast? with
    | none => rw [hl] at h; simp at h
    | some w =>
      rw [hl] at h
      simp only at h
      by_cases hw : w = "+".toList
      · rw [if_pos hw] at h
        rcases ih h with ⟨pre2, h1, h2, h3⟩ | h1
        · refine .inl ⟨pre2, by simp; omega, h2, ?_⟩
          intro tl2 h4
          rw [List.cons_append, joinCont, hl]
          simp only
          rw [if_pos hw]
          exact h3 tl2 h4
        · exact .inr h1
      · rw [if_neg hw] at h
        simp only [Except.ok.injEq, Prod.mk.injEq] at h
        refine .inl ⟨x :: pre, le_refl _, h.2.symm, ?_⟩
        intro tl2 _
        rw [List.cons_append, joinCont, hl]
        simp only
        rw [if_neg hw, h.1]

/-- all words of the last entry but its last one are words of the entry of the whole file -/
theorem joinCont_last {ws pre W W' rest rest' : List Str} {part l : Str} {post tl : List Str} (hp : part <+: l)
    (ht : tl = [] ∨ tl = [part]) (h : joinCont ws (pre ++ tl) = .ok (W, rest))
    (h' : joinCont ws (pre ++ l :: post) = .ok (W', rest')) : W.dropLast <+: W' := by
  induction pre generalizing ws with
  | nil =>
    rw [List.nil_append] at h h'
    rcases ht with rfl | rfl
    · rw [joinCont] at h
      split_ifs at h
      simp only [Except.ok.injEq, Prod.mk.injEq] at h
      rw [← h.1]
      exact (List.dropLast_prefix _).trans (joinCont_words h')
    · rw [joinCont] at h h'
      cases hl : ws.getLast? with
      | none => rw [hl] at h; simp at h
      | some w =>
        rw [hl] at h h'
        simp only at h h'
        by_cases hw : w = "+".toList
        · rw [if_pos hw, joinCont] at h
          rw [if_pos hw] at h'
          split_ifs at h
          simp only [Except.ok.injEq, Prod.mk.injEq] at h
          rw [← h.1]
          exact (broken_words hp _).trans (joinCont_words h')
        · rw [if_neg hw] at h h'
          simp only [Except.ok.injEq, Prod.mk.injEq] at h h'
          rw [← h.1, ← h'.1]
          exact List.dropLast_prefix _
  | cons x pre ih =>
    rw [List.cons_append, joinCont] at h h'
    cases hl : ws.getLast? with
    | none => rw [hl] at h; simp at h
    | some w =>
      rw [hl] at h h'
      simp only at h h'
      by_cases hw : w = "+".toList
      · rw [if_pos hw] at h h'
        exact ih h h'
      · rw [if_neg hw] at h h'
        simp only [Except.ok.injEq, Prod.mk.injEq] at h h'
        rw [← h.1, ← h'.1]
        exact List.dropLast_prefix _

/-- two entries with the same first six words are at the same place -/
theorem makeTable_place {pf : Str → Option ℚ} {W W' : List Str} {t t' : Table} (h : makeTable pf W = .ok t)
    (h' : makeTable pf W' = .ok t') (hp : W.dropLast <+: W') : t.place = t'.place := by
  match W, h with
  | n :: a :: f :: acc :: ft :: ad :: tl :: r, h =>
    have hp' : [n, a, f, acc, ft, ad] <+: W' := by
      refine List.IsPrefix.trans ?_ hp
      simp only [List.dropLast_cons_cons]
      exact ⟨_, rfl⟩
    obtain ⟨r', rfl⟩ := hp'
    cases r' with
    | nil => simp [makeTable] at h'
    | cons tl' r' =>
      simp only [List.cons_append, List.nil_append] at h'
      unfold makeTable at h h'
      simp only at h h'
      cases h1 : pf a with
      | none => rw [h1] at h; simp at h
      | some a' =>
        cases h2 : parseInt ft with
        | none => rw [h1, h2] at h; simp at h
        | some ft' =>
          cases h3 : parseInt ad with
          | none => rw [h1, h2, h3] at h; simp at h
          | some ad' =>
            rw [h1, h2, h3] at h h'
            cases h4 : parseInt tl with
            | none => rw [h4] at h; simp at h
            | some x =>
              cases h5 : parseInt tl' with
              | none => rw [h5] at h'; simp at h'
              | some y =>
                rw [h4] at h
                rw [h5] at h'
                simp only at h h'
                split at h <;> split at h' <;> simp only [Except.ok.injEq, reduceCtorEq] at h h'
                subst h h'
                rfl

theorem tablesLoop_nil (pf : Str → Option ℚ) (n : Nat) : tablesLoop pf n [] = .ok [] := by
  cases n <;> simp [tablesLoop]

/-- the tables of a directory that was cut off -/
theorem cut_tables {pf : Str → Option ℚ} {pre tl post : List Str} {part l : Str} (hp : part <+: l)
    (ht : tl = [] ∨ tl = [part]) {n m : Nat} (hn : (pre ++ tl).length ≤ n) (hm : (pre ++ l :: post).length ≤ m)
    {ts ts' : List Table} (h : tablesLoop pf n (pre ++ tl) = .ok ts) (h' : tablesLoop pf m (pre ++ l :: post) = .ok ts') :
    ts.dropLast <+: ts' ∧ ts.map Table.place <+: ts'.map Table.place := by
  have ht1 : tl.length ≤ 1 := by rcases ht with rfl | rfl <;> simp
  -- one entry that is the last thing in the file
  have one : ∀ {ws ws' ls ls' : List Str}, (∀ W rest W' rest', joinCont ws ls = .ok (W, rest) → joinCont ws' ls' = .ok (W', rest') →
      W.dropLast <+: W') → ∀ {n m : Nat} {ts ts' : List Table}, (∀ W rest, joinCont ws ls = .ok (W, rest) → rest = []) →
      (match joinCont ws ls with
        | .error e => Except.error e
        | .ok (ws, ls') =>
          match makeTable pf ws with
          | .error e => .error e
          | .ok t =>
            match tablesLoop pf n ls' with
            | .error e => .error e
            | .ok ts => .ok (t :: ts)) = .ok ts →
      (match joinCont ws' ls' with
        | .error e => Except.error e
        | .ok (ws, ls') =>
          match makeTable pf ws with
          | .error e => .error e
          | .ok t =>
            match tablesLoop pf m ls' with
            | .error e => .error e
            | .ok ts => .ok (t :: ts)) = .ok ts' →
      ts.dropLast <+: ts' ∧ ts.map Table.place <+: ts'.map Table.place := by
    intro ws ws' ls ls' hw n m ts ts' hr h h'
    cases hj : joinCont ws ls with
    | error e => rw [hj] at h; simp at h
    | ok x =>
      obtain ⟨W, rest⟩ := x
      rw [hj] at h
      simp only at h
      obtain rfl := hr W rest hj
      cases hj' : joinCont ws' ls' with
      | error e => rw [hj'] at h'; simp at h'
      | ok y =>
        obtain ⟨W', rest'⟩ := y
        rw [hj'] at h'
        simp only at h'
        cases hk : makeTable pf W with
        | error e => rw [hk] at h; simp at h
        | ok t =>
          cases hk' : makeTable pf W' with
          | error e => rw [hk'] at h'; simp at h'
          | ok t' =>
            rw [hk, tablesLoop_nil] at h
            rw [hk'] at h'
            simp only [Except.ok.injEq] at h
            simp only at h'
            subst h
            cases hq : tablesLoop pf m rest' with
            | error e => rw [hq] at h'; simp at h'
            | ok qs =>
              rw [hq] at h'
              simp only [Except.ok.injEq] at h'
              subst h'
              refine ⟨List.nil_prefix, ?_⟩
              simp only [List.map_cons, List.map_nil]
              exact List.cons_prefix_cons.2 ⟨makeTable_place hk hk' (hw _ _ _ _ hj hj'), List.nil_prefix⟩
  induction n generalizing pre m ts ts' with
  | zero =>
    rw [tablesLoop] at h
    simp only [Except.ok.injEq] at h
    subst h
    exact ⟨List.nil_prefix, List.nil_prefix⟩
  | succ n ih =>
    cases m with
    | zero => simp at hm
    | succ m =>
      cases pre with
      | nil =>
        rcases ht with rfl | rfl
        · rw [List.nil_append, tablesLoop_nil] at h
          simp only [Except.ok.injEq] at h
          subst h
          exact ⟨List.nil_prefix, List.nil_prefix⟩
        · rw [List.nil_append, tablesLoop] at h h'
          by_cases h0 : tokens part = []
          · rw [if_pos h0] at h
            simp only [Except.ok.injEq] at h
            subst h
            exact ⟨List.nil_prefix, List.nil_prefix⟩
          · have h1 : tokens l ≠ [] := by
              intro e
              have := tokens_prefix_length hp
              rw [e] at this
              exact h0 (List.length_eq_zero_iff.1 (by simpa using this))
            rw [if_neg h0] at h
            rw [if_neg h1] at h'
            refine one ?_ ?_ h h'
            · intro W rest W' rest' g g'
              rw [joinCont] at g
              split_ifs at g
              simp only [Except.ok.injEq, Prod.mk.injEq] at g
              rw [← g.1]
              have := broken_words hp []
              rw [List.nil_append, List.nil_append] at this
              exact this.trans (joinCont_words g')
            · intro W rest g
              rw [joinCont] at g
              split_ifs at g
              simp only [Except.ok.injEq, Prod.mk.injEq] at g
              exact g.2.symm
      | cons x pre =>
        rw [List.cons_append, tablesLoop] at h h'
        by_cases h0 : tokens x = []
        · rw [if_pos h0] at h
          simp only [Except.ok.injEq] at h
          subst h
          exact ⟨List.nil_prefix, List.nil_prefix⟩
        · rw [if_neg h0] at h h'
          cases hj : joinCont (tokens x) (pre ++ tl) with
          | error e => rw [hj] at h; simp at h
          | ok y =>
            obtain ⟨W, rest⟩ := y
            rcases joinCont_cut ht1 hj with ⟨pre2, g1, g2, g3⟩ | g
            · rw [hj] at h
              rw [g3 (l :: post) (by simp)] at h'
              simp only at h h'
              cases hk : makeTable pf W with
              | error e => rw [hk] at h; simp at h
              | ok t =>
                rw [hk] at h h'
                simp only at h h'
                rw [g2] at h
                cases hq : tablesLoop pf n (pre2 ++ tl) with
                | error e => rw [hq] at h; simp at h
                | ok qs =>
                  cases hq' : tablesLoop pf m (pre2 ++ l :: post) with
                  | error e => rw [hq'] at h'; simp at h'
                  | ok qs' =>
                    rw [hq] at h
                    rw [hq'] at h'
                    simp only [Except.ok.injEq] at h h'
                    subst h h'
                    simp only [List.cons_append, List.length_cons, List.length_append] at hn hm
                    obtain ⟨i1, i2⟩ := ih (by rw [List.length_append]; omega) (by rw [List.length_append, List.length_cons]; omega) hq hq'
                    refine ⟨?_, by simp only [List.map_cons]; exact List.cons_prefix_cons.2 ⟨rfl, i2⟩⟩
                    cases qs with
                    | nil => exact List.nil_prefix
                    | cons q qs =>
                      rw [List.dropLast_cons_of_ne_nil (by simp)]
                      exact List.cons_prefix_cons.2 ⟨rfl, i1⟩
            · exact one (fun W rest W' rest' e e' => joinCont_last hp ht e e')
                (fun W2 rest2 e => by rw [hj] at e; simp only [Except.ok.injEq, Prod.mk.injEq] at e; rw [← e.2]; exact g) h h'

/-- the ratios of a directory that was cut off: complete, or the file ends with the line that closes them -/
theorem awrLoop_cut {d d' : Dict Str Str} {pre tl ws ls : List Str} (ht : tl.length ≤ 1)
    (h : awrLoop d (pre ++ tl) = .ok (d', ws, ls)) :
    (∃ pre2, ls = pre2 ++ tl ∧ ∀ tl2, awrLoop d (pre ++ tl2) = .ok (d', ws, pre2 ++ tl2)) ∨ ls = [] := by
  induction pre generalizing d with
  | nil =>
    rw [List.nil_append] at h
    cases tl with
    | nil => simp [awrLoop] at h
    | cons p t =>
      have : t = [] := by simpa using ht
      subst this
      rw [awrLoop] at h
      split_ifs at h
      · simp only [Except.ok.injEq, Prod.mk.injEq] at h
        exact .inr h.2.2.symm
      · cases hk : tokens p with
        | nil => rw [hk] at h; simp at h
        | cons w ws' =>
          rw [hk] at h
          simp only at h
          split_ifs at h
          · simp only [Except.ok.injEq, Prod.mk.injEq] at h
            exact .inr h.2.2.symm
          · simp [awrLoop] at h
  | cons x pre ih =>
    rw [List.cons_append, awrLoop] at h
    by_cases h1 : (tokens x).length % 2 ≠ 0
    · rw [if_pos h1] at h
      simp only [Except.ok.injEq, Prod.mk.injEq] at h
      obtain ⟨e1, e2, e3⟩ := h
      refine .inl ⟨pre, e3.symm, fun tl2 => ?_⟩
      rw [List.cons_append, awrLoop, if_pos h1, e1, e2]
    · rw [if_neg h1] at h
      cases hk : tokens x with
      | nil => rw [hk] at h; simp at h
      | cons w ws' =>
        rw [hk] at h
        simp only at h
        by_cases h2 : w = "directory".toList
        · rw [if_pos h2] at h
          simp only [Except.ok.injEq, Prod.mk.injEq] at h
          obtain ⟨e1, e2, e3⟩ := h
          refine .inl ⟨pre, e3.symm, fun tl2 => ?_⟩
          rw [List.cons_append, awrLoop, if_neg h1, hk]
          simp only
          rw [if_pos h2, e1, e2]
        · rw [if_neg h2] at h
          rcases ih h with ⟨pre2, e1, e2⟩ | e1
          · refine .inl ⟨pre2, e1, fun tl2 => ?_⟩
            rw [List.cons_append, awrLoop, if_neg h1, hk]
            simp only
            rw [if_neg h2]
            exact e2 tl2
          · exact .inr e1

theorem dirLoop_cut {ws pre tl r : List Str} (ht : tl.length ≤ 1) (h : dirLoop ws (pre ++ tl) = .ok r) :
    (∃ pre2, r = pre2 ++ tl ∧ ∀ tl2, dirLoop ws (pre ++ tl2) = .ok (pre2 ++ tl2)) ∨ r = [] := by
  induction pre generalizing ws with
  | nil =>
    rw [List.nil_append] at h
    cases ws with
    | nil => simp [dirLoop] at h
    | cons w ws =>
      rw [dirLoop.eq_def] at h
      simp only at h
      by_cases hw : w = "directory".toList
      · rw [if_pos hw] at h
        simp only [Except.ok.injEq] at h
        refine .inl ⟨[], by simpa using h.symm, fun tl2 => ?_⟩
        rw [dirLoop.eq_def]
        simp only
        rw [if_pos hw]
      · rw [if_neg hw] at h
        cases tl with
        | nil => simp at h
        | cons p t =>
          have : t = [] := by simpa using ht
          subst this
          simp only at h
          cases hk : tokens p with
          | nil => rw [hk] at h; simp [dirLoop] at h
          | cons v vs =>
            rw [hk, dirLoop.eq_def] at h
            simp only at h
            split_ifs at h
            simp only [Except.ok.injEq] at h
            exact .inr h.symm
  | cons x pre ih =>
    cases ws with
    | nil => simp [dirLoop] at h
    | cons w ws =>
      rw [dirLoop.eq_def] at h
      simp only [List.cons_append] at h
      by_cases hw : w = "directory".toList
      · rw [if_pos hw] at h
        simp only [Except.ok.injEq] at h
        refine .inl ⟨x :: pre, by simpa using h.symm, fun tl2 => ?_⟩
        rw [dirLoop.eq_def]
        simp only
        rw [if_pos hw]
      · rw [if_neg hw] at h
        rcases ih h with ⟨pre2, e1, e2⟩ | e1
        · refine .inl ⟨pre2, e1, fun tl2 => ?_⟩
          rw [dirLoop.eq_def]
          simp only [List.cons_append]
          rw [if_neg hw]
          exact e2 tl2
        · exact .inr e1

theorem read_two (pf : Str → Option ℚ) (a b : Str) (rest : List Str) : read pf (a :: b :: rest) =
    match readDatapath a with
    | .error e => .error e
    | .ok dp =>
      if isTitle b then
        match awrLoop [] rest with
        | .error e => .error e
        | .ok (d, ws, ls) =>
          match dirLoop ws ls with
          | .error e => .error e
          | .ok ls' =>
            match tablesLoop pf ls'.length ls' with
            | .error e => .error e
            | .ok ts => .ok ⟨dp, d, ts⟩
      else .error .assertionError := rfl

/-- **A cross section directory that was cut off.** If it can be read, and the whole file too, all its tables but
the last are the first tables of the whole file, the last one too up to its address, and if there are any tables
the path of the data and the ratios are those of the whole file. -/
theorem cut_directory {pf : Str → Option ℚ} {ls' ls : List Str} (h : CutOf ls' ls) {x x' : Xsdir}
    (h1 : read pf ls' = .ok x) (h2 : read pf ls = .ok x') :
    x.tables.dropLast <+: x'.tables ∧ x.tables.map Table.place <+: x'.tables.map Table.place ∧
      (x.tables = [] ∨ x.datapath = x'.datapath ∧ x.awr = x'.awr) := by
  rcases h with rfl | ⟨pre, l, post, part, rfl, hp, _, rfl⟩
  · rw [h1] at h2
    simp only [Except.ok.injEq] at h2
    subst h2
    exact ⟨List.dropLast_prefix _, List.prefix_refl _, .inr ⟨rfl, rfl⟩⟩
  have ht : (if part = [] then [] else [part]) = [] ∨ (if part = [] then [] else [part]) = [part] := by
    split_ifs <;> simp
  generalize (if part = [] then [] else [part] : List Str) = tl at h1 ht
  have ht1 : tl.length ≤ 1 := by rcases ht with rfl | rfl <;> simp
  -- two whole lines are needed
  match pre, h1, h2 with
  | [], h1, _ =>
    exfalso
    have noTitle : isTitle [] = false := by decide +kernel
    unfold read at h1
    rcases ht with rfl | rfl
    · cases hd : readDatapath ((([] ++ []) : List Str).headD []) with
      | error e => rw [hd] at h1; simp at h1
      | ok dp =>
        rw [hd] at h1
        simp only [List.nil_append, List.tail_nil, List.headD_nil] at h1
        simp [noTitle] at h1
    · cases hd : readDatapath ((([] ++ [part]) : List Str).headD []) with
      | error e => rw [hd] at h1; simp at h1
      | ok dp =>
        rw [hd] at h1
        simp only [List.nil_append, List.tail_cons, List.headD_nil] at h1
        simp [noTitle] at h1
  | [a], h1, _ =>
    exfalso
    unfold read at h1
    have e : (([a] ++ tl).tail.tail) = [] := by rcases ht with rfl | rfl <;> rfl
    cases hd : readDatapath (([a] ++ tl).headD []) with
    | error e => rw [hd] at h1; simp at h1
    | ok dp =>
      rw [hd, e] at h1
      simp only [awrLoop] at h1
      split_ifs at h1
  | a :: b :: pre, h1, h2 =>
    rw [List.cons_append, List.cons_append, read_two] at h1 h2
    cases hd : readDatapath a with
    | error e => rw [hd] at h1; simp at h1
    | ok dp =>
      rw [hd] at h1 h2
      simp only at h1 h2
      by_cases hb : isTitle b = true
      · rw [if_pos hb] at h1 h2
        cases hw : awrLoop [] (pre ++ tl) with
        | error e => rw [hw] at h1; simp at h1
        | ok y =>
          obtain ⟨d, ws, rest⟩ := y
          rw [hw] at h1
          simp only at h1
          have none_left : ∀ {ls2 : List Str}, ls2 = [] → (match tablesLoop pf ls2.length ls2 with
              | .error e => Except.error e
              | .ok ts => .ok (Xsdir.mk dp d ts)) = .ok x → x.tables = [] := by
            rintro _ rfl g
            rw [tablesLoop_nil] at g
            simp only [Except.ok.injEq] at g
            rw [← g]
          rcases awrLoop_cut ht1 hw with ⟨pre2, q1, q2⟩ | q1
          · rw [q2 (l :: post)] at h2
            simp only at h2
            subst q1
            cases hdl : dirLoop ws (pre2 ++ tl) with
            | error e => rw [hdl] at h1; simp at h1
            | ok r =>
              rw [hdl] at h1
              simp only at h1
              rcases dirLoop_cut ht1 hdl with ⟨pre3, r1, r2⟩ | r1
              · rw [r2 (l :: post)] at h2
                simp only at h2
                subst r1
                cases hk : tablesLoop pf (pre3 ++ tl).length (pre3 ++ tl) with
                | error e => rw [hk] at h1; simp at h1
                | ok ts =>
                  cases hk' : tablesLoop pf (pre3 ++ l :: post).length (pre3 ++ l :: post) with
                  | error e => rw [hk'] at h2; simp at h2
                  | ok ts' =>
                    rw [hk] at h1
                    rw [hk'] at h2
                    simp only [Except.ok.injEq] at h1 h2
                    subst h1 h2
                    obtain ⟨c1, c2⟩ := cut_tables hp ht (le_refl _) (le_refl _) hk hk'
                    exact ⟨c1, c2, .inr ⟨rfl, rfl⟩⟩
              · have := none_left r1 h1
                rw [this]
                exact ⟨List.nil_prefix, List.nil_prefix, .inl rfl⟩
          · subst q1
            have nil : ∀ r, dirLoop ws [] = .ok r → r = [] := by
              intro r hr
              cases ws with
              | nil => simp [dirLoop] at hr
              | cons w ws =>
                rw [dirLoop.eq_def] at hr
                simp only at hr
                split_ifs at hr
                simpa using hr.symm
            cases hdl : dirLoop ws [] with
            | error e => rw [hdl] at h1; simp at h1
            | ok r =>
              rw [hdl] at h1
              simp only at h1
              have := none_left (nil r hdl) h1
              rw [this]
              exact ⟨List.nil_prefix, List.nil_prefix, .inl rfl⟩
      · rw [if_neg hb] at h1; simp at h1

/-- the whole sample (example) -/
def wholeDir : List Str := ["datapath = /xs\n".toList, "atomic weight ratios\n".toList, "1001 0.99\n".toList, "directory\n".toList,
  "1001.31c 0.99 fendl/h1 0 1 10 500 0 0 2.53E-08\n".toList, "1002.31c 1.99 fendl/h2 0 1 20 1234 0 0 2.53E-08\n".toList]
/-- the sample cut off within a number (example) -/
def cutDir : List Str := wholeDir.take 5 ++ ["1002.31c 1.99 fendl/h2 0 1 20 12".toList]
/-- the sample cut off before its last table (example) -/
def lostDir : List Str := wholeDir.take 5
/-- numbers of the sample, by their length (example) -/
def lenNum (w : Str) : Option ℚ := some (w.length : ℚ)

/-- a table of the wrong length, and tables that are missing, without a word -/
theorem directory_broken : (∃ x x' t t', CutOf cutDir wholeDir ∧ read lenNum cutDir = .ok x ∧ read lenNum wholeDir = .ok x' ∧
      x.tables[1]? = some t ∧ x'.tables[1]? = some t' ∧ t.tablelength = 12 ∧ t'.tablelength = 1234) ∧
    ∃ x, CutOf lostDir wholeDir ∧ read lenNum lostDir = .ok x ∧ x.tables.length = 1 := by
  refine ⟨⟨⟨some "/xs".toList, [("1001".toList, "0.99".toList)], _⟩, ⟨some "/xs".toList, [("1001".toList, "0.99".toList)], _⟩,
    ⟨"1002.31c".toList, 4, "fendl/h2".toList, "0".toList, 1, 20, 12, none, none, none, false⟩,
    ⟨"1002.31c".toList, 4, "fendl/h2".toList, "0".toList, 1, 20, 1234, some 0, some 0, some 8, false⟩,
    .inr ⟨wholeDir.take 5, _, [], "1002.31c 1.99 fendl/h2 0 1 20 12".toList, rfl, by decide +kernel, by decide +kernel, by decide +kernel⟩,
    (by decide +kernel : read lenNum cutDir = .ok ⟨some "/xs".toList, [("1001".toList, "0.99".toList)],
      [⟨"1001.31c".toList, 4, "fendl/h1".toList, "0".toList, 1, 10, 500, some 0, some 0, some 8, false⟩,
       ⟨"1002.31c".toList, 4, "fendl/h2".toList, "0".toList, 1, 20, 12, none, none, none, false⟩]⟩),
    (by decide +kernel : read lenNum wholeDir = .ok ⟨some "/xs".toList, [("1001".toList, "0.99".toList)],
      [⟨"1001.31c".toList, 4, "fendl/h1".toList, "0".toList, 1, 10, 500, some 0, some 0, some 8, false⟩,
       ⟨"1002.31c".toList, 4, "fendl/h2".toList, "0".toList, 1, 20, 1234, some 0, some 0, some 8, false⟩]⟩), rfl, rfl, rfl, rfl⟩,
    ⟨some "/xs".toList, [("1001".toList, "0.99".toList)], _⟩,
    .inr ⟨lostDir, _, [], [], rfl, List.nil_prefix, by decide +kernel, by simp⟩,
    (by decide +kernel : read lenNum lostDir = .ok ⟨some "/xs".toList, [("1001".toList, "0.99".toList)],
      [⟨"1001.31c".toList, 4, "fendl/h1".toList, "0".toList, 1, 10, 500, some 0, some 0, some 8, false⟩]⟩), rfl⟩

end F4Enix.Xs
