import Verif.Out.FispactProps
import Verif.Out.OutpCut
/-!
# FISPACT outputs that were cut off (fispact_legacy_out.py)
-/
namespace F4Enix.Fispact
open F4Enix F4Enix.Outp

/-- the title of the loops, before the paths (fispact_legacy_out.py:157-165) -/
def startMark : Str := "Significant loops".toList
/-- the title after the paths (fispact_legacy_out.py:157-165) -/
def endMark : Str := "G E N E R I C   P A T H W".toList

theorem bounds_append (a b : List Str) (n : Nat) (x : Option Nat × Option Nat) :
    bounds n (a ++ b) x = bounds (n + a.length) b (bounds n a x) := by
  induction a generalizing n x with
  | nil => rfl
  | cons l a ih =>
    rw [List.cons_append, bounds, bounds]
    have e : n + (l :: a).length = n + 1 + a.length := by rw [List.length_cons]; omega
    rw [e]
    split_ifs <;> exact ih _ _

/-- lines without titles do not matter -/
theorem bounds_quiet {a : List Str} (h : ∀ l ∈ a, ¬ startMark <:+: l ∧ ¬ endMark <:+: l) (n : Nat) (x : Option Nat × Option Nat) :
    bounds n a x = x := by
  induction a generalizing n with
  | nil => rfl
  | cons l a ih =>
    obtain ⟨h1, h2⟩ := h l (by simp)
    rw [bounds, if_neg (by rw [contains_iff]; exact h1), if_neg (by rw [contains_iff]; exact h2)]
    exact ih (fun l' hl => h l' (by simp [hl])) _

theorem bounds_noEnd {a : List Str} (h : ∀ l ∈ a, endMark <:+: l → startMark <:+: l) (n : Nat) (x : Option Nat × Option Nat) :
    (bounds n a x).2 = x.2 := by
  induction a generalizing n x with
  | nil => rfl
  | cons l a ih =>
    have ih' := fun n x => ih (fun l' hl => h l' (by simp [hl])) n x
    rw [bounds]
    by_cases h1 : contains "Significant loops".toList l = true
    · rw [if_pos h1, ih']
    · rw [if_neg h1, if_neg, ih']
      intro h2
      exact h1 ((contains_iff _ _).2 (h l (by simp) ((contains_iff _ _).1 h2)))

theorem bounds_noStart {a : List Str} (h : ∀ l ∈ a, ¬ startMark <:+: l) (n : Nat) (x : Option Nat × Option Nat) :
    (bounds n a x).1 = x.1 := by
  induction a generalizing n x with
  | nil => rfl
  | cons l a ih =>
    have ih' := fun n x => ih (fun l' hl => h l' (by simp [hl])) n x
    rw [bounds, if_neg (by rw [contains_iff]; exact h l (by simp))]
    by_cases h1 : contains "G E N E R I C   P A T H W".toList l = true
    · rw [if_pos h1, ih']
    · rw [if_neg h1, ih']

/-- an output with one section of paths: one line with the first title and a later one with the second (specification) -/
structure OneSection (ls p m q : List Str) (s e : Str) : Prop where
  lines : ls = p ++ s :: (m ++ e :: q)
  quiet : ∀ l, l ∈ p ∨ l ∈ m ∨ l ∈ q → ¬ startMark <:+: l ∧ ¬ endMark <:+: l
  start : startMark <:+: s
  close : endMark <:+: e ∧ ¬ startMark <:+: e

theorem mid_lines (p m r : List Str) (s : Str) :
    ((p ++ s :: (m ++ r)).take (p.length + 1 + m.length)).drop (p.length + 1) = m := by
  have e : p ++ s :: (m ++ r) = (p ++ [s]) ++ (m ++ r) := by simp
  have l : (p ++ [s]).length = p.length + 1 := by simp
  rw [e, ← l, List.take_length_add_append, List.drop_left, List.take_left]

/-- what is read of such an output: the lines between the titles -/
theorem section_read (num : Str → Option ℚ) {ls p m q : List Str} {s e : Str} (h : OneSection ls p m q s e) :
    fromFile num ls = readPaths num m := by
  have hb : bounds 0 ls (none, none) = (some p.length, some (p.length + 1 + m.length)) := by
    rw [h.lines, bounds_append, bounds_quiet (fun l hl => h.quiet l (.inl hl)), bounds,
      if_pos (show contains "Significant loops".toList s = true from (contains_iff _ _).2 h.start), bounds_append, bounds_quiet (fun l hl => h.quiet l (.inr (.inl hl))), bounds,
      if_neg (by rw [contains_iff]; exact h.close.2), if_pos (show contains "G E N E R I C   P A T H W".toList e = true from (contains_iff _ _).2 h.close.1),
      bounds_quiet (fun l hl => h.quiet l (.inr (.inr hl)))]
    simp
  unfold fromFile
  rw [hb, h.lines]
  simp only
  rw [mid_lines]

/-- **A FISPACT output with one section of paths that was cut off** is refused, or gives exactly the paths of the
whole file. -/
theorem cut_paths (num : Str → Option ℚ) {ls' ls p m q : List Str} {s e : Str} (h : OneSection ls p m q s e)
    (hc : CutOf ls' ls) : fromFile num ls' = fromFile num ls ∨ fromFile num ls' = .error .unboundLocal := by
  rcases hc with rfl | ⟨pre, l, post, part, e1, hp, _, rfl⟩
  · exact .inl rfl
  have sub : ∀ mk : Str, mk <:+: part → mk <:+: l := fun mk hm => hm.trans hp.isInfix
  have tlm : ∀ x ∈ (if part = [] then [] else [part] : List Str), x = part := by
    intro x hx; split_ifs at hx <;> simp at hx; exact hx
  have refused : ∀ ls2, (bounds 0 ls2 (none, none)).1 = none ∨ (bounds 0 ls2 (none, none)).2 = none →
      fromFile num ls2 = .error .unboundLocal := by
    intro ls2 hb
    unfold fromFile
    rcases hb' : bounds 0 ls2 (none, none) with ⟨x, y⟩
    rw [hb'] at hb
    rcases hb with hb | hb <;> simp only at hb <;> subst hb
    · rfl
    · cases x <;> rfl
  have hl := h.lines
  rw [e1] at hl
  -- where the cut is
  rcases List.append_eq_append_iff.1 hl with ⟨a, ha1, ha2⟩ | ⟨a, ha1, ha2⟩
  · -- within the lines before the first title, or in it
    cases a with
    | nil =>
      simp only [List.nil_append, List.cons.injEq] at ha2
      obtain ⟨rfl, _⟩ := ha2
      rw [List.append_nil] at ha1
      subst ha1
      by_cases hs : startMark <:+: part
      · refine .inr (refused _ (.inr ?_))
        rw [bounds_noEnd]
        intro x hx _
        rcases List.mem_append.1 hx with hx | hx
        · exact absurd ‹_› (h.quiet x (.inl hx)).2
        · rw [tlm x hx]; exact hs
      · refine .inr (refused _ (.inl ?_))
        rw [bounds_noStart]
        intro x hx
        rcases List.mem_append.1 hx with hx | hx
        · exact (h.quiet x (.inl hx)).1
        · rw [tlm x hx]; exact hs
    | cons a0 a =>
      simp only [List.cons_append, List.cons.injEq] at ha2
      obtain ⟨rfl, _⟩ := ha2
      refine .inr (refused _ (.inl ?_))
      rw [bounds_noStart]
      intro x hx
      rcases List.mem_append.1 hx with hx | hx
      · exact (h.quiet x (.inl (by rw [ha1]; simp [hx]))).1
      · rw [tlm x hx]
        intro hh
        exact (h.quiet l (.inl (by rw [ha1]; simp))).1 (sub _ hh)
  · cases a with
    | nil =>
      simp only [List.nil_append, List.cons.injEq] at ha2
      obtain ⟨rfl, _⟩ := ha2
      rw [List.append_nil] at ha1
      subst ha1
      by_cases hs : startMark <:+: part
      · refine .inr (refused _ (.inr ?_))
        rw [bounds_noEnd]
        intro x hx _
        rcases List.mem_append.1 hx with hx | hx
        · exact absurd ‹_› (h.quiet x (.inl hx)).2
        · rw [tlm x hx]; exact hs
      · refine .inr (refused _ (.inl ?_))
        rw [bounds_noStart]
        intro x hx
        rcases List.mem_append.1 hx with hx | hx
        · exact (h.quiet x (.inl hx)).1
        · rw [tlm x hx]; exact hs
    | cons a0 a =>
      simp only [List.cons_append, List.cons.injEq] at ha2
      obtain ⟨rfl, ha2⟩ := ha2
      subst ha1
      -- the first title is there
      have noEnd : ∀ m1 : List Str, (∀ x ∈ m1, x ∈ m) → ¬ endMark <:+: part →
          fromFile num (p ++ s :: m1 ++ (if part = [] then [] else [part])) = .error .unboundLocal := by
        intro m1 hm1 hpart
        refine refused _ (.inr ?_)
        rw [bounds_noEnd]
        intro x hx hx2
        rcases List.mem_append.1 hx with hx | hx
        · rcases List.mem_append.1 hx with hx | hx
          · exact absurd hx2 (h.quiet x (.inl hx)).2
          · rcases List.mem_cons.1 hx with rfl | hx
            · exact h.start
            · exact absurd hx2 (h.quiet x (.inr (.inl (hm1 x hx)))).2
        · rw [tlm x hx] at hx2
          exact absurd hx2 hpart
      have complete : ∀ (e' : Str) (q' : List Str), endMark <:+: e' → ¬ startMark <:+: e' →
          (∀ x ∈ q', ¬ startMark <:+: x ∧ ¬ endMark <:+: x) →
          fromFile num (p ++ s :: (m ++ e' :: q')) = fromFile num ls := by
        intro e' q' h1 h2 h3
        rw [section_read num h]
        exact section_read num ⟨rfl, fun x hx => by
          rcases hx with hx | hx | hx
          · exact h.quiet x (.inl hx)
          · exact h.quiet x (.inr (.inl hx))
          · exact h3 x hx, h.start, ⟨h1, h2⟩⟩
      rcases List.append_eq_append_iff.1 ha2 with ⟨b, hb1, hb2⟩ | ⟨b, hb1, hb2⟩
      · -- a is m with something
        cases b with
        | nil =>
          simp only [List.nil_append, List.cons.injEq] at hb2
          obtain ⟨rfl, _⟩ := hb2
          rw [List.append_nil] at hb1
          subst hb1
          by_cases he : endMark <:+: part
          · refine .inl ?_
            have hne : part ≠ [] := by
              rintro rfl
              rw [List.infix_nil] at he
              revert he; decide +kernel
            rw [if_neg hne, List.append_assoc]
            exact complete part [] he (fun hs => h.close.2 (sub _ hs)) (by simp)
          · exact .inr (noEnd _ (fun x hx => hx) he)
        | cons b0 b =>
          simp only [List.cons_append, List.cons.injEq] at hb2
          obtain ⟨rfl, hb2⟩ := hb2
          refine .inl ?_
          have e2 : p ++ s :: a ++ (if part = [] then [] else [part]) =
              p ++ s :: (m ++ e :: (b ++ (if part = [] then [] else [part]))) := by rw [hb1]; simp
          rw [e2]
          refine complete e _ h.close.1 h.close.2 ?_
          intro x hx
          rcases List.mem_append.1 hx with hx | hx
          · exact h.quiet x (.inr (.inr (by rw [hb2]; simp [hx])))
          · rw [tlm x hx]
            have := h.quiet l (.inr (.inr (by rw [hb2]; simp)))
            exact ⟨fun hh => this.1 (sub _ hh), fun hh => this.2 (sub _ hh)⟩
      · cases b with
        | nil =>
          simp only [List.nil_append, List.cons.injEq] at hb2
          obtain ⟨rfl, _⟩ := hb2
          rw [List.append_nil] at hb1
          subst hb1
          by_cases he : endMark <:+: part
          · refine .inl ?_
            have hne : part ≠ [] := by
              rintro rfl
              rw [List.infix_nil] at he
              revert he; decide +kernel
            rw [if_neg hne, List.append_assoc]
            exact complete part [] he (fun hs => h.close.2 (sub _ hs)) (by simp)
          · exact .inr (noEnd _ (fun x hx => hx) he)
        | cons b0 b =>
          simp only [List.cons_append, List.cons.injEq] at hb2
          obtain ⟨rfl, hb2⟩ := hb2
          refine .inr (noEnd a (fun x hx => by rw [hb1]; simp [hx]) ?_)
          intro hh
          exact (h.quiet l (.inr (.inl (by rw [hb1]; simp)))).2 (sub _ hh)

/-- the text of a file that was cut off anywhere -/
theorem cut_text (num : Str → Option ℚ) {cut text : Str} {p m q : List Str} {s e : Str}
    (h : OneSection (fileLines text) p m q s e) (hc : cut <+: text) :
    fromFile num (fileLines cut) = fromFile num (fileLines text) ∨ fromFile num (fileLines cut) = .error .unboundLocal :=
  cut_paths num h (cutOf_text hc)

/-- the lines of two sections, each with one path (example) -/
def twoSections : List Str := ["Significant loops\n".toList, " path  1 10.0% Fe56 ---> Fe57\n".toList, " 100.0%(n,g)\n".toList,
  "G E N E R I C   P A T H W A Y S\n".toList, "Significant loops\n".toList, " path  1 20.0% Ni58 ---> Ni59\n".toList,
  " 100.0%(n,g)\n".toList, "G E N E R I C   P A T H W A Y S\n".toList]

/-- a file with several sections that was cut off in the last one: no paths at all and no message -/
theorem sections_lost : ∃ (num : Str → Option ℚ) (ls' : List Str) (p : Pathway), CutOf ls' twoSections ∧
    fromFile num twoSections = .ok [p] ∧ fromFile num ls' = .ok [] :=
  ⟨fun w => some (w.length : ℚ), twoSections.take 6, ⟨⟨"Ni".toList, "58".toList, false⟩, ⟨"Ni".toList, "59".toList, false⟩, 4, ["(n,g)".toList], none⟩, .inr ⟨twoSections.take 6, _, twoSections.drop 7, [], rfl, List.nil_prefix,
    by decide +kernel, by simp⟩,
    by decide +kernel,
    by decide +kernel⟩

/-- the first section of the sample alone -/
example : OneSection (twoSections.take 4) [] [" path  1 10.0% Fe56 ---> Fe57\n".toList, " 100.0%(n,g)\n".toList] []
    "Significant loops\n".toList "G E N E R I C   P A T H W A Y S\n".toList where
  lines := rfl
  quiet := by
    intro l hl
    simp only [List.not_mem_nil, false_or, or_false, List.mem_cons] at hl
    rcases hl with rfl | rfl <;> decide +kernel
  start := by decide +kernel
  close := by decide +kernel

end F4Enix.Fispact
