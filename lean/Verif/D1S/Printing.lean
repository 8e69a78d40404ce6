import Verif.D1S.InputProps
/-!
# What is shown of a reaction file (C214)

`ReactionFile._print` (src/f4enix/input/d1suned.py:678-688): `print(file)` and the value shown by an interpreter.
-/
namespace F4Enix.D1S
open F4Enix

/-- `REACFORMAT.format("Parent", "MT", "Daughter", "Comment") + "\n"` (d1suned.py:679) -/
def titleRow : Str :=
  (List.zipWith padLeft reacCols ["Parent".toList, "MT".toList, "Daughter".toList, "Comment".toList]).flatten ++ ['\n']

/-- the loop of `ReactionFile._print` (d1suned.py:680-681) -/
def printLoop (text : Str) : List Reaction → Str
  | [] => text
  | r :: rs => printLoop (text ++ r.row) rs

/-- `ReactionFile._print`, `__str__`, `__repr__` (d1suned.py:678-688) -/
def printReactions (rs : List Reaction) : Str := printLoop titleRow rs

/-- `Reaction._nice_print` (d1suned.py:778-787): one line for each of the four, a missing comment is `None` -/
def Reaction.nicePrint (r : Reaction) : Str :=
  "\nparent: ".toList ++ r.parent ++ "\nMT channel: ".toList ++ intStr r.mt ++ "\ndaughter: ".toList ++ r.daughter ++
    "\ncomment: ".toList ++ r.comment.getD "None".toList ++ ['\n']

theorem printLoop_eq (t : Str) (rs : List Reaction) : printLoop t rs = t ++ (rs.map Reaction.row).flatten := by
  induction rs generalizing t with
  | nil => simp [printLoop]
  | cons r rs ih => simp [printLoop, ih]

/-- the title as it is read by a person: four words behind blanks (specification) -/
def titleText : Str := "       Parent     MT    Daughter                                 Comment\n".toList

/-- C214: a title line, then exactly the text that `write` puts into a file. -/
theorem print_written (rs : List Reaction) : printReactions rs = titleText ++ writeReactions rs := by
  unfold printReactions writeReactions
  rw [printLoop_eq]
  congr 1

/-- What is shown cannot be read as a file again: the title line is refused. -/
theorem title_refused : Reaction.fromText titleText = .error .valueError ∧ isBlankLine titleText = false ∧ isCommentLine titleText = false := by
  refine ⟨?_, ?_, ?_⟩ <;> decide +kernel

theorem lines_title (t : Str) : fileLines (titleText ++ t) = titleText :: fileLines t := by
  have e : titleText = titleText.dropLast ++ ['\n'] := by decide +kernel
  rw [e, List.append_assoc]
  exact fileLines_line _ _ (by decide +kernel)

/-- No file shown, of any number of reactions, can be read again: reading ends at the title. -/
theorem print_unreadable (rs : List Reaction) : readReactions (printReactions rs) = .error .valueError := by
  unfold readReactions
  rw [print_written, lines_title]
  unfold readReactionLines
  rw [title_refused.2.1, title_refused.2.2, title_refused.1]
  rfl

theorem line_cancel {a b x y : Str} (ha : '\n' ∉ a) (hb : '\n' ∉ b) (h : a ++ '\n' :: x = b ++ '\n' :: y) : a = b ∧ x = y := by
  induction a generalizing b with
  | nil =>
    cases b with
    | nil => exact ⟨rfl, by simpa using h⟩
    | cons c b =>
      simp only [List.nil_append, List.cons_append, List.cons.injEq] at h
      exact absurd (h.1 ▸ List.mem_cons_self) hb
  | cons c a ih =>
    cases b with
    | nil =>
      simp only [List.nil_append, List.cons_append, List.cons.injEq] at h
      exact absurd (h.1 ▸ List.mem_cons_self) ha
    | cons c' b =>
      simp only [List.cons_append, List.cons.injEq] at h
      obtain ⟨h1, h2⟩ := ih (fun m => ha (List.mem_cons_of_mem _ m)) (fun m => hb (List.mem_cons_of_mem _ m)) h.2
      exact ⟨by rw [h.1, h1], h2⟩

theorem intStr_no_newline (i : Int) : '\n' ∉ intStr i := by
  intro h
  have := (intStr_isWord i).2 _ h
  revert this
  decide +kernel

/-- What is shown of a single reaction tells it from every other one, except that a missing comment looks like the comment `None`. -/
theorem nice_tells {r s : Reaction} (h : r.nicePrint = s.nicePrint) (hr : '\n' ∉ r.parent) (hs : '\n' ∉ s.parent) (hr' : '\n' ∉ r.daughter)
    (hs' : '\n' ∉ s.daughter) :
    r.parent = s.parent ∧ r.mt = s.mt ∧ r.daughter = s.daughter ∧ r.comment.getD "None".toList = s.comment.getD "None".toList := by
  have e1 : "\nMT channel: ".toList = '\n' :: "MT channel: ".toList := by decide +kernel
  have e2 : "\ndaughter: ".toList = '\n' :: "daughter: ".toList := by decide +kernel
  have e3 : "\ncomment: ".toList = '\n' :: "comment: ".toList := by decide +kernel
  unfold Reaction.nicePrint at h
  rw [e1, e2, e3] at h
  simp only [List.append_assoc, List.cons_append] at h
  have h1 := List.append_cancel_left h
  obtain ⟨p, h2⟩ := line_cancel hr hs h1
  have h3 := List.append_cancel_left h2
  obtain ⟨m, h4⟩ := line_cancel (intStr_no_newline _) (intStr_no_newline _) h3
  have h5 := List.append_cancel_left h4
  obtain ⟨d, h6⟩ := line_cancel hr' hs' h5
  have h7 := List.append_cancel_left h6
  exact ⟨p, intStr_inj m, d, List.append_cancel_right h7⟩

/-- the first reaction of the documentation's file with its comment (example) -/
def shownReaction : Reaction := ⟨"26054.99c".toList, 102, "26055".toList, some "Fe55".toList⟩

example : printReactions [shownReaction] =
    "       Parent     MT    Daughter                                 Comment\n    26054.99c    102       26055                                    Fe55\n".toList := by
  decide +kernel

example : '\n' ∉ shownReaction.parent ∧ '\n' ∉ shownReaction.daughter := by decide +kernel

end F4Enix.D1S
