import Verif.Inp.Reading
import Verif.Inp.ReadingTight
/-!
# The comments of a card (`auxiliary.get_comments`) (C182)
-/
namespace F4Enix.Comm
open F4Enix F4Enix.Inp

/-! ### model -/

/-- `.*\n` at the head of a text: up to and with the first newline, `none` if there is none (`.` matches anything but a newline) (Python, auxiliary.py:31-54) -/
def restOfLine : Str → Option Str
  | [] => none
  | c :: s => if c = '\n' then some ['\n'] else (restOfLine s).map (c :: ·)

/-- `PAT_COMMENT_TEXT.match(line)` with `[Cc]\s.*\n` (constants.py:41) -/
def cComment : Str → Option Str
  | c :: d :: s => if (c = 'C' ∨ c = 'c') ∧ isSpace d = true then (restOfLine s).map (fun t => c :: d :: t) else none
  | _ => none

/-- `PAT_DOLLAR_COMMENT.search(line)` with `\$.*\n` (constants.py:44) -/
def dollarComment : Str → Option Str
  | [] => none
  | c :: s =>
    if c = '$' then
      match restOfLine s with
      | some t => some ('$' :: t)
      | none => dollarComment s
    else dollarComment s

/-- `get_comments` (auxiliary.py:31-54) -/
def getComments : List Str → Str
  | [] => []
  | l :: ls => (cComment l).getD [] ++ (dollarComment l).getD [] ++ getComments ls

/-! ### specification -/

/-- what stands on a line of a card: a comment line, or data with or without a comment behind a dollar sign (specification) -/
inductive LineKind where
  /-- `c` or `C`, a space character and the text -/
  | comment (c d : Char) (text : Str)
  | data (text : Str)
  | both (text comment : Str)

/-- the line, with its end (specification) -/
def LineKind.line : LineKind → Str
  | .comment c d t => c :: d :: t ++ ['\n']
  | .data t => t ++ ['\n']
  | .both t k => t ++ '$' :: k ++ ['\n']

/-- the comment that stands on it (specification) -/
def LineKind.said : LineKind → Str
  | .comment c d t => c :: d :: t ++ ['\n']
  | .data _ => []
  | .both _ k => '$' :: k ++ ['\n']

/-- no newline within, no dollar sign in data, and data does not begin like a comment (specification) -/
def LineKind.Ok : LineKind → Prop
  | .comment c d t => (c = 'C' ∨ c = 'c') ∧ isSpace d = true ∧ d ≠ '\n' ∧ '\n' ∉ t
  | .data t => '\n' ∉ t ∧ '$' ∉ t ∧ isComment t = false
  | .both t k => '\n' ∉ t ∧ '$' ∉ t ∧ isComment (t ++ ['$']) = false ∧ '\n' ∉ k

/-! ### lemmas -/

theorem restOfLine_line {t : Str} (h : '\n' ∉ t) (s : Str) : restOfLine (t ++ '\n' :: s) = some (t ++ ['\n']) := by
  induction t with
  | nil => simp [restOfLine]
  | cons c t ih =>
    simp only [List.mem_cons, not_or] at h
    rw [List.cons_append, restOfLine, if_neg (fun e => h.1 e.symm), ih h.2]
    rfl

theorem restOfLine_none {t : Str} (h : '\n' ∉ t) : restOfLine t = none := by
  induction t with
  | nil => rfl
  | cons c t ih =>
    simp only [List.mem_cons, not_or] at h
    rw [restOfLine, if_neg (fun e => h.1 e.symm), ih h.2]
    rfl

theorem dollar_none {t : Str} (h : '$' ∉ t) : dollarComment t = none := by
  induction t with
  | nil => rfl
  | cons c t ih =>
    simp only [List.mem_cons, not_or] at h
    rw [dollarComment, if_neg (fun e => h.1 e.symm), ih h.2]

theorem dollar_some {t k : Str} (h : '$' ∉ t) (hk : '\n' ∉ k) (s : Str) : dollarComment (t ++ '$' :: (k ++ '\n' :: s)) = some ('$' :: (k ++ ['\n'])) := by
  induction t with
  | nil => rw [List.nil_append, dollarComment, if_pos rfl, restOfLine_line hk]
  | cons c t ih =>
    simp only [List.mem_cons, not_or] at h
    rw [List.cons_append, dollarComment, if_neg (fun e => h.1 e.symm), ih h.2]

theorem cComment_none {l : Str} (h : isComment l = false) : cComment l = none := by
  cases l with
  | nil => rfl
  | cons c l =>
    cases l with
    | nil => rfl
    | cons d s =>
      rw [cComment, if_neg]
      rintro ⟨h1, h2⟩
      rcases h1 with rfl | rfl <;> simp [isComment, h2] at h

theorem isComment_append {t : Str} (h : isComment t = false) (hl : t.length ≠ 1) (ht : t ≠ []) (s : Str) : isComment (t ++ s) = false := by
  cases t with
  | nil => exact absurd rfl ht
  | cons c t =>
    cases t with
    | nil => simp at hl
    | cons d u => exact h

theorem cComment_cons (c d : Char) (s : Str) :
    cComment (c :: d :: s) = if (c = 'C' ∨ c = 'c') ∧ isSpace d = true then (restOfLine s).map (fun t => c :: d :: t) else none := rfl

theorem cComment_line {c d : Char} {t : Str} (h : (LineKind.comment c d t).Ok) : cComment (c :: d :: t ++ ['\n']) = some (c :: d :: t ++ ['\n']) := by
  obtain ⟨h1, h2, h3, h4⟩ := h
  have : c :: d :: t ++ ['\n'] = c :: d :: (t ++ '\n' :: []) := rfl
  rw [this, cComment_cons, if_pos ⟨h1, h2⟩, restOfLine_line h4]
  rfl

/-- **C182 (one line).** -/
theorem line_comments (k : LineKind) (h : k.Ok) (hd : ∀ c d t, k = .comment c d t → '$' ∉ t) (hs : ∀ t, k = .data t → isComment (t ++ ['\n']) = false) :
    (cComment k.line).getD [] ++ (dollarComment k.line).getD [] = k.said := by
  cases k with
  | comment c d t =>
    obtain ⟨h1, h2, h3, h4⟩ := h
    have e1 : cComment (LineKind.comment c d t).line = some (c :: d :: t ++ ['\n']) := cComment_line ⟨h1, h2, h3, h4⟩
    have e2 : dollarComment (LineKind.comment c d t).line = none := by
      apply dollar_none
      simp only [LineKind.line, List.mem_append, List.mem_cons, List.not_mem_nil, or_false, not_or]
      refine ⟨⟨?_, ?_, hd c d t rfl⟩, by decide⟩
      · rintro rfl; rcases h1 with e | e <;> exact absurd e (by decide)
      · rintro rfl; exact absurd h2 (by decide)
    rw [e1, e2]
    simp [LineKind.said]
  | data t =>
    obtain ⟨h1, h2, h3⟩ := h
    have e1 : cComment (LineKind.data t).line = none := cComment_none (hs t rfl)
    have e2 : dollarComment (LineKind.data t).line = none := by
      apply dollar_none
      simp only [LineKind.line, List.mem_append, List.mem_singleton, not_or]
      exact ⟨h2, by decide⟩
    rw [e1, e2]
    rfl
  | both t k =>
    obtain ⟨h1, h2, h3, h4⟩ := h
    have e1 : cComment (LineKind.both t k).line = none := by
      apply cComment_none
      cases t with
      | nil => cases k <;> rfl
      | cons c t =>
        cases t with
        | nil =>
          have : isComment (LineKind.both [c] k).line = isComment ([c] ++ ['$']) := rfl
          rw [this]
          exact h3
        | cons d u => exact h3
    have e2 : dollarComment (LineKind.both t k).line = some ('$' :: (k ++ ['\n'])) := by
      have := dollar_some h2 h4 []
      simpa [LineKind.line] using this
    rw [e1, e2]
    simp [LineKind.said]

/-- **C182.** The comments of a card are those of its lines, in order and complete: comment lines as they are, and behind data what follows the first dollar
sign with it. (Missing: see `dollar_twice`, `last_line_lost`, `indented_lost`.) -/
theorem comments_partial (ks : List LineKind) (h : ∀ k ∈ ks, k.Ok) (hd : ∀ k ∈ ks, ∀ c d t, k = .comment c d t → '$' ∉ t)
    (hs : ∀ k ∈ ks, ∀ t, k = .data t → isComment (t ++ ['\n']) = false) :
    getComments (ks.map LineKind.line) = (ks.map LineKind.said).flatten := by
  induction ks with
  | nil => rfl
  | cons k ks ih =>
    rw [List.map_cons, getComments, line_comments k (h k (by simp)) (hd k (by simp)) (hs k (by simp)),
      ih (fun x hx => h x (by simp [hx])) (fun x hx => hd x (by simp [hx])) (fun x hx => hs x (by simp [hx]))]
    rfl

/-- **C182 is false of the code for a dollar sign in a comment line**: the end of the comment is given twice. -/
theorem dollar_twice (c d : Char) (t u : Str) (h : (LineKind.comment c d (t ++ '$' :: u)).Ok) (ht : '$' ∉ t) :
    getComments [(LineKind.comment c d (t ++ '$' :: u)).line] = (LineKind.comment c d (t ++ '$' :: u)).said ++ '$' :: (u ++ ['\n']) := by
  have h0 := h
  obtain ⟨h1, h2, h3, h4⟩ := h0
  simp only [List.mem_append, List.mem_cons, not_or] at h4
  have e1 : cComment (LineKind.comment c d (t ++ '$' :: u)).line = some (LineKind.comment c d (t ++ '$' :: u)).said := cComment_line h
  have e2 : dollarComment (LineKind.comment c d (t ++ '$' :: u)).line = some ('$' :: (u ++ ['\n'])) := by
    have : (LineKind.comment c d (t ++ '$' :: u)).line = (c :: d :: t) ++ '$' :: (u ++ '\n' :: []) := by simp [LineKind.line]
    rw [this]
    apply dollar_some _ h4.2.2
    simp only [List.mem_cons, not_or]
    refine ⟨?_, ?_, ht⟩
    · rintro rfl; rcases h1 with e | e <;> exact absurd e (by decide)
    · rintro rfl; exact absurd h2 (by decide)
  rw [getComments, getComments, e1, e2]
  simp

/-- **C182 is false of the code for a last line without newline**: its comment is not given. -/
theorem last_line_lost (ls : List Str) (l : Str) (h : '\n' ∉ l) : getComments (ls ++ [l]) = getComments ls := by
  have e2 : dollarComment l = none := by
    induction l with
    | nil => rfl
    | cons c s ih =>
      simp only [List.mem_cons, not_or] at h
      rw [dollarComment, restOfLine_none h.2, ih h.2]
      simp
  have e1 : cComment l = none := by
    cases l with
    | nil => rfl
    | cons c l =>
      cases l with
      | nil => rfl
      | cons d s =>
        rw [cComment, restOfLine_none (fun hm => h (by simp [hm]))]
        simp
  induction ls with
  | nil => simp [getComments, e1, e2]
  | cons x ls ih => rw [List.cons_append, getComments, ih, getComments]

/-- **C182 is false of the code for an indented comment line** (MCNP takes a `c` in the first five columns): it is not given. -/
theorem indented_lost (n : Nat) (c d : Char) (t : Str) (hn : 0 < n) (h : '$' ∉ c :: d :: t) : getComments [List.replicate n ' ' ++ c :: d :: t ++ ['\n']] = [] := by
  have e1 : cComment (List.replicate n ' ' ++ c :: d :: t ++ ['\n']) = none := by
    obtain ⟨m, rfl⟩ : ∃ m, n = m + 1 := ⟨n - 1, by omega⟩
    apply cComment_none
    rw [List.replicate_succ, List.cons_append, List.cons_append]
    cases m with
    | zero => simp [isComment]
    | succ m => rw [List.replicate_succ]; simp [isComment]
  have e2 : dollarComment (List.replicate n ' ' ++ c :: d :: t ++ ['\n']) = none := by
    apply dollar_none
    simp only [List.mem_append, List.mem_singleton, not_or]
    refine ⟨⟨?_, h⟩, by decide⟩
    intro hm
    exact absurd (List.eq_of_mem_replicate hm) (by decide)
  rw [getComments, e1, e2]
  rfl

/-! ### concrete cases -/

/-- `exLines` (example) -/
def exLines : List LineKind :=
  [.comment 'C' ' ' "first wall".toList, .both "1 0 -1 ".toList " cooling $ no".toList, .data "     imp:n=1".toList, .comment 'c' '\t' [],
   .both [] "alone".toList]

theorem exLines_ok : ∀ k ∈ exLines, k.Ok := by
  intro k hk
  simp only [exLines, List.mem_cons, List.not_mem_nil, or_false] at hk
  rcases hk with rfl | rfl | rfl | rfl | rfl <;> (unfold LineKind.Ok; decide)

example : getComments (exLines.map LineKind.line) = "C first wall\n$ cooling $ no\nc\t\n$alone\n".toList := by
  rw [comments_partial exLines exLines_ok ?_ ?_]
  · decide
  · intro k hk c d t e
    subst e
    simp only [exLines, List.mem_cons, List.not_mem_nil, or_false, LineKind.comment.injEq, reduceCtorEq, false_or] at hk
    rcases hk with ⟨-, -, rfl⟩ | ⟨-, -, rfl⟩ <;> decide
  · intro k hk t e
    subst e
    simp only [exLines, List.mem_cons, List.not_mem_nil, or_false, LineKind.data.injEq, reduceCtorEq, false_or] at hk
    subst hk
    decide

example : getComments ["c a $b\n".toList] = "c a $b\n$b\n".toList := by decide
example : getComments ["1 0 -1 $ end".toList] = [] := last_line_lost [] _ (by decide)

end F4Enix.Comm
