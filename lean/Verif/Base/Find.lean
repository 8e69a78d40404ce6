import Verif.Base.Text
/-!
# Searching in text

`sub in s`, `pattern.findall`, `pattern.search` and `str.replace`/`str.split` with a fixed separator, shared by the
models of the output parsers. Assumed behaviour of the Python runtime.
-/
namespace F4Enix.Find
open F4Enix

/-- `sub in s` (Python) -/
def contains (sub : Str) : Str → Bool
  | [] => sub.isEmpty
  | c :: cs => sub.isPrefixOf (c :: cs) || contains sub cs

theorem contains_iff (sub l : Str) : contains sub l = true ↔ sub <:+: l := by
  induction l with
  | nil => simp [contains]
  | cons b bs ih => simp [contains, ih, List.infix_cons_iff]

/-- `pattern.findall(s)` where `m` gives the match that starts at the beginning of its argument, if there is one;
the first argument counts the characters still covered by the last match (Python) -/
def findAll (m : Str → Option Str) : Nat → Str → List Str
  | _, [] => []
  | n + 1, _ :: cs => findAll m n cs
  | 0, c :: cs =>
    match m (c :: cs) with
    | none => findAll m 0 cs
    | some w => w :: findAll m (w.length - 1) cs

/-- `pattern.search(s).group()` (Python) -/
def search (m : Str → Option Str) : Str → Option Str
  | [] => none
  | c :: cs =>
    match m (c :: cs) with
    | some w => some w
    | none => search m cs

theorem findAll_skip (m : Str → Option Str) (t s : Str) (n : Nat) : findAll m (t.length + n) (t ++ s) = findAll m n s := by
  induction t with
  | nil => simp
  | cons c t ih => rw [List.length_cons, Nat.add_right_comm, List.cons_append, findAll, ih]

theorem findAll_match {m : Str → Option Str} {w s : Str} (hw : w ≠ []) (h : m (w ++ s) = some w) :
    findAll m 0 (w ++ s) = w :: findAll m 0 s := by
  cases w with
  | nil => exact absurd rfl hw
  | cons c w =>
    rw [List.cons_append] at h ⊢
    simp only [findAll, h, List.length_cons, Nat.add_sub_cancel]
    have := findAll_skip m w s 0
    rw [Nat.add_zero] at this
    rw [this]

theorem findAll_quiet {m : Str → Option Str} {t : Str} (s : Str) (h : ∀ a b, a ++ b = t → b ≠ [] → m (b ++ s) = none) :
    findAll m 0 (t ++ s) = findAll m 0 s := by
  induction t with
  | nil => rfl
  | cons c t ih =>
    have h1 := h [] (c :: t) rfl (by simp)
    rw [List.cons_append] at h1 ⊢
    simp only [findAll, h1]
    exact ih (fun a b hab hb => h (c :: a) b (by simp [hab]) hb)

theorem search_skip {m : Str → Option Str} {t s : Str} (h : ∀ a b, a ++ b = t → b ≠ [] → m (b ++ s) = none) :
    search m (t ++ s) = search m s := by
  induction t with
  | nil => rfl
  | cons c t ih =>
    have h1 := h [] (c :: t) rfl (by simp)
    rw [List.cons_append] at h1 ⊢
    simp only [search, h1]
    exact ih (fun a b hab hb => h (c :: a) b (by simp [hab]) hb)

/-- `s.replace(sub, "")` for a non-empty `sub` (Python) -/
def removeAll (sub : Str) : Nat → Str → Str
  | _, [] => []
  | n + 1, _ :: cs => removeAll sub n cs
  | 0, c :: cs => if sub.isPrefixOf (c :: cs) then removeAll sub (sub.length - 1) cs else c :: removeAll sub 0 cs

/-- `s.split(sub)[-1]` for a non-empty `sub`; the last argument is the piece so far (Python) -/
def lastPiece (sub : Str) : Nat → Str → Str → Str
  | _, [], acc => acc
  | n + 1, _ :: cs, acc => lastPiece sub n cs acc
  | 0, c :: cs, acc => if sub.isPrefixOf (c :: cs) then lastPiece sub (sub.length - 1) cs [] else lastPiece sub 0 cs (acc ++ [c])

theorem takeWhile_run {p : Char → Bool} {a s : Str} (ha : ∀ c ∈ a, p c = true) (hs : ∀ c t, s = c :: t → p c = false) :
    (a ++ s).takeWhile p = a ∧ (a ++ s).dropWhile p = s := by
  induction a with
  | nil =>
    cases s with
    | nil => exact ⟨rfl, rfl⟩
    | cons c t =>
      have := hs c t rfl
      simp [this]
  | cons c a ih =>
    have h1 := ha c (by simp)
    obtain ⟨i1, i2⟩ := ih (fun d hd => ha d (by simp [hd]))
    simp [h1, i1, i2]

theorem head_of {p : Char → Bool} {a s : Str} (hne : a ≠ []) (ha : ∀ c ∈ a, p c = true) :
    ∀ c t, a ++ s = c :: t → p c = true := by
  intro c t h
  cases a with
  | nil => exact absurd rfl hne
  | cons d a =>
    simp only [List.cons_append, List.cons.injEq] at h
    rw [← h.1]; exact ha d (by simp)

theorem searchDigits_run {a ds s : Str} (ha : ∀ c ∈ a, isDigit c = false) (hne : ds ≠ []) (hd : ∀ c ∈ ds, isDigit c = true)
    (hs : ∀ c t, s = c :: t → isDigit c = false) : searchDigits (a ++ (ds ++ s)) = some ds := by
  unfold searchDigits
  have h1 := (takeWhile_run (p := fun c => !isDigit c) (a := a) (s := ds ++ s) (by intro c hc; simp [ha c hc])
    (fun c t hc => by simp [head_of hne hd c t hc])).2
  rw [h1, (takeWhile_run hd hs).1]
  cases ds with
  | nil => exact absurd rfl hne
  | cons c ds => rfl

theorem searchDigits_none {s : Str} (h : ∀ c ∈ s, isDigit c = false) : searchDigits s = none := by
  unfold searchDigits
  have := (takeWhile_run (p := fun c => !isDigit c) (a := s) (s := []) (by intro c hc; simp [h c hc]) (by simp)).2
  rw [List.append_nil] at this
  rw [this]; rfl

end F4Enix.Find
