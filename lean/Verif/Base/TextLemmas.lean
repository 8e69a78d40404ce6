import Verif.Base.Text
import Mathlib.Data.List.Basic
/-! Lemmas on the text primitives of `Verif.Base.Text`. -/
namespace F4Enix

theorem splitWs_ne_nil (s : Str) : splitWs s ≠ [] := by
  induction s with
  | nil => simp [splitWs]
  | cons c cs ih =>
    simp only [splitWs]
    split
    · split
      · exact ih
      · simp
    · split <;> simp

theorem isSpace_space : isSpace ' ' = true := by decide
theorem isSpace_nl : isSpace '\n' = true := by decide

/-- prefixing a text by non-space characters glues them to the first piece -/
theorem splitWs_append (t s : Str) (ht : ∀ c ∈ t, isSpace c = false) (h : Str) (ts : List Str)
    (hs : splitWs s = h :: ts) : splitWs (t ++ s) = (t ++ h) :: ts := by
  induction t with
  | nil => simpa using hs
  | cons c cs ih =>
    have hc : isSpace c = false := ht c (by simp)
    have := ih (fun c hc => ht c (by simp [hc]))
    simp [splitWs, hc, this]

theorem splitWs_head_of_startsSpace (s : Str) (h : startsSpace s = true) :
    ∃ ts, splitWs s = [] :: ts := by
  induction s with
  | nil => simp [startsSpace] at h
  | cons c cs ih =>
    simp only [startsSpace] at h
    simp only [splitWs, h, if_true]
    split
    · rename_i h2; exact ih h2
    · exact ⟨_, rfl⟩

theorem splitWs_word_space (t s : Str) (ht : ∀ c ∈ t, isSpace c = false)
    (hs : startsSpace s = true) : splitWs (t ++ s) = t :: (splitWs s).tail := by
  obtain ⟨ts, h⟩ := splitWs_head_of_startsSpace s hs
  rw [splitWs_append t s ht _ _ h, h]; simp

theorem splitWs_word (t : Str) (ht : ∀ c ∈ t, isSpace c = false) : splitWs t = [t] := by
  have := splitWs_append t [] ht [] [] (by simp [splitWs])
  simpa using this

theorem splitWs_pad (n : Nat) (s : Str) (hs : startsSpace s = false) :
    splitWs (List.replicate (n + 1) ' ' ++ s) = [] :: splitWs s := by
  induction n with
  | zero => simp [splitWs, isSpace_space, hs]
  | succ n ih =>
    have h2 : List.replicate (n + 1 + 1) ' ' ++ s = ' ' :: (List.replicate (n + 1) ' ' ++ s) := by
      simp [List.replicate_succ]
    rw [h2]
    have h3 : startsSpace (List.replicate (n + 1) ' ' ++ s) = true := by
      simp [List.replicate_succ, startsSpace, isSpace_space]
    simp only [splitWs, isSpace_space, if_true, h3, ih]

theorem startsSpace_word_append {t s : Str} (ht : IsWord t) : startsSpace (t ++ s) = false := by
  obtain ⟨h1, h2⟩ := ht
  cases t with
  | nil => exact absurd rfl h1
  | cons c cs => simpa [startsSpace] using h2 c (by simp)

theorem startsSpace_replicate (n : Nat) (s : Str) :
    startsSpace (List.replicate (n + 1) ' ' ++ s) = true := by
  simp [List.replicate_succ, startsSpace, isSpace_space]

theorem startsSpace_pad {w : Nat} {t s : Str} (h : t.length < w) :
    startsSpace (padLeft w t ++ s) = true := by
  obtain ⟨k, hk⟩ : ∃ k, w - t.length = k + 1 := ⟨w - t.length - 1, by omega⟩
  simp [padLeft, hk, List.append_assoc, List.replicate_succ, startsSpace, isSpace_space]

/-- splitting a row that starts with a right aligned word -/
theorem splitWs_padLeft_word {w : Nat} {t s : Str} (ht : IsWord t) (hw : t.length < w)
    (hs : startsSpace s = true) :
    splitWs (padLeft w t ++ s) = [] :: t :: (splitWs s).tail := by
  obtain ⟨k, hk⟩ : ∃ k, w - t.length = k + 1 := ⟨w - t.length - 1, by omega⟩
  rw [padLeft, hk, List.append_assoc, splitWs_pad _ _ (startsSpace_word_append ht),
    splitWs_word_space t s ht.2 hs]

theorem padLeft_full {w : Nat} {t : Str} (h : w ≤ t.length) : padLeft w t = t := by
  simp [padLeft, Nat.sub_eq_zero_of_le h]

theorem splitWs_unwords_nl (ws : List Str) (h : ∀ w ∈ ws, IsWord w) (hne : ws ≠ []) :
    splitWs (unwords ws ++ ['\n']) = ws ++ [[]] := by
  induction ws with
  | nil => exact absurd rfl hne
  | cons w ws ih =>
    cases ws with
    | nil =>
      have := splitWs_word_space w ['\n'] (h w (by simp)).2 (by decide)
      simpa [unwords, splitWs, isSpace_nl, startsSpace] using this
    | cons w' ws =>
      have h1 := ih (fun x hx => h x (by simp [hx])) (by simp)
      have h2 : startsSpace (' ' :: (unwords (w' :: ws) ++ ['\n'])) = true := by
        simp [startsSpace, isSpace_space]
      have h3 := splitWs_word_space w (' ' :: (unwords (w' :: ws) ++ ['\n'])) (h w (by simp)).2 h2
      have h4 : startsSpace (unwords (w' :: ws) ++ ['\n']) = false := by
        have hw' := h w' (by simp)
        cases ws with
        | nil => simpa [unwords] using startsSpace_word_append (s := ['\n']) hw'
        | cons w'' ws => simp only [unwords, List.append_assoc]; exact startsSpace_word_append hw'
      simp only [unwords, List.append_assoc, List.cons_append] at h3 ⊢
      rw [h3]
      simp only [splitWs, isSpace_space, if_true, h4]
      simp [h1]

theorem unwords_head_word {ws : List Str} (h : ∀ w ∈ ws, IsWord w) (hne : ws ≠ []) (s : Str) :
    startsSpace (unwords ws ++ s) = false := by
  cases ws with
  | nil => exact absurd rfl hne
  | cons w ws =>
    have hw := h w (by simp)
    cases ws with
    | nil => simpa [unwords] using startsSpace_word_append (s := s) hw
    | cons w' ws => simp only [unwords, List.append_assoc]; exact startsSpace_word_append hw

/-! ### strip -/

theorem lstrip_of_not_startsSpace {s : Str} (h : startsSpace s = false) : lstrip s = s := by
  cases s with
  | nil => rfl
  | cons c cs => simp only [startsSpace] at h; simp [lstrip, h]

theorem lstrip_cons_space {c : Char} {s : Str} (h : isSpace c = true) :
    lstrip (c :: s) = lstrip s := by simp [lstrip, h]

/-- A text that does not end with white space. (specification) -/
def EndsOk (s : Str) : Prop := startsSpace s.reverse = false

theorem rstrip_of_endsOk {s : Str} (h : EndsOk s) : rstrip s = s := by
  have := lstrip_of_not_startsSpace h
  simp only [lstrip] at this
  simp [rstrip, this]

theorem rstrip_append_space {s : Str} {c : Char} (h : isSpace c = true) :
    rstrip (s ++ [c]) = rstrip s := by simp [rstrip, h]

theorem word_endsOk {w : Str} (h : IsWord w) (s : Str) : EndsOk (s ++ w) := by
  unfold EndsOk
  rw [List.reverse_append]
  apply startsSpace_word_append
  exact ⟨by simpa using h.1, by intro c hc; exact h.2 c (by simpa using hc)⟩

theorem unwords_endsOk {ws : List Str} (h : ∀ w ∈ ws, IsWord w) (hne : ws ≠ []) (s : Str) :
    EndsOk (s ++ unwords ws) := by
  induction ws generalizing s with
  | nil => exact absurd rfl hne
  | cons w ws ih =>
    cases ws with
    | nil => simpa [unwords] using word_endsOk (h w (by simp)) s
    | cons w' ws =>
      have := ih (fun x hx => h x (by simp [hx])) (by simp) (s ++ w ++ [' '])
      simpa [unwords] using this

theorem strip_unwords {ws : List Str} (h : ∀ w ∈ ws, IsWord w) : strip (unwords ws) = unwords ws := by
  by_cases hne : ws = []
  · subst hne; rfl
  · have h1 := unwords_head_word h hne []
    have h2 := unwords_endsOk h hne []
    simp only [List.append_nil, List.nil_append] at h1 h2
    rw [strip, lstrip_of_not_startsSpace h1, rstrip_of_endsOk h2]

theorem strip_word {w : Str} (h : IsWord w) : strip w = w := by
  simpa [unwords] using strip_unwords (ws := [w]) (by simpa using h)

/-! ### lines -/

theorem fileLines_line (l s : Str) (hl : ∀ c ∈ l, c ≠ '\n') :
    fileLines (l ++ '\n' :: s) = (l ++ ['\n']) :: fileLines s := by
  induction l with
  | nil => simp [fileLines]
  | cons c cs ih =>
    have hc : c ≠ '\n' := hl c (by simp)
    have := ih (fun c hc => hl c (by simp [hc]))
    simp [fileLines, hc, this]

/-- A line: no newline except the terminating one. (specification) -/
def IsLine (l : Str) : Prop := ∃ b, l = b ++ ['\n'] ∧ ∀ c ∈ b, c ≠ '\n'

theorem fileLines_flatten (ls : List Str) (h : ∀ l ∈ ls, IsLine l) (s : Str) :
    fileLines (ls.flatten ++ s) = ls ++ fileLines s := by
  induction ls with
  | nil => simp
  | cons l ls ih =>
    obtain ⟨b, rfl, hb⟩ := h l (by simp)
    have := ih (fun l hl => h l (by simp [hl]))
    simp only [List.flatten_cons, List.append_assoc, List.cons_append, List.nil_append]
    rw [fileLines_line b _ hb, this]

/-! ### numbers -/

theorem digitChar_toNat {d : Nat} (h : d < 10) : (digitChar d).toNat = 48 + d := by
  have : d = 0 ∨ d = 1 ∨ d = 2 ∨ d = 3 ∨ d = 4 ∨ d = 5 ∨ d = 6 ∨ d = 7 ∨ d = 8 ∨ d = 9 := by omega
  rcases this with h|h|h|h|h|h|h|h|h|h <;> subst h <;> decide

theorem isDigit_digitChar {d : Nat} (h : d < 10) : isDigit (digitChar d) = true := by
  simp only [isDigit, digitChar_toNat h]; simp; omega

theorem natStrFuel_ne_nil (f n : Nat) : natStrFuel f n ≠ [] := by
  cases f with
  | zero => simp [natStrFuel]
  | succ f => simp only [natStrFuel]; split <;> simp

theorem natStr_ne_nil (n : Nat) : natStr n ≠ [] := natStrFuel_ne_nil n n

theorem natStrFuel_all_digit (f n : Nat) (h : n ≤ f) : ∀ c ∈ natStrFuel f n, isDigit c = true := by
  induction f generalizing n with
  | zero =>
    have : n = 0 := by omega
    subst this; simp only [natStrFuel, List.mem_singleton]; rintro c rfl; decide
  | succ f ih =>
    simp only [natStrFuel]
    split
    · rename_i h1
      simp only [List.mem_singleton]; rintro c rfl; exact isDigit_digitChar h1
    · simp only [List.mem_append, List.mem_singleton]
      rintro c (hc | rfl)
      · exact ih (n / 10) (by omega) c hc
      · exact isDigit_digitChar (Nat.mod_lt _ (by omega))

theorem natStr_all_digit (n : Nat) : ∀ c ∈ natStr n, isDigit c = true :=
  natStrFuel_all_digit n n (Nat.le_refl n)

theorem digitsVal_natStrFuel (f n : Nat) (h : n ≤ f) : digitsVal (natStrFuel f n) = n := by
  induction f generalizing n with
  | zero =>
    have : n = 0 := by omega
    subst this; decide
  | succ f ih =>
    simp only [natStrFuel]
    split
    · rename_i h1; simp [digitsVal, digitChar_toNat h1]
    · have hm : n % 10 < 10 := Nat.mod_lt _ (by omega)
      have hi := ih (n / 10) (by omega)
      simp only [digitsVal, List.foldl_append, List.foldl_cons, List.foldl_nil] at hi ⊢
      rw [hi, digitChar_toNat hm]; omega

theorem digitsVal_natStr (n : Nat) : digitsVal (natStr n) = n :=
  digitsVal_natStrFuel n n (Nat.le_refl n)

theorem isSpace_of_isDigit {c : Char} (h : isDigit c = true) : isSpace c = false := by
  simp only [isDigit, Bool.and_eq_true, decide_eq_true_eq] at h
  simp only [isSpace]
  simp only [Bool.or_eq_false_iff, Bool.and_eq_false_iff, decide_eq_false_iff_not,
    beq_eq_false_iff_ne]
  omega

theorem natStr_isWord (n : Nat) : IsWord (natStr n) :=
  ⟨natStr_ne_nil n, fun c hc => isSpace_of_isDigit (natStr_all_digit n c hc)⟩

theorem isSpace_minus : isSpace '-' = false := by decide

theorem intStr_isWord (i : Int) : IsWord (intStr i) := by
  cases i with
  | ofNat n => exact natStr_isWord n
  | negSucc n =>
    refine ⟨by simp [intStr], ?_⟩
    intro c hc
    simp only [intStr, List.mem_cons] at hc
    rcases hc with rfl | hc
    · exact isSpace_minus
    · exact isSpace_of_isDigit (natStr_all_digit _ c hc)

theorem parseInt_intStr (i : Int) : parseInt (intStr i) = some i := by
  unfold parseInt
  rw [strip_word (intStr_isWord i)]
  cases i with
  | ofNat n =>
    have h1 := natStr_ne_nil n
    have h2 := natStr_all_digit n
    have h3 := digitsVal_natStr n
    simp only [intStr]
    cases hs : natStr n with
    | nil => exact absurd hs h1
    | cons c cs =>
      rw [hs] at h2 h3
      have hc : isDigit c = true := h2 c (by simp)
      have hc1 : c ≠ '-' := by rintro rfl; revert hc; decide
      have hc2 : c ≠ '+' := by rintro rfl; revert hc; decide
      have hall : (c :: cs).all isDigit = true := by rw [List.all_eq_true]; exact h2
      simp only [hc1, hc2, if_false, hall, if_true, h3]; rfl
  | negSucc n =>
    have h1 := natStr_ne_nil (n + 1)
    have hall : (natStr (n + 1)).all isDigit = true := by
      rw [List.all_eq_true]; exact natStr_all_digit _
    simp only [intStr, if_true, h1, hall, ne_eq, not_false_eq_true, and_self, digitsVal_natStr]
    rfl

theorem takeWhile_all_append {p : Char → Bool} {a b : Str} (ha : ∀ c ∈ a, p c = true)
    (hb : ∀ c, b.head? = some c → p c = false) : (a ++ b).takeWhile p = a := by
  induction a with
  | nil =>
    cases b with
    | nil => rfl
    | cons c cs => simp [hb c rfl]
  | cons c cs ih =>
    have := ih (fun c hc => ha c (by simp [hc]))
    simp [ha c (by simp), this]

theorem dropWhile_all_append {p : Char → Bool} {a b : Str} (ha : ∀ c ∈ a, p c = true)
    (hb : ∀ c, b.head? = some c → p c = false) : (a ++ b).dropWhile p = b := by
  induction a with
  | nil =>
    cases b with
    | nil => rfl
    | cons c cs => simp [hb c rfl]
  | cons c cs ih =>
    have := ih (fun c hc => ha c (by simp [hc]))
    simp [ha c (by simp), this]

theorem searchDigits_natStr (pre post : Str) (n : Nat) (hpre : ∀ c ∈ pre, isDigit c = false)
    (hpost : ∀ c, post.head? = some c → isDigit c = false) :
    searchDigits (pre ++ (natStr n ++ post)) = some (natStr n) := by
  have h1 := natStr_ne_nil n
  have h2 := natStr_all_digit n
  unfold searchDigits
  rw [dropWhile_all_append (p := fun c => !isDigit c) (by intro c hc; simp [hpre c hc])
    (by
      intro c hc
      cases hs : natStr n with
      | nil => exact absurd hs h1
      | cons d ds =>
        rw [hs] at hc h2
        simp only [List.cons_append, List.head?_cons, Option.some.injEq] at hc
        subst hc; simp [h2 d (by simp)])]
  rw [takeWhile_all_append h2 hpost]
  split
  · rename_i h; exact absurd h h1
  · rfl

end F4Enix
