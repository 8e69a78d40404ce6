import Verif.Base.Text
import Mathlib.Data.List.Basic
import Mathlib.Data.List.Infix
import Mathlib.Data.List.TakeWhile
/-!
# Finding bytes of a file that are no text (`auxiliary.debug_file_unicode`) (C183)
-/
namespace F4Enix.Uni
open F4Enix

/-! ### model -/

/-- a continuation byte (Python) -/
def cont (b : ℕ) : Bool := 128 ≤ b && b < 192

/-- the character at the head of the bytes and the number of its bytes, `none` if they are not well formed: Python's `utf-8` codec (no surrogates, no longer
form than needed, at most U+10FFFF), used by `open(file, "r", errors="surrogateescape")` (auxiliary.py:85). Simplification: the default encoding is taken to be
UTF-8 and the whole file is decoded at once. -/
def decode1 : List ℕ → Option (ℕ × ℕ)
  | [] => none
  | a :: l =>
    if a < 128 then some (a, 1)
    else if 192 ≤ a ∧ a < 224 then
      match l with
      | b :: _ =>
        let v := (a - 192) * 64 + (b - 128)
        if cont b = true ∧ 128 ≤ v then some (v, 2) else none
      | _ => none
    else if 224 ≤ a ∧ a < 240 then
      match l with
      | b :: c :: _ =>
        let v := (a - 224) * 4096 + (b - 128) * 64 + (c - 128)
        if cont b = true ∧ cont c = true ∧ 2048 ≤ v ∧ ¬ (55296 ≤ v ∧ v < 57344) then some (v, 3) else none
      | _ => none
    else if 240 ≤ a ∧ a < 248 then
      match l with
      | b :: c :: d :: _ =>
        let v := (a - 240) * 262144 + (b - 128) * 4096 + (c - 128) * 64 + (d - 128)
        if cont b = true ∧ cont c = true ∧ cont d = true ∧ 65536 ≤ v ∧ v < 1114112 then some (v, 4) else none
      | _ => none
    else none

/-- what is read: a character, or the code `0xDC00 + b` that stands for a byte `b` (Python) -/
inductive Item where
  | char (v : ℕ)
  | bad (b : ℕ)
  deriving DecidableEq, Repr

/-- decoding with `surrogateescape`; `skip`: bytes that belong to the character read last (Python, auxiliary.py:70-93) -/
def decode : ℕ → List ℕ → List Item
  | _, [] => []
  | 0, a :: l =>
    match decode1 (a :: l) with
    | some (v, n) => .char v :: decode (n - 1) l
    | none => .bad a :: decode 0 l
  | n + 1, _ :: l => decode n l

/-- universal newlines: `\r\n` and `\r` are read as `\n` (Python, auxiliary.py:70-93) -/
def newlines : List Item → List Item
  | [] => []
  | x :: r =>
    if x = .char 13 then (if r.head? = some (.char 10) then newlines r else .char 10 :: newlines r)
    else x :: newlines r

/-- the lines of the file, each with its end (Python, auxiliary.py:70-93) -/
def fileLines : List Item → List (List Item)
  | [] => []
  | x :: r =>
    if x = .char 10 then [x] :: fileLines r
    else match fileLines r with
      | [] => [[x]]
      | l :: ls => (x :: l) :: ls

/-- `_detect_decoding_errors_line` (auxiliary.py:57-67): positions and bytes of a line, `pos` the position of its head -/
def lineErrors : ℕ → List Item → List (ℕ × ℕ)
  | _, [] => []
  | pos, .bad b :: r => (pos, b) :: lineErrors (pos + 1) r
  | pos, .char _ :: r => lineErrors (pos + 1) r

/-- `f" {col + 1:2d}: {b[0]:02x}"` (auxiliary.py:91): a space is put before a number of one digit -/
def errText (e : ℕ × ℕ) : Str :=
  ' ' :: ((if e.1 + 1 < 10 then [' '] else []) ++ Nat.toDigits 10 (e.1 + 1) ++ ": ".toList ++
    ((if e.2 < 16 then ['0'] else []) ++ Nat.toDigits 16 e.2))

/-- the loop of `debug_file_unicode` (auxiliary.py:86-92) -/
def report : ℕ → List (List Item) → Str
  | _, [] => []
  | i, l :: ls =>
    (match lineErrors 0 l with
     | [] => []
     | es => "Found errors on line ".toList ++ Nat.toDigits 10 i ++ ":".toList ++ (es.map errText).flatten ++ ['\n']) ++ report (i + 1) ls

/-- `debug_file_unicode` (auxiliary.py:70-93) of the bytes of a file -/
def debugFile (bytes : List UInt8) : Str := report 1 (fileLines (newlines (decode 0 (bytes.map UInt8.toNat))))

/-! ### specification -/

/-- the bytes of a character in UTF-8 (Lean's own definition) (specification) -/
def enc (c : Char) : List ℕ := (String.utf8EncodeChar c).map UInt8.toNat

/-- the reading of a file: wherever the next bytes are the bytes of a character it is this character; a byte where this is not so is bad (specification) -/
inductive Reads : List ℕ → List Item → Prop
  | nil : Reads [] []
  | char (c : Char) (r : List ℕ) (items : List Item) : Reads r items → Reads (enc c ++ r) (.char c.toNat :: items)
  | bad (b : ℕ) (r : List ℕ) (items : List Item) : (∀ c, ¬ enc c <+: b :: r) → Reads r items → Reads (b :: r) (.bad b :: items)

/-- the number of ends of lines: `\n`, `\r\n` and `\r` (specification) -/
def ends : List Item → ℕ
  | [] => 0
  | x :: r => (if x = .char 10 ∨ (x = .char 13 ∧ r.head? ≠ some (.char 10)) then 1 else 0) + ends r

/-- the number of characters (and bad bytes) behind the last end of a line (specification) -/
def since (xs : List Item) : ℕ := (xs.reverse.takeWhile (fun x => x ≠ .char 10 ∧ x ≠ .char 13)).length

/-- in the file the byte `b` is bad and stands at the given place of the given line (both counted from 1, specification) -/
def BadAt (items : List Item) (line col b : ℕ) : Prop :=
  ∃ pre post, items = pre ++ .bad b :: post ∧ line = 1 + ends pre ∧ col = 1 + since pre

/-- the text for a line with bad bytes: their places (at least two columns wide) and their values in hexadecimal (specification) -/
def lineText (x : ℕ × List (ℕ × ℕ)) : Str :=
  "Found errors on line ".toList ++ Nat.toDigits 10 x.1 ++ ":".toList ++
    (x.2.map (fun e => " ".toList ++ List.replicate (2 - (Nat.toDigits 10 e.1).length) ' ' ++ Nat.toDigits 10 e.1 ++ ": ".toList ++ Nat.toDigits 16 e.2)).flatten ++ "\n".toList

/-! ### lemmas on decoding -/

/-- the bytes of a character by its number (proof) -/
def encN (v : ℕ) : List ℕ :=
  if v ≤ 127 then [v]
  else if v ≤ 2047 then [v / 64 % 32 + 192, v % 64 + 128]
  else if v ≤ 65535 then [v / 4096 % 16 + 224, v / 64 % 64 + 128, v % 64 + 128]
  else [v / 262144 % 8 + 240, v / 4096 % 64 + 128, v / 64 % 64 + 128, v % 64 + 128]

theorem enc_eq (c : Char) : enc c = encN c.toNat := by
  have e : c.toNat = c.val.toNat := rfl
  unfold enc encN String.utf8EncodeChar
  rw [e]
  generalize c.val.toNat = v
  simp only
  split
  · simp only [List.map_cons, List.map_nil, UInt8.toNat_ofNat', List.cons.injEq, and_true]; omega
  · split
    · simp only [List.map_cons, List.map_nil, UInt8.toNat_ofNat', List.cons.injEq, and_true]; omega
    · split
      · simp only [List.map_cons, List.map_nil, UInt8.toNat_ofNat', List.cons.injEq, and_true]; omega
      · simp only [List.map_cons, List.map_nil, UInt8.toNat_ofNat', List.cons.injEq, and_true]; omega

theorem cont_iff (b : ℕ) : cont b = true ↔ 128 ≤ b ∧ b < 192 := by simp [cont]

/-- the numbers that are characters (proof) -/
def Scalar (v : ℕ) : Prop := v < 55296 ∨ (57343 < v ∧ v < 1114112)

theorem scalar_char (c : Char) : Scalar c.toNat := c.valid

theorem scalar_of {v : ℕ} (h : Scalar v) : ∃ c : Char, c.toNat = v := ⟨Char.ofNatAux v h, by
  unfold Char.ofNatAux Char.toNat UInt32.toNat
  simp⟩

theorem decode1_some {l : List ℕ} {v n : ℕ} (h : decode1 l = some (v, n)) : Scalar v ∧ encN v <+: l ∧ n = (encN v).length := by
  unfold Scalar
  cases l with
  | nil => cases h
  | cons a l =>
    unfold decode1 at h
    simp only at h
    split at h
    · simp only [Option.some.injEq, Prod.mk.injEq] at h
      obtain ⟨rfl, rfl⟩ := h
      unfold encN
      rw [if_pos (by omega)]
      exact ⟨by omega, ⟨l, rfl⟩, rfl⟩
    · split at h
      · cases l with
        | nil => cases h
        | cons b l =>
          simp only [cont_iff] at h
          split at h
          · simp only [Option.some.injEq, Prod.mk.injEq] at h
            obtain ⟨rfl, rfl⟩ := h
            unfold encN
            rw [if_neg (by omega), if_pos (by omega)]
            refine ⟨by omega, ⟨l, ?_⟩, rfl⟩
            simp only [List.cons_append, List.nil_append, List.cons.injEq, and_true]
            omega
          · cases h
      · split at h
        · rcases l with _ | ⟨b, _ | ⟨c, l⟩⟩
          · cases h
          · cases h
          · simp only [cont_iff] at h
            split at h
            · simp only [Option.some.injEq, Prod.mk.injEq] at h
              obtain ⟨rfl, rfl⟩ := h
              unfold encN
              rw [if_neg (by omega), if_neg (by omega), if_pos (by omega)]
              refine ⟨by omega, ⟨l, ?_⟩, rfl⟩
              simp only [List.cons_append, List.nil_append, List.cons.injEq, and_true]
              omega
            · cases h
        · split at h
          · rcases l with _ | ⟨b, _ | ⟨c, _ | ⟨d, l⟩⟩⟩
            · cases h
            · cases h
            · cases h
            · simp only [cont_iff] at h
              split at h
              · simp only [Option.some.injEq, Prod.mk.injEq] at h
                obtain ⟨rfl, rfl⟩ := h
                unfold encN
                rw [if_neg (by omega), if_neg (by omega), if_neg (by omega)]
                refine ⟨by omega, ⟨l, ?_⟩, rfl⟩
                simp only [List.cons_append, List.nil_append, List.cons.injEq, and_true]
                omega
              · cases h
          · cases h

theorem decode1_enc {v : ℕ} (h : Scalar v) (r : List ℕ) : decode1 (encN v ++ r) = some (v, (encN v).length) := by
  unfold Scalar at h
  unfold encN
  split
  · rw [List.singleton_append]
    unfold decode1
    simp only
    rw [if_pos (by omega)]; rfl
  · split
    · simp only [List.cons_append, List.nil_append, decode1, cont_iff]
      rw [if_neg (by omega), if_pos (by omega), if_pos (by omega)]
      simp only [Option.some.injEq, Prod.mk.injEq, List.length_cons, List.length_nil, and_true]
      omega
    · split
      · simp only [List.cons_append, List.nil_append, decode1, cont_iff]
        rw [if_neg (by omega), if_neg (by omega), if_pos (by omega), if_pos (by omega)]
        simp only [Option.some.injEq, Prod.mk.injEq, List.length_cons, List.length_nil, and_true]
        omega
      · simp only [List.cons_append, List.nil_append, decode1, cont_iff]
        rw [if_neg (by omega), if_neg (by omega), if_neg (by omega), if_pos (by omega), if_pos (by omega)]
        simp only [Option.some.injEq, Prod.mk.injEq, List.length_cons, List.length_nil, and_true]
        omega

theorem encN_pos (v : ℕ) : 0 < (encN v).length := by
  unfold encN
  split
  · simp
  · split
    · simp
    · split <;> simp

theorem decode_skip (n : ℕ) (p r : List ℕ) (h : p.length = n) : decode n (p ++ r) = decode 0 r := by
  induction p generalizing n with
  | nil => simp only [List.length_nil] at h; subst h; rfl
  | cons a p ih =>
    obtain ⟨m, rfl⟩ : ∃ m, n = m + 1 := ⟨n - 1, by simp at h; omega⟩
    rw [List.cons_append, decode]
    exact ih m (by simpa using h)

theorem decode_char (c : Char) (r : List ℕ) : decode 0 (enc c ++ r) = .char c.toNat :: decode 0 r := by
  rw [enc_eq]
  have h := decode1_enc (scalar_char c) r
  have hp := encN_pos c.toNat
  generalize encN c.toNat = e at h hp
  cases e with
  | nil => simp at hp
  | cons a e =>
    rw [List.cons_append] at h ⊢
    rw [decode, h]
    simp only [List.length_cons, Nat.add_sub_cancel]
    rw [decode_skip _ _ _ rfl]

theorem decode_bad {b : ℕ} {r : List ℕ} (h : ∀ c, ¬ enc c <+: b :: r) : decode 0 (b :: r) = .bad b :: decode 0 r := by
  rw [decode]
  cases hd : decode1 (b :: r) with
  | none => rfl
  | some vn =>
    obtain ⟨h1, h2, -⟩ := decode1_some (v := vn.1) (n := vn.2) hd
    obtain ⟨c, hc⟩ := scalar_of h1
    exact absurd (by rw [enc_eq, hc]; exact h2) (h c)

theorem reads_decode {bs : List ℕ} {items : List Item} (h : Reads bs items) : decode 0 bs = items := by
  induction h with
  | nil => rfl
  | char c r items _ ih => rw [decode_char, ih]
  | bad b r items hb _ ih => rw [decode_bad hb, ih]

theorem reads_exists (n : ℕ) (bs : List ℕ) (hn : bs.length ≤ n) : ∃ items, Reads bs items := by
  induction n generalizing bs with
  | zero =>
    have : bs = [] := List.length_eq_zero_iff.1 (by omega)
    subst this
    exact ⟨_, .nil⟩
  | succ n ih =>
    cases bs with
    | nil => exact ⟨_, .nil⟩
    | cons b r =>
      by_cases h : ∃ c, enc c <+: b :: r
      · obtain ⟨c, t, ht⟩ := h
        have hl : t.length ≤ n := by
          have h1 := congrArg List.length ht
          have h2 := encN_pos c.toNat
          rw [← enc_eq] at h2
          simp only [List.length_append, List.length_cons] at h1 hn
          omega
        obtain ⟨items, hi⟩ := ih t hl
        rw [← ht]
        exact ⟨_, .char c t items hi⟩
      · obtain ⟨items, hi⟩ := ih r (by simp only [List.length_cons] at hn; omega)
        exact ⟨_, .bad b r items (fun c hc => h ⟨c, hc⟩) hi⟩

/-- every file is read in exactly one way, the one of the code -/
theorem reads_iff (bs : List ℕ) (items : List Item) : Reads bs items ↔ decode 0 bs = items := by
  constructor
  · exact reads_decode
  · rintro rfl
    obtain ⟨items, h⟩ := reads_exists bs.length bs le_rfl
    rwa [reads_decode h]

/-! ### lemmas on lines -/

/-- the bad bytes with their places, in one walk over the items (proof) -/
def walk : ℕ → ℕ → List Item → List (ℕ × ℕ × ℕ)
  | _, _, [] => []
  | L, C, .bad b :: r => (L, C, b) :: walk L (C + 1) r
  | L, C, .char v :: r => if v = 10 ∨ (v = 13 ∧ r.head? ≠ some (.char 10)) then walk (L + 1) 1 r else walk L (C + 1) r

theorem since_cons (x : Item) (pre : List Item) :
    since (x :: pre) = if pre.any (fun y => y = .char 10 ∨ y = .char 13) then since pre
      else if x = .char 10 ∨ x = .char 13 then pre.length else 1 + pre.length := by
  unfold since
  rw [List.reverse_cons, List.takeWhile_append]
  by_cases ha : pre.any (fun y => y = .char 10 ∨ y = .char 13) = true
  · rw [if_pos ha, if_neg]
    intro hl
    rw [List.any_eq_true] at ha
    obtain ⟨y, hy, hy2⟩ := ha
    have hp := List.takeWhile_prefix (l := pre.reverse) (fun x => decide (x ≠ Item.char 10 ∧ x ≠ Item.char 13))
    have he := hp.eq_of_length hl
    have := List.mem_takeWhile_imp (he ▸ List.mem_reverse.2 hy : y ∈ pre.reverse.takeWhile _)
    simp at hy2 this
    rcases hy2 with rfl | rfl
    · exact this.1 rfl
    · exact this.2 rfl
  · rw [if_neg ha]
    rw [List.any_eq_true] at ha
    have hall : ∀ y ∈ pre.reverse, decide (y ≠ Item.char 10 ∧ y ≠ Item.char 13) = true := by
      intro y hy
      by_contra hc
      apply ha
      refine ⟨y, List.mem_reverse.1 hy, ?_⟩
      simp at hc ⊢
      tauto
    have htw : pre.reverse.takeWhile (fun x => decide (x ≠ Item.char 10 ∧ x ≠ Item.char 13)) = pre.reverse :=
      List.takeWhile_eq_self_iff.2 hall
    rw [htw, if_pos rfl]
    by_cases hx : x = .char 10 ∨ x = .char 13
    · rw [if_pos hx, List.takeWhile_cons_of_neg (by simp; tauto)]
      simp
    · rw [if_neg hx, List.takeWhile_cons_of_pos (by simp; tauto)]
      simp [Nat.add_comm]

theorem ends_zero (pre : List Item) : ends pre = 0 ↔ pre.any (fun y => y = .char 10 ∨ y = .char 13) = false := by
  induction pre with
  | nil => simp [ends]
  | cons x r ih =>
    rw [ends, List.any_cons]
    by_cases h : x = .char 10 ∨ (x = .char 13 ∧ r.head? ≠ some (.char 10))
    · rw [if_pos h]
      have : (decide (x = .char 10 ∨ x = .char 13)) = true := by simp; tauto
      rw [this]
      simp
    · rw [if_neg h, Nat.zero_add, ih]
      by_cases hx : x = .char 13
      · have hr : r.head? = some (.char 10) := by
          by_contra hc
          exact h (Or.inr ⟨hx, hc⟩)
        cases r with
        | nil => simp at hr
        | cons y r =>
          simp only [List.head?_cons, Option.some.injEq] at hr
          subst hr
          simp
      · have : decide (x = .char 10 ∨ x = .char 13) = false := by simp; tauto
        rw [this]
        simp

theorem walk_mem (items : List Item) (L C l c b : ℕ) :
    (l, c, b) ∈ walk L C items ↔
      ∃ pre post, items = pre ++ .bad b :: post ∧ l = L + ends pre ∧ c = if ends pre = 0 then C + pre.length else 1 + since pre := by
  induction items generalizing L C with
  | nil => simp [walk]
  | cons x r ih =>
    have split : (∃ pre post, x :: r = pre ++ .bad b :: post ∧ l = L + ends pre ∧ c = if ends pre = 0 then C + pre.length else 1 + since pre) ↔
        (x = .bad b ∧ l = L ∧ c = C) ∨
        ∃ pre post, r = pre ++ .bad b :: post ∧ l = L + ends (x :: pre) ∧ c = if ends (x :: pre) = 0 then C + (pre.length + 1) else 1 + since (x :: pre) := by
      constructor
      · rintro ⟨pre, post, h1, h2, h3⟩
        cases pre with
        | nil =>
          simp only [List.nil_append, List.cons.injEq] at h1
          exact Or.inl ⟨h1.1, by simpa [ends] using h2, by simpa [ends] using h3⟩
        | cons y pre =>
          simp only [List.cons_append, List.cons.injEq] at h1
          obtain ⟨rfl, h1⟩ := h1
          exact Or.inr ⟨pre, post, h1, h2, h3⟩
      · rintro (⟨rfl, rfl, rfl⟩ | ⟨pre, post, h1, h2, h3⟩)
        · exact ⟨[], r, rfl, by simp [ends], by simp [ends]⟩
        · exact ⟨x :: pre, post, by rw [h1]; rfl, h2, h3⟩
    rw [split]
    have headeq : ∀ pre post, r = pre ++ .bad b :: post → (pre.head? = some (.char 10) ↔ r.head? = some (.char 10)) := by
      intro pre post hr
      cases pre with
      | nil => subst hr; simp
      | cons y pre => subst hr; simp
    cases x with
    | bad b' =>
      rw [walk, List.mem_cons, ih]
      apply or_congr
      · simp only [Prod.mk.injEq, Item.bad.injEq]
        constructor
        · rintro ⟨rfl, rfl, rfl⟩; simp
        · rintro ⟨rfl, rfl, rfl⟩; simp
      · apply exists_congr; intro pre
        apply exists_congr; intro post
        have e : ends (.bad b' :: pre) = ends pre := by rw [ends]; simp
        rw [e]
        apply and_congr_right; intro _
        apply and_congr_right; intro _
        by_cases h0 : ends pre = 0
        · rw [if_pos h0, if_pos h0]; constructor <;> intro h <;> omega
        · rw [if_neg h0, if_neg h0, since_cons, if_pos]
          by_contra hc
          exact h0 ((ends_zero pre).2 (by simpa using hc))
    | char v =>
      simp only [reduceCtorEq, false_and, false_or]
      rw [walk]
      by_cases hv : v = 10 ∨ (v = 13 ∧ r.head? ≠ some (.char 10))
      · rw [if_pos hv, ih]
        apply exists_congr; intro pre
        apply exists_congr; intro post
        apply and_congr_right; intro hr
        have e : ends (.char v :: pre) = 1 + ends pre := by
          rw [ends, if_pos]
          rcases hv with rfl | ⟨rfl, hv⟩
          · exact Or.inl rfl
          · exact Or.inr ⟨rfl, fun h => hv ((headeq pre post hr).1 h)⟩
        rw [e, if_neg (by omega : ¬ 1 + ends pre = 0), since_cons]
        apply and_congr
        · constructor <;> intro h <;> omega
        · by_cases h0 : ends pre = 0
          · rw [if_pos h0, if_neg (by rw [(ends_zero pre).1 h0]; simp), if_pos (by rcases hv with rfl | ⟨rfl, -⟩ <;> simp)]
          · rw [if_neg h0, if_pos]
            by_contra hc
            exact h0 ((ends_zero pre).2 (by simpa using hc))
      · rw [if_neg hv, ih]
        apply exists_congr; intro pre
        apply exists_congr; intro post
        apply and_congr_right; intro hr
        have e : ends (.char v :: pre) = ends pre := by
          rw [ends, if_neg, Nat.zero_add]
          rintro (h | ⟨h, hh⟩)
          · simp only [Item.char.injEq] at h; exact hv (Or.inl h)
          · simp only [Item.char.injEq] at h; exact hv (Or.inr ⟨h, fun h' => hh ((headeq pre post hr).2 h')⟩)
        rw [e]
        apply and_congr_right; intro _
        by_cases h0 : ends pre = 0
        · rw [if_pos h0, if_pos h0]; constructor <;> intro h <;> omega
        · rw [if_neg h0, if_neg h0, since_cons, if_pos]
          by_contra hc
          exact h0 ((ends_zero pre).2 (by simpa using hc))

/-- the errors of the lines with their places, counted from 1 (proof) -/
def errsFrom : ℕ → ℕ → List (List Item) → List (ℕ × ℕ × ℕ)
  | _, _, [] => []
  | i, C, l :: ls => (lineErrors C l).map (fun e => (i, e.1 + 1, e.2)) ++ errsFrom (i + 1) 0 ls

theorem errsFrom_cons (i C : ℕ) (x : Item) (r : List Item) (hx : x ≠ .char 10) :
    errsFrom i C (fileLines (x :: r)) = (match x with | .bad b => [(i, C + 1, b)] | .char _ => []) ++ errsFrom i (C + 1) (fileLines r) := by
  rw [fileLines, if_neg hx]
  cases hf : fileLines r with
  | nil => cases x <;> rfl
  | cons l ls => cases x <;> simp [errsFrom, lineErrors]

theorem errs_walk (items : List Item) (i C : ℕ) : errsFrom i C (fileLines (newlines items)) = walk i (C + 1) items := by
  induction items generalizing i C with
  | nil => rfl
  | cons x r ih =>
    rw [newlines]
    by_cases h13 : x = .char 13
    · rw [if_pos h13]
      subst h13
      by_cases hr : r.head? = some (.char 10)
      · rw [if_pos hr, ih, walk, if_neg (by simp [hr])]
        cases r with
        | nil => simp at hr
        | cons y r =>
          simp only [List.head?_cons, Option.some.injEq] at hr
          subst hr
          rw [walk, walk, if_pos (Or.inl rfl), if_pos (Or.inl rfl)]
      · rw [if_neg hr, fileLines, if_pos rfl, errsFrom, ih, walk, if_pos (Or.inr ⟨rfl, hr⟩)]
        rfl
    · rw [if_neg h13]
      by_cases h10 : x = .char 10
      · subst h10
        rw [fileLines, if_pos rfl, errsFrom, ih, walk, if_pos (Or.inl rfl)]
        rfl
      · rw [errsFrom_cons _ _ _ _ h10, ih]
        cases x with
        | bad b => rfl
        | char v =>
          rw [walk, if_neg]
          · rfl
          · rintro (rfl | ⟨rfl, -⟩)
            · exact h10 rfl
            · exact h13 rfl

/-- the lines with errors, places counted from 1 (proof) -/
def found : ℕ → List (List Item) → List (ℕ × List (ℕ × ℕ))
  | _, [] => []
  | i, l :: ls =>
    (match lineErrors 0 l with
     | [] => []
     | es => [(i, es.map (fun e => (e.1 + 1, e.2)))]) ++ found (i + 1) ls

theorem found_mem (i : ℕ) (ls : List (List Item)) (line col b : ℕ) :
    (∃ es, (line, es) ∈ found i ls ∧ (col, b) ∈ es) ↔ (line, col, b) ∈ errsFrom i 0 ls := by
  induction ls generalizing i with
  | nil => simp [found, errsFrom]
  | cons l ls ih =>
    rw [found, errsFrom, List.mem_append, ← ih]
    constructor
    · rintro ⟨es, h1, h2⟩
      rcases List.mem_append.1 h1 with h | h
      · left
        split at h
        · cases h
        · rename_i hes
          simp only [List.mem_singleton, Prod.mk.injEq] at h
          obtain ⟨rfl, rfl⟩ := h
          rw [List.mem_map] at h2 ⊢
          obtain ⟨e, he, heq⟩ := h2
          simp only [Prod.mk.injEq] at heq
          exact ⟨e, he, by rw [heq.1, heq.2]⟩
      · exact Or.inr ⟨es, h, h2⟩
    · rintro (h | ⟨es, h1, h2⟩)
      · rw [List.mem_map] at h
        obtain ⟨e, he, heq⟩ := h
        simp only [Prod.mk.injEq] at heq
        obtain ⟨rfl, rfl, rfl⟩ := heq
        refine ⟨(lineErrors 0 l).map (fun e => (e.1 + 1, e.2)), ?_, List.mem_map.2 ⟨e, he, rfl⟩⟩
        apply List.mem_append_left
        split
        · rename_i h0; rw [h0] at he; cases he
        · simp
      · exact ⟨es, List.mem_append_right _ h1, h2⟩

theorem found_ge (i : ℕ) (ls : List (List Item)) : ∀ x ∈ found i ls, i ≤ x.1 := by
  induction ls generalizing i with
  | nil => simp [found]
  | cons l ls ih =>
    intro x hx
    rw [found] at hx
    rcases List.mem_append.1 hx with h | h
    · split at h
      · cases h
      · simp only [List.mem_singleton] at h; rw [h]
    · exact Nat.le_of_succ_le (ih (i + 1) x h)

theorem found_sorted (i : ℕ) (ls : List (List Item)) : (found i ls).Pairwise (fun a b => a.1 < b.1) := by
  induction ls generalizing i with
  | nil => simp [found]
  | cons l ls ih =>
    rw [found]
    split
    · exact ih _
    · rw [List.singleton_append, List.pairwise_cons]
      exact ⟨fun x hx => found_ge (i + 1) ls x hx, ih _⟩

theorem lineErrors_ge (p : ℕ) (l : List Item) : ∀ e ∈ lineErrors p l, p ≤ e.1 := by
  induction l generalizing p with
  | nil => simp [lineErrors]
  | cons x r ih =>
    cases x with
    | bad b =>
      intro e he
      rw [lineErrors] at he
      rcases List.mem_cons.1 he with rfl | h
      · exact le_rfl
      · exact Nat.le_of_succ_le (ih (p + 1) e h)
    | char v => intro e he; rw [lineErrors] at he; exact Nat.le_of_succ_le (ih (p + 1) e he)

theorem lineErrors_sorted (p : ℕ) (l : List Item) : (lineErrors p l).Pairwise (fun a b => a.1 < b.1) := by
  induction l generalizing p with
  | nil => simp [lineErrors]
  | cons x r ih =>
    cases x with
    | bad b => rw [lineErrors, List.pairwise_cons]; exact ⟨fun e he => lineErrors_ge (p + 1) r e he, ih _⟩
    | char v => rw [lineErrors]; exact ih _

theorem found_lines (i : ℕ) (ls : List (List Item)) : ∀ x ∈ found i ls, x.2 ≠ [] ∧ x.2.Pairwise (fun a b => a.1 < b.1) := by
  induction ls generalizing i with
  | nil => simp [found]
  | cons l ls ih =>
    intro x hx
    rw [found] at hx
    rcases List.mem_append.1 hx with h | h
    · split at h
      · cases h
      · rename_i h0
        simp only [List.mem_singleton] at h
        subst h
        refine ⟨by simpa using h0, ?_⟩
        rw [List.pairwise_map]
        exact (lineErrors_sorted 0 l).imp (fun h => Nat.succ_lt_succ h)
    · exact ih _ x h

theorem toDigits_length (n : ℕ) : (if n < 10 then [' '] else []) = List.replicate (2 - (Nat.toDigits 10 n).length) ' ' := by
  by_cases h : n < 10
  · rw [if_pos h, Nat.toDigits_of_lt_base h]
    rfl
  · rw [if_neg h]
    have : 1 < (Nat.toDigits 10 n).length := by
      rw [Nat.lt_iff_add_one_le]
      by_contra hc
      have hl : (Nat.toDigits 10 n).length ≤ 1 := by omega
      rw [Nat.length_toDigits_le_iff (by omega) (by omega)] at hl
      omega
    have e : 2 - (Nat.toDigits 10 n).length = 0 := by omega
    rw [e]
    rfl

theorem report_found (i : ℕ) (ls : List (List Item)) (hb : ∀ l ∈ ls, ∀ b, Item.bad b ∈ l → 16 ≤ b) :
    report i ls = ((found i ls).map lineText).flatten := by
  have hle : ∀ (p : ℕ) (l : List Item) (e : ℕ × ℕ), e ∈ lineErrors p l → Item.bad e.2 ∈ l := by
    intro p l
    induction l generalizing p with
    | nil => intro e he; cases he
    | cons x r ih =>
      intro e he
      cases x with
      | bad b =>
        rw [lineErrors] at he
        rcases List.mem_cons.1 he with rfl | h
        · simp
        · exact List.mem_cons_of_mem _ (ih _ e h)
      | char v => rw [lineErrors] at he; exact List.mem_cons_of_mem _ (ih _ e he)
  induction ls generalizing i with
  | nil => rfl
  | cons l ls ih =>
    rw [report, found, ih _ (fun x hx => hb x (by simp [hx])), List.map_append, List.flatten_append]
    congr 1
    cases he : lineErrors 0 l with
    | nil => rfl
    | cons e es =>
      simp only [List.map_cons, List.map_nil, List.flatten_cons, List.flatten_nil, List.append_nil]
      unfold lineText
      have hm : ∀ x ∈ lineErrors 0 l, errText x = " ".toList ++ List.replicate (2 - (Nat.toDigits 10 (x.1 + 1)).length) ' ' ++ Nat.toDigits 10 (x.1 + 1) ++
          ": ".toList ++ Nat.toDigits 16 x.2 := by
        intro x hx
        have := hb l (by simp) x.2 (hle 0 l x hx)
        unfold errText
        rw [toDigits_length, if_neg (by omega : ¬ x.2 < 16)]
        simp
      rw [he] at hm
      have := List.map_congr_left hm
      rw [List.map_cons] at this
      simp only [List.map_map, List.map_cons, Function.comp_def, List.flatten_cons]
      rw [List.map_cons] at this
      injection this with h1 h2
      rw [h1, h2]
      simp

/-! ### C183 -/

theorem decode_bad_ge {bs : List ℕ} {items : List Item} (h : Reads bs items) {b : ℕ} (hb : Item.bad b ∈ items) : 128 ≤ b ∧ b ∈ bs := by
  induction h with
  | nil => cases hb
  | char c r items _ ih =>
    simp only [List.mem_cons, reduceCtorEq, false_or] at hb
    exact ⟨(ih hb).1, List.mem_append_right _ (ih hb).2⟩
  | bad a r items ha _ ih =>
    simp only [List.mem_cons, Item.bad.injEq] at hb
    rcases hb with rfl | hb
    · refine ⟨?_, by simp⟩
      by_contra hc
      obtain ⟨c, hcv⟩ := scalar_of (v := b) (by unfold Scalar; omega)
      apply ha c
      rw [enc_eq, hcv]
      unfold encN
      rw [if_pos (by omega)]
      exact ⟨r, rfl⟩
    · exact ⟨(ih hb).1, List.mem_cons_of_mem _ (ih hb).2⟩

theorem mem_lines {items : List Item} {l : List Item} (hl : l ∈ fileLines (newlines items)) {b : ℕ} (hb : Item.bad b ∈ l) : Item.bad b ∈ items := by
  have h1 : ∀ xs : List Item, ∀ l ∈ fileLines xs, ∀ y ∈ l, y ∈ xs := by
    intro xs
    induction xs with
    | nil => intro l hl; cases hl
    | cons x r ih =>
      intro l hl y hy
      rw [fileLines] at hl
      split at hl
      · rcases List.mem_cons.1 hl with rfl | h
        · simp only [List.mem_singleton] at hy; simp [hy]
        · exact List.mem_cons_of_mem _ (ih l h y hy)
      · split at hl
        · simp only [List.mem_singleton] at hl
          subst hl
          simp only [List.mem_singleton] at hy
          simp [hy]
        · rename_i l' ls hf
          rcases List.mem_cons.1 hl with rfl | h
          · rcases List.mem_cons.1 hy with rfl | hy
            · simp
            · exact List.mem_cons_of_mem _ (ih l' (by rw [hf]; simp) y hy)
          · exact List.mem_cons_of_mem _ (ih l (by rw [hf]; simp [h]) y hy)
  have h2 : ∀ xs : List Item, Item.bad b ∈ newlines xs → Item.bad b ∈ xs := by
    intro xs
    induction xs with
    | nil => intro h; cases h
    | cons x r ih =>
      intro h
      rw [newlines] at h
      split at h
      · split at h
        · exact List.mem_cons_of_mem _ (ih h)
        · simp only [List.mem_cons, reduceCtorEq, false_or] at h
          exact List.mem_cons_of_mem _ (ih h)
      · rcases List.mem_cons.1 h with rfl | h
        · simp
        · exact List.mem_cons_of_mem _ (ih h)
  exact h2 items (h1 _ l hl _ hb)

theorem badAt_walk (items : List Item) (line col b : ℕ) : BadAt items line col b ↔ (line, col, b) ∈ walk 1 1 items := by
  rw [walk_mem]
  unfold BadAt
  apply exists_congr; intro pre
  apply exists_congr; intro post
  apply and_congr_right; intro _
  apply and_congr_right; intro _
  by_cases h0 : ends pre = 0
  · rw [if_pos h0]
    have ha := (ends_zero pre).1 h0
    have : since pre = pre.length := by
      unfold since
      rw [List.takeWhile_eq_self_iff.2, List.length_reverse]
      intro y hy
      rw [List.any_eq_false] at ha
      have := ha y (List.mem_reverse.1 hy)
      simp at this ⊢
      exact this
    rw [this]
  · rw [if_neg h0]

/-- **C183.** The report of a file names exactly the bytes that are not part of a character in UTF-8: a line of the report for each line of the file with such
bytes, in order, with the number of the line, and for each of these bytes its place in the line and its value, in order. Lines end with `\n`, `\r\n` or `\r`. -/
theorem report_exact (bytes : List UInt8) (items : List Item) (hr : Reads (bytes.map UInt8.toNat) items) :
    ∃ fs : List (ℕ × List (ℕ × ℕ)), debugFile bytes = (fs.map lineText).flatten ∧
      fs.Pairwise (fun a b => a.1 < b.1) ∧ (∀ x ∈ fs, x.2 ≠ [] ∧ x.2.Pairwise (fun a b => a.1 < b.1)) ∧
      ∀ line col b, (∃ es, (line, es) ∈ fs ∧ (col, b) ∈ es) ↔ BadAt items line col b := by
  refine ⟨found 1 (fileLines (newlines items)), ?_, found_sorted _ _, found_lines _ _, ?_⟩
  · unfold debugFile
    rw [reads_decode hr]
    apply report_found
    intro l hl b hb
    have := (decode_bad_ge hr (mem_lines hl hb)).1
    omega
  · intro line col b
    rw [found_mem, errs_walk, badAt_walk]

/-- **C183 (there is one reading).** -/
theorem reading_unique (bytes : List UInt8) : ∃! items, Reads (bytes.map UInt8.toNat) items := by
  refine ⟨decode 0 (bytes.map UInt8.toNat), (reads_iff _ _).2 rfl, ?_⟩
  intro y hy
  exact (reads_decode hy).symm

/-- **C183 (nothing wrong).** The report is empty exactly for a file that is the UTF-8 form of a text. -/
theorem report_empty_iff (bytes : List UInt8) : debugFile bytes = [] ↔ ∃ text : List Char, bytes = (text.map String.utf8EncodeChar).flatten := by
  obtain ⟨items, hr, -⟩ := reading_unique bytes
  obtain ⟨fs, h1, -, h3, h4⟩ := report_exact bytes items hr
  have hinj : Function.Injective (List.map UInt8.toNat) := List.map_injective_iff.2 (fun a b h => UInt8.toNat_inj.1 h)
  have hbad : debugFile bytes = [] ↔ ∀ b, Item.bad b ∉ items := by
    rw [h1]
    constructor
    · intro h b hb
      obtain ⟨pre, post, e⟩ := List.append_of_mem hb
      obtain ⟨es, hes, -⟩ := (h4 (1 + ends pre) (1 + since pre) b).2 ⟨pre, post, e, rfl, rfl⟩
      rw [List.flatten_eq_nil_iff] at h
      have := h _ (List.mem_map.2 ⟨_, hes, rfl⟩)
      unfold lineText at this
      simp at this
    · intro h
      cases fs with
      | nil => rfl
      | cons x fs =>
        exfalso
        obtain ⟨hne, -⟩ := h3 x (by simp)
        cases hx : x.2 with
        | nil => exact hne hx
        | cons e es =>
          obtain ⟨pre, post, he, -⟩ := (h4 x.1 e.1 e.2).1 ⟨x.2, by simp, by rw [hx]; simp⟩
          exact h e.2 (by rw [he]; simp)
  rw [hbad]
  constructor
  · intro h
    have aux : ∀ {bs : List ℕ} {items : List Item}, Reads bs items → (∀ b, Item.bad b ∉ items) → ∃ text : List Char, bs = (text.map enc).flatten := by
      intro bs items hr
      induction hr with
      | nil => intro _; exact ⟨[], rfl⟩
      | char c r items _ ih =>
        intro h
        obtain ⟨t, ht⟩ := ih (fun b hb => h b (List.mem_cons_of_mem _ hb))
        exact ⟨c :: t, by rw [ht]; rfl⟩
      | bad b r items _ _ _ => intro h; exact absurd (by simp) (h b)
    obtain ⟨text, ht⟩ := aux hr h
    refine ⟨text, hinj ?_⟩
    rw [ht, List.map_flatten, List.map_map]
    rfl
  · rintro ⟨text, rfl⟩
    have hrd : Reads (((text.map String.utf8EncodeChar).flatten).map UInt8.toNat) (text.map (fun c => Item.char c.toNat)) := by
      rw [List.map_flatten, List.map_map]
      clear hr h1 h3 h4 hbad
      induction text with
      | nil => exact .nil
      | cons c t ih => exact .char c _ _ ih
    have : items = text.map (fun c => Item.char c.toNat) := by rw [← reads_decode hr, reads_decode hrd]
    intro b hb
    rw [this] at hb
    simp at hb

/-! ### concrete cases -/

/-- `aä` in UTF-8, a line end of Windows, `b` and the byte `e4` of Latin-1, a line end, and a character cut short (example) -/
def exBytes : List UInt8 := [97, 195, 164, 13, 10, 98, 228, 13, 226, 130]

example : debugFile exBytes = "Found errors on line 2:  2: e4\nFound errors on line 3:  1: e2  2: 82\n".toList := by decide +kernel

example : debugFile [97, 195, 164, 13, 10, 226, 130, 172] = [] := (report_empty_iff _).2 ⟨"aä\r\n€".toList, by decide +kernel⟩

end F4Enix.Uni
