import Verif.Base.TextLemmas
/-!
# Specification: the text of a cell geometry and the region it describes

Written from the MCNP manual, not from the code of F4Enix: a cell geometry is a text made of
signed surface numbers, `:` (union), `#n` (everything outside cell `n`), `#( … )` (complement)
and parentheses; numbers standing side by side are intersected and the intersection binds
tighter than the union.

* `lex` reads the characters,
* `Union` / `Inter` / `Fact` are the grammar, each rule with the region it denotes,
* `eval` is a stack machine for the same language and `union_eval` shows that the grammar
  describes one region only (`region_unique`).

Simplification: facets of macrobodies (`12.3`) are not in the language.
-/
namespace F4Enix.CellGeo

/-- Lexical elements of a cell geometry. (specification) -/
inductive Tok where
  | lp | rp | colon | hash
  | num (neg : Bool) (n : Nat)
  deriving DecidableEq, Repr

/-- What the reader is in the middle of: nothing, a sign, or a number. (specification) -/
inductive LexSt where
  | idle
  | sign (neg : Bool)
  | num (neg : Bool) (n : Nat)
  deriving DecidableEq, Repr

/-- A character that starts something new. (specification) -/
def startTok (c : Char) : Option (List Tok × LexSt) :=
  if isSpace c then some ([], .idle)
  else if c = '(' then some ([.lp], .idle)
  else if c = ')' then some ([.rp], .idle)
  else if c = ':' then some ([.colon], .idle)
  else if c = '#' then some ([.hash], .idle)
  else if c = '-' then some ([], .sign true)
  else if c = '+' then some ([], .sign false)
  else if isDigit c then some ([], .num false (c.toNat - 48))
  else none

/-- One character. (specification) -/
def lexStep (st : LexSt) (c : Char) : Option (List Tok × LexSt) :=
  match st with
  | .idle => startTok c
  | .sign neg => if isDigit c then some ([], .num neg (c.toNat - 48)) else none
  | .num neg n =>
    if isDigit c then some ([], .num neg (n * 10 + (c.toNat - 48)))
    else (startTok c).map (fun r => (.num neg n :: r.1, r.2))

/-- The end of the text. (specification) -/
def lexEnd : LexSt → Option (List Tok)
  | .idle => some []
  | .sign _ => none
  | .num neg n => some [.num neg n]

/-- The tokens of a text read from a state; `none` when the text is no geometry. (specification) -/
def lexFrom (st : LexSt) : Str → Option (List Tok)
  | [] => lexEnd st
  | c :: cs =>
    match lexStep st c with
    | none => none
    | some (ts, st') => (lexFrom st' cs).map (ts ++ ·)

/-- The tokens of a text. (specification) -/
def lex (s : Str) : Option (List Tok) := lexFrom .idle s

/-- A region of space. (specification) -/
abbrev Region (P : Type) := P → Prop

/-- What the numbers of a geometry stand for: the positive side and the negative side of each
surface, and the region of each cell (only used under `#`). (specification) -/
structure World (P : Type) where
  pos : Nat → Region P
  neg : Nat → Region P
  cell : Nat → Region P

/-- The side of a surface that a signed number selects. (specification) -/
def World.side {P : Type} (w : World P) (s : Bool) (n : Nat) : Region P :=
  if s then w.neg n else w.pos n

/-- `inter` (specification) -/
def inter {P : Type} (a b : Region P) : Region P := fun x => a x ∧ b x
/-- `union` (specification) -/
def union {P : Type} (a b : Region P) : Region P := fun x => a x ∨ b x
/-- `compl` (specification) -/
def compl {P : Type} (a : Region P) : Region P := fun x => ¬ a x

mutual
/-- `Fact w ts r`: the tokens are one factor and denote the region `r`. (specification) -/
inductive Fact {P : Type} (w : World P) : List Tok → Region P → Prop
  | surf (s : Bool) (n : Nat) : Fact w [.num s n] (w.side s n)
  | paren {ts : List Tok} {r : Region P} : Union w ts r → Fact w (.lp :: ts ++ [.rp]) r
  | notCell (n : Nat) : Fact w [.hash, .num false n] (compl (w.cell n))
  | notParen {ts : List Tok} {r : Region P} :
      Union w ts r → Fact w (.hash :: .lp :: ts ++ [.rp]) (compl r)
/-- factors side by side: intersection (specification) -/
inductive Inter {P : Type} (w : World P) : List Tok → Region P → Prop
  | one {ts : List Tok} {r : Region P} : Fact w ts r → Inter w ts r
  | more {ts us : List Tok} {r s : Region P} :
      Inter w ts r → Fact w us s → Inter w (ts ++ us) (inter r s)
/-- intersections separated by `:`: union (specification) -/
inductive Union {P : Type} (w : World P) : List Tok → Region P → Prop
  | one {ts : List Tok} {r : Region P} : Inter w ts r → Union w ts r
  | more {ts us : List Tok} {r s : Region P} :
      Union w ts r → Inter w us s → Union w (ts ++ .colon :: us) (union r s)
end

/-- `Denotes w text r`: the geometry text describes the region `r`. (specification) -/
def Denotes {P : Type} (w : World P) (text : Str) (r : Region P) : Prop :=
  ∃ ts, lex text = some ts ∧ Union w ts r

/-! ## The language is unambiguous -/

/-- One level of parentheses being read: the union so far, the intersection so far, and whether
a `#` waits for its operand; `negated` says whether the parenthesis itself stands after `#`. (specification) -/
structure Frame (P : Type) where
  uni : Option (Region P)
  int : Option (Region P)
  hash : Bool
  negated : Bool

/-- `Frame.fresh` (specification) -/
def Frame.fresh {P : Type} (negated : Bool) : Frame P := ⟨none, none, false, negated⟩

/-- `orElse` (specification) -/
def orElse {P : Type} (u : Option (Region P)) (i : Region P) : Region P :=
  match u with
  | none => i
  | some r => union r i

/-- `andThen` (specification) -/
def andThen {P : Type} (u : Option (Region P)) (i : Region P) : Region P :=
  match u with
  | none => i
  | some r => inter r i

/-- add a factor to the intersection of the frame (specification) -/
def Frame.push {P : Type} (f : Frame P) (r : Region P) : Frame P :=
  { f with int := some (andThen f.int r), hash := false }

/-- Run the machine. The list of frames is never empty while reading. (specification) -/
def run {P : Type} (w : World P) : List (Frame P) → List Tok → Option (List (Frame P))
  | fs, [] => some fs
  | [], _ :: _ => none
  | f :: fs, .lp :: ts => run w (Frame.fresh f.hash :: f :: fs) ts
  | f :: fs, .rp :: ts =>
    match f.hash, f.int, fs with
    | false, some i, g :: gs =>
      run w (g.push (if f.negated then compl (orElse f.uni i) else orElse f.uni i) :: gs) ts
    | _, _, _ => none
  | f :: fs, .colon :: ts =>
    match f.hash, f.int with
    | false, some i => run w (⟨some (orElse f.uni i), none, false, f.negated⟩ :: fs) ts
    | _, _ => none
  | f :: fs, .hash :: ts => if f.hash then none else run w (⟨f.uni, f.int, true, f.negated⟩ :: fs) ts
  | f :: fs, .num s n :: ts =>
    if f.hash then
      (if s then none else run w (f.push (compl (w.cell n)) :: fs) ts)
    else run w (f.push (w.side s n) :: fs) ts

/-- The region of a geometry according to the machine. (specification) -/
def eval {P : Type} (w : World P) (ts : List Tok) : Option (Region P) :=
  match run w [Frame.fresh false] ts with
  | some [⟨u, some i, false, _⟩] => some (orElse u i)
  | _ => none

mutual
theorem fact_run {P : Type} (w : World P) : ∀ {ts : List Tok} {r : Region P}, Fact w ts r →
    ∀ (f : Frame P) (fs : List (Frame P)) (rest : List Tok), f.hash = false →
      run w (f :: fs) (ts ++ rest) = run w (f.push r :: fs) rest
  | _, _, .surf s n => by
    intro f fs rest hf
    simp [run, hf]
  | _, _, .paren h => by
    intro f fs rest hf
    obtain ⟨u, i, hr, h⟩ := union_run w h f.hash (f :: fs) (.rp :: rest)
    simp only [List.cons_append, List.append_assoc, List.nil_append, run]
    rw [h]
    simp [run, hf, hr]
  | _, _, .notCell n => by
    intro f fs rest hf
    simp [run, hf, Frame.push]
  | _, _, .notParen h => by
    intro f fs rest hf
    obtain ⟨u, i, hr, h⟩ := union_run w h true (⟨f.uni, f.int, true, f.negated⟩ :: fs) (.rp :: rest)
    simp only [List.cons_append, List.append_assoc, List.nil_append, run, hf]
    simp only [Bool.false_eq_true, if_false]
    rw [h]
    simp [run, hr, Frame.push]

theorem inter_run {P : Type} (w : World P) : ∀ {ts : List Tok} {r : Region P}, Inter w ts r →
    ∀ (f : Frame P) (fs : List (Frame P)) (rest : List Tok), f.hash = false → f.int = none →
      run w (f :: fs) (ts ++ rest) = run w (f.push r :: fs) rest
  | _, _, .one h => by
    intro f fs rest hf _
    exact fact_run w h f fs rest hf
  | _, _, .more h1 h2 => by
    intro f fs rest hf hi
    rw [List.append_assoc, inter_run w h1 f fs _ hf hi, fact_run w h2 _ fs rest rfl]
    simp [Frame.push, hi, andThen]

theorem union_run {P : Type} (w : World P) : ∀ {ts : List Tok} {r : Region P}, Union w ts r →
    ∀ (b : Bool) (fs : List (Frame P)) (rest : List Tok), ∃ u i, orElse u i = r ∧
      run w (Frame.fresh b :: fs) (ts ++ rest) = run w (⟨u, some i, false, b⟩ :: fs) rest
  | _, r, .one h => by
    intro b fs rest
    refine ⟨none, r, rfl, ?_⟩
    rw [inter_run w h (Frame.fresh b) fs rest rfl rfl]
    simp [Frame.push, Frame.fresh, andThen]
  | _, _, .more (us := us) (r := r) (s := s) h1 h2 => by
    intro b fs rest
    obtain ⟨u, i, hr, h⟩ := union_run w h1 b fs (.colon :: us ++ rest)
    refine ⟨some r, s, rfl, ?_⟩
    rw [List.append_assoc, h]
    simp only [List.cons_append, run]
    rw [inter_run w h2 _ fs rest rfl rfl]
    simp [Frame.push, hr, andThen]
end

/-- The machine finds the region of every geometry of the grammar. -/
theorem union_eval {P : Type} (w : World P) {ts : List Tok} {r : Region P} (h : Union w ts r) :
    eval w ts = some r := by
  obtain ⟨u, i, hr, h⟩ := union_run w h false [] []
  rw [List.append_nil] at h
  unfold eval
  rw [h]
  simp [run, hr]

/-- **A geometry text describes at most one region.** -/
theorem region_unique {P : Type} (w : World P) {text : Str} {r s : Region P}
    (h1 : Denotes w text r) (h2 : Denotes w text s) : r = s := by
  obtain ⟨ts, l1, u1⟩ := h1
  obtain ⟨us, l2, u2⟩ := h2
  rw [l1] at l2
  cases l2
  have := (union_eval w u1).symm.trans (union_eval w u2)
  exact Option.some.inj this

/-- `1 -2 : (3 : #4) #(5:-6)` -/
example (w : World Nat) : Denotes w "1 -2 :(3: #4) #(5:-6)".toList
    (union (inter (w.pos 1) (w.neg 2))
      (inter (union (w.pos 3) (compl (w.cell 4))) (compl (union (w.pos 5) (w.neg 6))))) := by
  refine ⟨_, rfl, ?_⟩
  refine Union.more (ts := [.num false 1, .num true 2]) (Union.one (Inter.more (ts := [_])
    (Inter.one (.surf false 1)) (.surf true 2))) ?_
  refine Inter.more (ts := [.lp, .num false 3, .colon, .hash, .num false 4, .rp]) (Inter.one ?_) ?_
  · exact Fact.paren (Union.more (ts := [_]) (Union.one (Inter.one (.surf false 3)))
      (Inter.one (.notCell 4)))
  · exact Fact.notParen (Union.more (ts := [_]) (Union.one (Inter.one (.surf false 5)))
      (Inter.one (.surf true 6)))

/-! ## Lexing of composed texts -/

theorem lexFrom_space (st : LexSt) (c : Char) (s : Str) (hc : isSpace c = true) (t : Str) :
    lexFrom st (t ++ c :: s) =
      (match lexFrom st t, lex s with
        | some a, some b => some (a ++ b)
        | _, _ => none) := by
  induction t generalizing st with
  | nil =>
    have hd : isDigit c = false := by
      cases hd : isDigit c with
      | false => rfl
      | true => rw [isSpace_of_isDigit hd] at hc; cases hc
    have e : startTok c = some ([], .idle) := by unfold startTok; rw [if_pos hc]
    rw [List.nil_append]
    cases st with
    | idle => simp only [lexFrom, lexStep, e, lexEnd, lex]; cases lexFrom .idle s <;> simp
    | sign n => simp [lexFrom, lexStep, hd, lexEnd]
    | num b n =>
      simp only [lexFrom, lexStep, e, lexEnd, lex, hd, Bool.false_eq_true, if_false, Option.map_some]
      cases lexFrom .idle s <;> simp
  | cons d t ih =>
    simp only [List.cons_append, lexFrom]
    cases lexStep st d with
    | none => rfl
    | some p =>
      simp only
      rw [ih]
      cases lexFrom p.2 t <;> cases lex s <;> simp

/-- Two texts separated by a blank: the tokens of the one, then those of the other. -/
theorem lex_space {a b : Str} {ta tb : List Tok} (ha : lex a = some ta) (hb : lex b = some tb) :
    lex (a ++ ' ' :: b) = some (ta ++ tb) := by
  unfold lex at *
  rw [lexFrom_space .idle ' ' b isSpace_space a, ha]
  unfold lex
  rw [hb]

/-- Conversely the parts of a geometry text are geometry texts. -/
theorem lex_space_inv {a b : Str} {ts : List Tok} (h : lex (a ++ ' ' :: b) = some ts) :
    ∃ ta tb, lex a = some ta ∧ lex b = some tb ∧ ts = ta ++ tb := by
  unfold lex at h
  rw [lexFrom_space .idle ' ' b isSpace_space a] at h
  unfold lex
  unfold lex at h
  cases ha : lexFrom .idle a with
  | none => rw [ha] at h; simp at h
  | some ta =>
    cases hb : lexFrom .idle b with
    | none => rw [ha, hb] at h; simp at h
    | some tb =>
      rw [ha, hb] at h
      exact ⟨ta, tb, rfl, rfl, (Option.some.inj h).symm⟩

theorem lexFrom_digits (neg : Bool) (ds : Str) (h : ∀ c ∈ ds, isDigit c = true) (n : Nat) (s : Str) :
    lexFrom (.num neg n) (ds ++ s) =
      lexFrom (.num neg (ds.foldl (fun a c => a * 10 + (c.toNat - 48)) n)) s := by
  induction ds generalizing n with
  | nil => rfl
  | cons c ds ih =>
    have hc := h c List.mem_cons_self
    simp only [List.cons_append, lexFrom, lexStep, hc, if_true, List.foldl_cons]
    rw [ih (fun d hd => h d (List.mem_cons_of_mem _ hd))]
    cases lexFrom _ s <;> simp

theorem lexFrom_blanks (k : Nat) : lexFrom .idle (List.replicate k ' ') = some [] := by
  induction k with
  | zero => rfl
  | succ k ih =>
    rw [List.replicate_succ]
    have e : lexStep .idle ' ' = some ([], .idle) := by decide
    simp only [lexFrom, e, ih]
    rfl

theorem lexFrom_num_blanks (neg : Bool) (n k : Nat) :
    lexFrom (.num neg n) (List.replicate k ' ') = some [.num neg n] := by
  cases k with
  | zero => rfl
  | succ k =>
    rw [List.replicate_succ]
    have e : lexStep (.num neg n) ' ' = some ([.num neg n], .idle) := by
      simp [lexStep, show isDigit ' ' = false by decide, startTok, isSpace_space]
    simp only [lexFrom, e, lexFrom_blanks]
    rfl

/-- The first digit of a number. -/
theorem startTok_digit {c : Char} (h : isDigit c = true) :
    startTok c = some ([], .num false (c.toNat - 48)) := by
  have h1 : isSpace c = false := isSpace_of_isDigit h
  have hn : ∀ d : Char, isDigit d = false → c ≠ d := by
    intro d hd e; rw [e] at h; rw [h] at hd; cases hd
  unfold startTok
  simp [h1, h, hn '(' (by decide), hn ')' (by decide), hn ':' (by decide), hn '#' (by decide),
    hn '-' (by decide), hn '+' (by decide)]

/-- A printed number, with blanks after it, read after nothing. -/
theorem lex_natStr (n k : Nat) :
    lex (natStr n ++ List.replicate k ' ') = some [.num false n] := by
  have hd := natStr_all_digit n
  have hv := digitsVal_natStr n
  unfold lex
  cases h : natStr n with
  | nil => exact absurd h (natStr_ne_nil n)
  | cons c ds =>
    rw [h] at hd hv
    have hc := hd c List.mem_cons_self
    simp only [List.cons_append, lexFrom, lexStep, startTok_digit hc]
    rw [lexFrom_digits false ds (fun d hd' => hd d (List.mem_cons_of_mem _ hd')), lexFrom_num_blanks]
    simp only [digitsVal, List.foldl_cons, Nat.zero_mul, Nat.zero_add] at hv
    rw [hv]; rfl

/-- The same after a sign. -/
theorem lexFrom_sign_natStr (neg : Bool) (n k : Nat) :
    lexFrom (.sign neg) (natStr n ++ List.replicate k ' ') = some [.num neg n] := by
  have hd := natStr_all_digit n
  have hv := digitsVal_natStr n
  cases h : natStr n with
  | nil => exact absurd h (natStr_ne_nil n)
  | cons c ds =>
    rw [h] at hd hv
    have hc := hd c List.mem_cons_self
    simp only [List.cons_append, lexFrom, lexStep, hc, if_true]
    rw [lexFrom_digits neg ds (fun d hd' => hd d (List.mem_cons_of_mem _ hd')), lexFrom_num_blanks]
    simp only [digitsVal, List.foldl_cons, Nat.zero_mul, Nat.zero_add] at hv
    rw [hv]; rfl

end F4Enix.CellGeo
