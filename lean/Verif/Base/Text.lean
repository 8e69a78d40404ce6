/-!
# Text primitives shared by the models

The Python runtime facilities used by the parsers and writers of F4Enix (`str.strip`,
`re.split(r"[\s\t]+", …)`, `"{:>Ns}".format`, iteration over the lines of a file, `str(int)`,
`int(str)`), written out as small computable functions on lists of characters.
They are *assumed* behaviour of the Python runtime (trusted base, DESIGN.md section 3).
-/
namespace F4Enix

/-- Text. (Python) -/
abbrev Str := List Char

/-- The Python exceptions that the modelled code can raise. (Python) -/
inductive PyErr where
  | valueError | keyError | indexError | typeError | attributeError | unboundLocal
  | runtimeError | assertionError | notImplemented | zeroDivision | ioError | systemExit
  -- not exceptions: a loop that never ends; a result that is not a finite number
  | diverges | notFinite
  deriving DecidableEq, Repr

/-- Outcomes are comparable, so that concrete cases can be evaluated. -/
instance instDecidableEqExcept {ε α : Type} [DecidableEq ε] [DecidableEq α] :
    DecidableEq (Except ε α) := fun a b =>
  match a, b with
  | .ok x, .ok y => if h : x = y then isTrue (by rw [h]) else isFalse (by simpa using h)
  | .error x, .error y => if h : x = y then isTrue (by rw [h]) else isFalse (by simpa using h)
  | .ok _, .error _ => isFalse (by simp)
  | .error _, .ok _ => isFalse (by simp)

/-- Code points that Python's `str.isspace` / the regex class `\s` (str pattern) accept. (Python) -/
def isSpace (c : Char) : Bool :=
  let n := c.toNat
  (9 ≤ n && n ≤ 13) || (28 ≤ n && n ≤ 32) || n == 0x85 || n == 0xA0 || n == 0x1680 ||
  (0x2000 ≤ n && n ≤ 0x200A) || n == 0x2028 || n == 0x2029 || n == 0x202F || n == 0x205F ||
  n == 0x3000

/-- Does the text start with a white space character? (Python) -/
def startsSpace : Str → Bool
  | [] => false
  | c :: _ => isSpace c

/-- `PAT_SPACE.split(s)` with `PAT_SPACE = re.compile(r"[\s\t]+")`
(src/f4enix/constants.py:38): maximal runs of white space are the separators; a leading
(trailing) run yields an empty first (last) piece. -/
def splitWs : Str → List Str
  | [] => [[]]
  | c :: cs =>
    if isSpace c then
      if startsSpace cs then splitWs cs else [] :: splitWs cs
    else
      match splitWs cs with
      | [] => [[c]]
      | t :: ts => (c :: t) :: ts

/-- `str.lstrip()` (Python) -/
def lstrip (s : Str) : Str := s.dropWhile isSpace

/-- `str.rstrip()` (Python) -/
def rstrip (s : Str) : Str := (s.reverse.dropWhile isSpace).reverse

/-- `str.strip()` (Python) -/
def strip (s : Str) : Str := rstrip (lstrip s)

/-- `"{:>ws}".format(s)`: pad on the left with spaces to width `w`; never truncates. (Python) -/
def padLeft (w : Nat) (s : Str) : Str := List.replicate (w - s.length) ' ' ++ s

/-- `for line in infile`: the lines of a text, each with its terminating newline (the last one
without if the text does not end with a newline). (Python) -/
def fileLines : Str → List Str
  | [] => []
  | c :: cs =>
    if c = '\n' then ['\n'] :: fileLines cs
    else
      match fileLines cs with
      | [] => [[c]]
      | l :: ls => (c :: l) :: ls

/-- The decimal digit character of `d < 10`. (Python) -/
def digitChar (d : Nat) : Char := Char.ofNat (48 + d)

/-- ASCII decimal digits. Simplification: Python's `\d` also accepts other Unicode decimal
digits. (Python) -/
def isDigit (c : Char) : Bool := 48 ≤ c.toNat && c.toNat ≤ 57

/-- Decimal digits of `n`, most significant first (`fuel ≥ n` is always enough). (Python) -/
def natStrFuel : Nat → Nat → Str
  | 0, n => [digitChar n]
  | fuel + 1, n =>
    if n < 10 then [digitChar n] else natStrFuel fuel (n / 10) ++ [digitChar (n % 10)]

/-- `str(n)` for a non-negative integer. (Python) -/
def natStr (n : Nat) : Str := natStrFuel n n

/-- Value of a string of ASCII digits. (Python) -/
def digitsVal (s : Str) : Nat := s.foldl (fun a c => a * 10 + (c.toNat - 48)) 0

/-- `str(i)` for an integer. (Python) -/
def intStr (i : Int) : Str :=
  match i with
  | .ofNat n => natStr n
  | .negSucc n => '-' :: natStr (n + 1)

/-- `int(s)`: optional sign and ASCII digits, surrounding white space allowed; `none` stands for
the `ValueError`. Simplification: underscores between digits are not accepted. (Python) -/
def parseInt (s : Str) : Option Int :=
  match strip s with
  | [] => none
  | c :: cs =>
    if c = '-' then
      if cs ≠ [] ∧ cs.all isDigit then some (-(digitsVal cs : Int)) else none
    else if c = '+' then
      if cs ≠ [] ∧ cs.all isDigit then some (digitsVal cs : Int) else none
    else if (c :: cs).all isDigit then some (digitsVal (c :: cs) : Int) else none

/-- `re.compile(r"\d+").search(s)`: the leftmost maximal run of digits. (Python) -/
def searchDigits (s : Str) : Option Str :=
  match (s.dropWhile (fun c => !isDigit c)).takeWhile isDigit with
  | [] => none
  | ds => some ds

/-- `" ".join(words)` (Python) -/
def unwords : List Str → Str
  | [] => []
  | [w] => w
  | w :: w' :: ws => w ++ ' ' :: unwords (w' :: ws)

/-- A word: non-empty and free of white space. (specification) -/
def IsWord (s : Str) : Prop := s ≠ [] ∧ ∀ c ∈ s, isSpace c = false

instance (s : Str) : Decidable (IsWord s) := inferInstanceAs (Decidable (_ ∧ _))

end F4Enix
