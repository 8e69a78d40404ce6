import Verif.Base.TextLemmas
/-!
# Model of the writing of an input (`MCNPinput.py`: `_print_cards`, `write_blocks`, `write`)

A card is its text, `card.card(wrap=wrap)` of numjuggler; the materials are the text of
`MatCardsList.to_text`.
-/
namespace F4Enix.Write
open F4Enix

/-- `s.strip("\n")` (Python, MCNPinput.py:564-573) -/
def stripNL (s : Str) : Str :=
  ((s.dropWhile (fun c => c == '\n')).reverse.dropWhile (fun c => c == '\n')).reverse

/-- `s.replace("\r", "")` (Python, MCNPinput.py:564-573) -/
def delCR (s : Str) : Str := s.filter (fun c => c != '\r')

/-- how many characters of `s` the pattern `\n[\s\t]*\n` (MCNPinput.py:49) takes behind a first newline: the white
space up to its last newline (greedy), nothing if there is none -/
def blankRun (s : Str) : Nat :=
  if '\n' ∈ s.takeWhile isSpace then
    (s.takeWhile isSpace).length - ((s.takeWhile isSpace).reverse.takeWhile (fun c => c != '\n')).length
  else 0

/-- `PAT_BLANK_LINE.sub("\n", s)`; the first argument counts characters of the match still to be dropped (Python, MCNPinput.py:564-573) -/
def subBlank : Nat → Str → Str
  | _, [] => []
  | n + 1, _ :: cs => subBlank n cs
  | 0, c :: cs => if c = '\n' then '\n' :: subBlank (blankRun cs) cs else c :: subBlank 0 cs

/-- one card of `_print_cards` (MCNPinput.py:564-575) -/
def printCard (t : Str) : Str := subBlank 0 (delCR (stripNL t ++ ['\n']))

/-- `_print_cards` written one after the other (MCNPinput.py:564-573) -/
def printCards (ts : List Str) : Str := ts.flatMap printCard

/-- what is written; `mats` is `none` when there is no material (`len(materials.matdic) > 0`) (MCNPinput.py:818-878) -/
structure Blocks where
  header : Option (List Str)
  cells : List Str
  surfs : List Str
  trans : List Str
  mats : Option Str
  other : List Str

/-- the header lines (MCNPinput.py:853-860) -/
def headerText : Option (List Str) → Str
  | none => "C\n".toList
  | some ls => ls.flatMap delCR

/-- `materials.to_text() + "\n"` (MCNPinput.py:875) -/
def matText : Option Str → Str
  | none => []
  | some m => m ++ ['\n']

/-- `write_blocks` (MCNPinput.py:818-878), called by `write` with all blocks (359-382) -/
def writeText (b : Blocks) : Str :=
  headerText b.header ++ printCards b.cells ++ '\n' :: (printCards b.surfs ++ '\n' ::
    (printCards b.trans ++ matText b.mats ++ printCards b.other))

end F4Enix.Write
