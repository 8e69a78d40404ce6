import Verif.Inp.Model
/-!
# Model of the reading of cards (`MCNPinput.py`: `_to_dict`, `_clean_card_name`, `_parse_data_section`)

A card as numjuggler delivers it is its text lines, whether numjuggler recognised a name in it, and for
data cards what it is (a material-like card, a transformation, anything else). Assumed of numjuggler:
`card.card()` of a card that was just read is its lines, and lines are not blank.
-/
namespace F4Enix.Inp
open F4Enix

/-- what numjuggler says about a data card: `card.values[0][1] == "mat"`, `card.dtype == "TRn"`, else (numjuggler, MCNPinput.py:698-724) -/
inductive DataKind where
  | mat | tr | other
  deriving DecidableEq, Repr

/-- a card as read (numjuggler, MCNPinput.py:576-614) -/
structure Raw where
  lines : List Str
  /-- numjuggler found a name (`card.name` does not raise `AttributeError`) -/
  named : Bool
  kind : DataKind
  deriving DecidableEq, Repr

/-- `PAT_COMMENT.match(line)`: `[Cc][\s\t\n]+` (constants.py:40) -/
def isComment : Str → Bool
  | c :: d :: _ => (c = 'C' || c = 'c') && isSpace d
  | _ => false

/-- `line.split()[0].upper()`; `IndexError` on a blank line (Python, MCNPinput.py:576-614) -/
def firstWord (l : Str) : Except PyErr Str :=
  match (lstrip l).takeWhile (fun c => !isSpace c) with
  | [] => .error .indexError
  | w => .ok (upper w)

/-- `_get_card_key` (MCNPinput.py:2164-2174) -/
def rawKey : List Str → Except PyErr Str
  | [] => .error .valueError
  | l :: ls => if isComment l then rawKey ls else firstWord l

/-- is it a card made of comments only? (MCNPinput.py:588-597) -/
def Raw.isCommentCard (c : Raw) : Bool :=
  !c.named && (match c.lines with | [] => false | l :: _ => isComment l)

/-- key of a card that is not a pure comment (MCNPinput.py:582-601) -/
def Raw.key (c : Raw) : Except PyErr Str :=
  if c.named then rawKey c.lines
  else match c.lines with
    | [] => .error .indexError
    | l :: _ => firstWord l

/-- a waiting comment is put before the lines of the card (MCNPinput.py:603-608) -/
def joinPending (pending : Option (List Str)) (c : Raw) : Raw :=
  match pending with
  | none => c
  | some p => { c with lines := p ++ c.lines }

/-- `Input._to_dict` (MCNPinput.py:577-615): `pending` are the lines of a comment waiting for the next
card (`flag_add`) -/
def toDict : List Raw → Option (List Str) → Dict Str Raw → Except PyErr (Dict Str Raw)
  | [], _, acc => .ok acc
  | c :: r, pending, acc =>
    match c.isCommentCard with
    | true => toDict r (some c.lines) acc
    | false =>
      match c.key with
      | .error e => .error e
      | .ok k =>
        match acc.has k with
        | true => .error .keyError
        | false =>
          toDict r none (acc.set k (joinPending pending c))

/-- the prefixes tried at a position by `(FMESH|TR|F)\d+` (constants.py:43) -/
def cleanPrefixes : List Str := ["FMESH".toList, "TR".toList, "F".toList]

/-- one prefix followed by digits, at the head of the text (MCNPinput.py:1029-1043) -/
def cleanAt (s : Str) : List Str → Option Str
  | [] => none
  | p :: ps =>
    match (if p.isPrefixOf s then (s.drop p.length).takeWhile isDigit else []) with
    | [] => cleanAt s ps
    | ds => some (p ++ ds)

/-- `PAT_F_TR_CARD_KEY.search(key)` (MCNPinput.py:1029-1043) -/
def cleanSearch : Str → Option Str
  | [] => none
  | c :: s =>
    match cleanAt (c :: s) cleanPrefixes with
    | some w => some w
    | none => cleanSearch s

/-- `"TF" in key` (MCNPinput.py:1029-1043) -/
def hasTF : Str → Bool
  | 'T' :: 'F' :: _ => true
  | _ :: s => hasTF s
  | [] => false

/-- `Input._clean_card_name` (MCNPinput.py:1028-1043) -/
def cleanName (key : Str) : Str :=
  match cleanSearch (upper key) with
  | some w => if hasTF (upper key) then 'T' :: w else w
  | none => upper key

/-- `PAT_MT.match(line)`: `m[tx]\d+` ignoring case (MCNPinput.py:48) -/
def isMxLine : Str → Bool
  | m :: t :: d :: _ => (m = 'm' || m = 'M') && (t = 't' || t = 'T' || t = 'x' || t = 'X') && isDigit d
  | _ => false

/-- a thermal or mixed-library card: its first or its last line says so (MCNPinput.py:739) -/
def isMx (c : Raw) : Bool :=
  (match c.lines.head? with | some l => isMxLine l | none => false) ||
  (match c.lines.getLast? with | some l => isMxLine l | none => false)

/-- the data section: materials (each with the cards attached to it), transformations, other cards (MCNPinput.py:726-757) -/
structure Data where
  mats : List (Raw × List Raw)
  trs : Dict Str Raw
  other : Dict Str Raw
  deriving DecidableEq, Repr

/-- attach to the last material (MCNPinput.py:726-757) -/
def attachLast (c : Raw) : List (Raw × List Raw) → List (Raw × List Raw)
  | [] => []
  | [(m, xs)] => [(m, xs ++ [c])]
  | m :: ms => m :: attachLast c ms

/-- one card of `_parse_data_section` (MCNPinput.py:735-754); `materials[-1]` of an empty list is an
`IndexError`, which puts the card among the others -/
def addData (d : Data) (key : Str) (c : Raw) : Data :=
  match c.kind with
  | .mat =>
    if isMx c then
      if d.mats = [] then { d with other := d.other.set (cleanName key) c }
      else { d with mats := attachLast c d.mats }
    else { d with mats := d.mats ++ [(c, [])] }
  | .tr => { d with trs := d.trs.set (cleanName key) c }
  | .other => { d with other := d.other.set (cleanName key) c }

/-- `_parse_data_section` after `_to_dict` (MCNPinput.py:726-757) -/
def parseData (cards : Dict Str Raw) : Data := cards.foldl (fun d kc => addData d kc.1 kc.2) ⟨[], [], []⟩

/-- the cards as written back (MCNPinput.py:565-575, 866-878): transformations, materials, others, each
in dictionary order -/
def Data.cards (d : Data) : List Raw :=
  d.trs.map Prod.snd ++ (d.mats.map (fun m => m.1 :: m.2)).flatten ++ d.other.map Prod.snd

end F4Enix.Inp
