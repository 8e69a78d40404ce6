import Verif.Inp.Model
/-!
# Model of the functions of `src/f4enix/input/MCNPinput.py` that edit the text of a cell card

`add_cell_fill_u`, `add_surface`, `hash_cell`, `hash_multiple_cells`, `cells_union`,
`_add_symbol_to_cell_input` and `remove_u` (MCNPinput.py:1328-1606).

A numjuggler cell card keeps `input`, the lines of the card without comments in which every number
that can be renumbered has been replaced by a format hole `{:<w}`, and `values`, the numbers with
their kind, in the order of the holes; `card()` prints the lines with the holes filled. The model
keeps both. Simplification: a line is its indentation and its list of words, so runs of blanks
between words are not distinguished (every function below splits the line into words and joins them
by one blank).
-/
namespace F4Enix.CellText
open F4Enix F4Enix.Inp

/-- A piece of a template line: a character or a format hole `{:<w}`. (numjuggler) -/
inductive Piece where
  | ch (c : Char)
  | hole (w : Nat)
  deriving DecidableEq, Repr

/-- A word of a template line (`line.split()`). (numjuggler) -/
abbrev Word := List Piece

/-- A word without holes. (numjuggler) -/
def lit (s : Str) : Word := s.map Piece.ch

/-- A template line. (numjuggler) -/
structure Row where
  indent : Nat
  words : List Word
  deriving DecidableEq, Repr

/-- The card of a cell: `card.name`, `card.input`, `card.values`. (numjuggler, MCNPinput.py:1382-1439) -/
structure Card where
  name : ℤ
  rows : List Row
  vals : List (ℤ × Kind)
  deriving DecidableEq, Repr

/-- `str.isalpha()` of a character. Simplification: ASCII letters only. (Python, MCNPinput.py:1536-1586) -/
def isAlpha (c : Char) : Bool :=
  (65 ≤ c.toNat && c.toNat ≤ 90) || (97 ≤ c.toNat && c.toNat ≤ 122)

/-- `Piece.isAlpha` (Python, MCNPinput.py:1536-1586) -/
def Piece.isAlpha : Piece → Bool
  | .ch c => CellText.isAlpha c
  | .hole _ => false

/-- `any(c.isalpha() for c in word)` (MCNPinput.py:1563): the text `{:<w}` of a hole has no
letters -/
def hasAlpha (w : Word) : Bool := w.any Piece.isAlpha

/-- `card.get_m()` (numjuggler) -/
def Card.mat (c : Card) : Option ℤ := first c.vals .mat
/-- `card.get_u()` (numjuggler) -/
def Card.univ (c : Card) : Option ℤ := first c.vals .u
/-- `card.get_f()` (a single filling universe) (numjuggler) -/
def Card.fill (c : Card) : Option ℤ := first c.vals .fill

/-- the loop over the rows (MCNPinput.py:1559-1578): the words `ins` go before the first word
with a letter of the first row that has one, or at the end of the last row. The row is rebuilt by
`" ".join`, so the first row has no indentation and another one gets five blanks. -/
def insertRows (ins : List Word) : Bool → List Row → List Row
  | _, [] => []
  | isFirst, r :: rs =>
    if r.words.any hasAlpha ∨ rs.isEmpty then
      ⟨if isFirst then 0 else 5,
        r.words.takeWhile (fun w => !hasAlpha w) ++ ins ++ r.words.dropWhile (fun w => !hasAlpha w)⟩ :: rs
    else r :: insertRows ins false rs

/-- `first_row[j] = first_row[j] + " ("` (MCNPinput.py:1548-1556) -/
def openParen (j : Nat) (ws : List Word) : Except PyErr (List Word) :=
  if j < ws.length then .ok (ws.take (j + 1) ++ lit ['('] :: ws.drop (j + 1)) else .error .indexError

/-- renumbering at the end (MCNPinput.py:1581-1583) -/
def renumber (n : Option ℤ) (c : Card) : Card :=
  match n with
  | none => c
  | some n => { c with name := n, vals := setFirst c.vals .cel n }

/-- `_add_symbol_to_cell_input` (MCNPinput.py:1535-1585) without the copy: `sym` are the words of
`add_symbol`. -/
def addSymbol (sym : List Word) (parentheses : Bool) (num : Option ℤ) (c : Card) : Except PyErr Card :=
  match c.rows with
  | [] => .error .indexError
  | r :: rs =>
    match (if parentheses then openParen (if c.mat = some 0 then 1 else 2) r.words else .ok r.words) with
    | .error e => .error e
    | .ok ws =>
      let ins := if parentheses then lit [')'] :: sym else sym
      .ok (renumber num { c with rows := insertRows ins true (⟨0, ws⟩ :: rs) })

/-- is the value a surface or a cell? (MCNPinput.py:1536-1586) -/
def isGeo (v : ℤ × Kind) : Bool := decide (v.2 = Kind.sur ∨ v.2 = Kind.cel)

/-- `for k in range(len(values)-1, -1, -1): if values[k][1] == "sur" or … "cel": break` followed by
`values.insert(k + 1, v)` (MCNPinput.py:1370-1375, 1433-1437, 1466-1471): after the last surface or
cell number; without one the loop ends with `k = 0`; without values `k` is not bound. -/
def insertVal (v : ℤ × Kind) (vals : List (ℤ × Kind)) : Except PyErr (List (ℤ × Kind)) :=
  let tl := vals.reverse.takeWhile (fun x => !isGeo x)
  let hd := vals.reverse.dropWhile (fun x => !isGeo x)
  if vals.isEmpty then .error .unboundLocal
  else if hd.isEmpty then .ok (vals.take 1 ++ v :: vals.drop 1)
  else .ok (hd.reverse ++ v :: tl.reverse)

/-- insertion of the value into the card (MCNPinput.py:1536-1586) -/
def withVal (v : ℤ × Kind) (c : Card) : Except PyErr Card :=
  match insertVal v c.vals with
  | .error e => .error e
  | .ok vs => .ok { c with vals := vs }

/-- `mode` (MCNPinput.py:1382-1439) -/
inductive Mode where
  | union | intersect
  deriving DecidableEq, Repr

/-- `UNION_INTERSECT_SYMBOLS` (constants.py:176) -/
def Mode.symbol : Mode → Str
  | .union => [':']
  | .intersect => []

/-- the template of the added surface (MCNPinput.py:1414-1427) -/
def surfaceWord (mode : Mode) (s : ℤ) : Word :=
  if 0 ≤ s then lit mode.symbol ++ [.hole (intStr s).length]
  else lit mode.symbol ++ [.ch '-', .hole ((intStr s).length - 1)]

/-- `add_surface` (MCNPinput.py:1382-1439); the result is the returned card, which with
`inplace=True` is the given card. Simplification: the `KeyError` of an unknown mode. -/
def addSurface (c : Card) (s : ℤ) (num : Option ℤ) (mode : Mode) : Except PyErr Card :=
  match addSymbol [surfaceWord mode s] true num c with
  | .error e => .error e
  | .ok c' => withVal (|s|, .sur) c'

/-- `hash_cell` (MCNPinput.py:1441-1471) -/
def hashCell (c : Card) (h : ℤ) (num : Option ℤ) : Except PyErr Card :=
  match addSymbol [[.ch '#', .hole ((intStr h).length - 1)]] true num c with
  | .error e => .error e
  | .ok c' => withVal (h, .cel) c'

/-- the keyword of `add_cell_fill_u` (MCNPinput.py:1329-1379) -/
inductive Param where
  | u | fill
  deriving DecidableEq, Repr

/-- `Param.kind` (MCNPinput.py:1329-1379) -/
def Param.kind : Param → Kind
  | .u => .u
  | .fill => .fill
/-- `Param.key` (MCNPinput.py:1329-1379) -/
def Param.key : Param → Str
  | .u => ['u', '=']
  | .fill => ['f', 'i', 'l', 'l', '=']

/-- Python truth of `get_u()` / `get_f()` (Python, MCNPinput.py:1329-1379) -/
def truthy : Option ℤ → Bool
  | none => false
  | some v => decide (v ≠ 0)

/-- `add_cell_fill_u` (MCNPinput.py:1328-1380). Simplification: the `ValueError` of an unknown
keyword. -/
def addParam (c : Card) (p : Param) (v : ℤ) : Except PyErr Card :=
  if truthy (first c.vals p.kind) then .error .valueError
  else
    match addSymbol [lit p.key ++ [.hole (intStr v).length]] false none c with
    | .error e => .error e
    | .ok c' => withVal (v, p.kind) c'

/-- `re.sub(r"[uU]=\{:<\d+\}", "", …)` on a word (MCNPinput.py:1601) -/
def subU : Word → Word
  | .ch a :: .ch b :: .hole w :: r =>
    if (a = 'u' ∨ a = 'U') ∧ b = '=' then subU r else .ch a :: subU (.ch b :: .hole w :: r)
  | p :: r => p :: subU r
  | [] => []

/-- the loop that removes the first value of kind `u` (MCNPinput.py:1606-1609) -/
def popU : List (ℤ × Kind) → List (ℤ × Kind)
  | [] => []
  | (v, k) :: r => if k = .u then r else (v, k) :: popU r

/-- `remove_u` (MCNPinput.py:1588-1612); a word that becomes empty is no word any more. -/
def removeU (c : Card) : Card :=
  { c with
    rows := c.rows.map (fun r => { r with words := (r.words.map subU).filter (fun w => !w.isEmpty) })
    vals := popU c.vals }

/-! ## Printing -/

/-- `"{:<w}".format(v)` (Python) -/
def fmt (w : Nat) (v : ℤ) : Str := intStr v ++ List.replicate (w - (intStr v).length) ' '

/-- a word with its holes filled from the values, and the values left over (`none`: the
`IndexError` of `str.format` when there are fewer values than holes) (numjuggler) -/
def renderWord : Word → List ℤ → Option (Str × List ℤ)
  | [], vs => some ([], vs)
  | .ch c :: r, vs => (renderWord r vs).map (fun x => (c :: x.1, x.2))
  | .hole _ :: _, [] => none
  | .hole w :: r, v :: vs => (renderWord r vs).map (fun x => (fmt w v ++ x.1, x.2))

/-- several words (numjuggler) -/
def render : List Word → List ℤ → Option (List Str × List ℤ)
  | [], vs => some ([], vs)
  | w :: ws, vs =>
    match renderWord w vs with
    | none => none
    | some (s, vs') => (render ws vs').map (fun x => (s :: x.1, x.2))

/-- all the words of the template, in the order of the text (numjuggler) -/
def Card.words (c : Card) : List Word := c.rows.flatMap (·.words)

/-- the printed words of a card: `card()` of numjuggler, up to blanks and line breaks; values
without a hole are ignored (numjuggler) -/
def Card.print (c : Card) : Option (List Str) := (render c.words (c.vals.map Prod.fst)).map Prod.fst

/-! ## Union of cells -/

/-- `" : (" + cell.get_geom().replace("\n", " ") + ")"` as words (MCNPinput.py:1521); `geom` is
numjuggler's `get_geom`, the printed geometry of the card -/
def unionWords (ws : List Str) : List Word := lit [':'] :: lit ['('] :: ws.map lit ++ [lit [')']]

/-- one turn of the loop of `cells_union` (MCNPinput.py:1516-1528); `reread` stands for printing the
card (`card(wrap=True)`) and reading the lines again with numjuggler -/
def unionStep (geom : Card → List Str) (reread : Card → Card) (num : ℤ) (acc cell : Card) :
    Except PyErr Card :=
  match addSymbol (unionWords (geom cell)) true (some num) acc with
  | .error e => .error e
  | .ok c => .ok (reread c)

/-- the loop (MCNPinput.py:1489-1533) -/
def unionLoop (geom : Card → List Str) (reread : Card → Card) (num : ℤ) : Card → List Card →
    Except PyErr Card
  | acc, [] => .ok acc
  | acc, c :: cs =>
    match unionStep geom reread num acc c with
    | .error e => .error e
    | .ok acc' => unionLoop geom reread num acc' cs

/-- `[self.cells[n] for n in cell_num_list]` (MCNPinput.py:1508-1510) -/
def getCells (d : Dict Str Card) : List Str → Except PyErr (List Card)
  | [] => .ok []
  | k :: ks =>
    match Dict.get? d k with
    | none => .error .keyError
    | some c =>
      match getCells d ks with
      | .error e => .error e
      | .ok cs => .ok (c :: cs)

/-- `for cell_num in cell_num_list: self.cells.pop(cell_num)` (MCNPinput.py:1530-1531): the
dictionary as the loop leaves it, and the exception -/
def popCells (d : Dict Str Card) : List Str → Dict Str Card × Option PyErr
  | [] => (d, none)
  | k :: ks => if Dict.has d k then popCells (Dict.del d k) ks else (d, some .keyError)

/-- the number of the new cell (MCNPinput.py:1512-1514) -/
def unionNum (num : Option ℤ) (c : Card) : Except PyErr ℤ :=
  match num with
  | some n => .ok n
  | none =>
    match c.vals with
    | [] => .error .indexError
    | v :: _ => .ok v.1

/-- `cells_union` (MCNPinput.py:1489-1533): the dictionary of cells afterwards, and the exception.
(`_add_symbol_to_cell_input` works on copies here, so the old cards are not changed.) -/
def cellsUnion (geom : Card → List Str) (reread : Card → Card) (d : Dict Str Card) (ks : List Str)
    (num : Option ℤ) : Dict Str Card × Option PyErr :=
  match getCells d ks with
  | .error e => (d, some e)
  | .ok [] => (d, some .indexError)
  | .ok (c :: cs) =>
    match unionNum num c with
    | .error e => (d, some e)
    | .ok n =>
      match unionLoop geom reread n c cs with
      | .error e => (d, some e)
      | .ok new =>
        match popCells d ks with
        | (d', some e) => (d', some e)
        | (d', none) => (Dict.set d' (intStr n) new, none)

/-- `hash_multiple_cells` (MCNPinput.py:1473-1487): the dictionary afterwards, and the exception -/
def hashInner (h : ℤ) : Dict Str Card → List ℤ → Dict Str Card × Option PyErr
  | d, [] => (d, none)
  | d, n :: ns =>
    match Dict.get? d (intStr n) with
    | none => (d, some .keyError)
    | some c =>
      match hashCell c h none with
      | .error e => (d, some e)
      | .ok c' => hashInner h (Dict.set d (intStr n) c') ns

/-- the outer loop (MCNPinput.py:1474-1487) -/
def hashMultiple : Dict Str Card → List (ℤ × List ℤ) → Dict Str Card × Option PyErr
  | d, [] => (d, none)
  | d, (h, ns) :: rest =>
    match hashInner h d ns with
    | (d', some e) => (d', some e)
    | (d', none) => hashMultiple d' rest

end F4Enix.CellText
