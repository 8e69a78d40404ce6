import Verif.Base.Text
import Verif.Base.Dict
import Mathlib.Data.Rat.Floor
import Mathlib.Data.List.Sort
/-!
# Model of `src/f4enix/input/MCNPinput.py`: cards, extraction, merging, renumbering, materials of cells

Cards come from the external package *numjuggler*. A card is modelled by what F4Enix uses of it:
the number it carries (`name`), the list `values` of `(number, kind)` pairs that numjuggler keeps for
the numbers of the card, in the order of the text (first the own number of a cell, surface,
transformation or tally, then the references), the density text of a cell and the characters around
the number in the first word of the card. Assumed behaviour of numjuggler (trusted base):
`get_refcells` = the `cel` values after the first value, `get_u`/`get_f`/`get_m`/`_get_value_by_type`
= the first value of that kind, `_set_value_by_type` replaces it, `apply_map` applies the map of each
kind to each value, `fill` following `u`; the private caches of these getters are not modelled.
-/
namespace F4Enix.Inp
open F4Enix

/-- Kinds of numbers on a card (numjuggler's type tags) (numjuggler) -/
inductive Kind where
  | cel | sur | mat | u | fill | tr | tal | other
  deriving DecidableEq, Repr

/-- A numjuggler card (see the head of the file). (numjuggler) -/
structure Card where
  /-- `card.name` -/
  name : ℤ
  /-- first word of the text: characters before the number -/
  pre : Str
  /-- first word of the text: characters after the number -/
  post : Str
  /-- is the first value the number printed in the first word? -/
  numbered : Bool
  /-- `card.values` -/
  values : List (ℤ × Kind)
  /-- text of the density of a cell (`none`: void) -/
  dens : Option Str
  deriving DecidableEq, Repr

/-- `card._get_value_by_type(kind)`: first value of that kind (numjuggler) -/
def first (vs : List (ℤ × Kind)) (k : Kind) : Option ℤ :=
  match vs with
  | [] => none
  | (v, k') :: r => if k' = k then some v else first r k

/-- `card._set_value_by_type(kind, v)`: replace the first value of that kind (numjuggler) -/
def setFirst (vs : List (ℤ × Kind)) (k : Kind) (n : ℤ) : List (ℤ × Kind) :=
  match vs with
  | [] => []
  | (v, k') :: r => if k' = k then (n, k) :: r else (v, k') :: setFirst r k n

/-- `card.get_u()` (numjuggler) -/
def Card.univ (c : Card) : Option ℤ := first c.values .u
/-- `card.get_f()` (a single filling universe; lattices are not modelled) (numjuggler) -/
def Card.fill (c : Card) : Option ℤ := first c.values .fill
/-- `card.get_m()` (numjuggler) -/
def Card.mat (c : Card) : Option ℤ := first c.values .mat
/-- `card.get_refcells()` (numjuggler) -/
def Card.refs (c : Card) : List ℤ :=
  (c.values.drop 1).filterMap (fun v => if v.2 = Kind.cel then some v.1 else none)
/-- `card.values[0][0]` (`IndexError` without values) (numjuggler) -/
def Card.num (c : Card) : Except PyErr ℤ :=
  match c.values with
  | [] => .error .indexError
  | v :: _ => .ok v.1

/-- the material as far as this module looks at it: its name; the rest is opaque (materials.py:808-870) -/
structure Mat where
  name : Str
  body : Str
  deriving DecidableEq, Repr

/-- `str.upper()` (ASCII) (Python) -/
def upperC (c : Char) : Char := if 97 ≤ c.toNat ∧ c.toNat ≤ 122 then Char.ofNat (c.toNat - 32) else c
/-- `str.upper()` (ASCII) (Python) -/
def upper (s : Str) : Str := s.map upperC

/-- `MatCardsList` (materials.py:1390-1419): the list and the dictionary by upper-case name -/
structure MatList where
  mats : List Mat
  dic : Dict Str Mat
  deriving DecidableEq, Repr

/-- `MatCardsList._compute_dic` (materials.py:1461-1466) -/
def computeDic (ms : List Mat) : Dict Str Mat :=
  ms.foldl (fun d m => d.set (upper m.name) m) []

/-- `MatCardsList(materials)` (materials.py:1425-1427) -/
def mkMatList (ms : List Mat) : MatList := ⟨ms, computeDic ms⟩

/-- `MatCardsList.append` (materials.py:1444-1446) -/
def MatList.append (l : MatList) (m : Mat) : MatList := mkMatList (l.mats ++ [m])

/-- `MatCardsList.extend` (materials.py:1448-1455): the dictionary is not updated in the loop -/
def MatList.extend (l : MatList) (ms : List Mat) : MatList :=
  mkMatList (l.mats ++ ms.filter (fun m => !l.dic.has (upper m.name)))

/-- `MatCardsList.remove` (materials.py:1457-1459); `list.remove` removes the first equal element
(materials compare by identity; equality here), `ValueError` if absent -/
def MatList.remove (l : MatList) (m : Mat) : Except PyErr MatList :=
  if m ∈ l.mats then .ok (mkMatList (l.mats.erase m)) else .error .valueError

/-- `MatCardsList.__getitem__` with a string (materials.py:1438-1442) -/
def MatList.byName (l : MatList) (k : Str) : Except PyErr Mat :=
  match l.dic.get? (upper k) with
  | some m => .ok m
  | none => .error .keyError

/-- `MatCardsList.__getitem__` with an integer (list indexing: negative indices count from the
end) (materials.py:1438-1442) -/
def MatList.byIndex (l : MatList) (i : ℤ) : Except PyErr Mat :=
  let j := if i < 0 then i + l.mats.length else i
  if j < 0 then .error .indexError
  else match l.mats[j.toNat]? with
    | some m => .ok m
    | none => .error .indexError

/-- `Input` (MCNPinput.py:90-269) -/
structure Deck where
  cells : Dict Str Card
  surfs : Dict Str Card
  materials : MatList
  transformations : Dict Str Card
  other : Dict Str Card
  tallyKeys : List ℤ
  fmeshKeys : List ℤ
  header : List Str
  deriving DecidableEq, Repr

/-! ### card dictionaries -/

/-- the number part of a key: `key[1:] if "*" in key else key` (MCNPinput.py:75-78, 302-305) -/
def keyNum (key : Str) : Str := if '*' ∈ key then key.drop 1 else key

/-- make the card carry the number of the key (MCNPinput.py:79-85, 281-286, 306-310): nothing if it
already does; `int(num)` raises `ValueError` -/
def fixCard (kind : Kind) (num : Str) (c : Card) : Except PyErr Card :=
  if num = intStr c.name then .ok c
  else match parseInt num with
    | none => .error .valueError
    | some n => .ok { c with name := n, values := setFirst c.values kind n }

/-- `CardsDict.__setitem__` (MCNPinput.py:63-88) -/
def setItem (kind : Kind) (d : Dict Str Card) (key : Str) (c : Card) :
    Except PyErr (Dict Str Card) :=
  match fixCard kind (keyNum key) c with
  | .error e => .error e
  | .ok c => .ok (d.set key c)

/-- the setter of `Input.cells` (`numOf = id`, MCNPinput.py:276-288) and of `Input.surfs`
(`numOf = keyNum`, MCNPinput.py:295-312): every card is made to carry the number of its key -/
def setCards (kind : Kind) (numOf : Str → Str) : Dict Str Card → Except PyErr (Dict Str Card)
  | [] => .ok []
  | (k, c) :: r =>
    match fixCard kind (numOf k) c with
    | .error e => .error e
    | .ok c =>
      match setCards kind numOf r with
      | .error e => .error e
      | .ok r => .ok ((k, c) :: r)

/-! ### selection of cards -/

/-- `_get_cards_by_id` (MCNPinput.py:617-631) -/
def getCardsById (cards : Dict Str Card) : List Str → Dict Str Card → Except PyErr (Dict Str Card)
  | [], sel => .ok sel
  | id :: ids, sel =>
    match cards.get? id with
    | some c => getCardsById cards ids (sel.set id c)
    | none =>
      match cards.get? ('*' :: id) with
      | some c => getCardsById cards ids (sel.set ('*' :: id) c)
      | none => .error .keyError

/-- `get_materials_subset` with a list (MCNPinput.py:691-697) -/
def getMaterials (l : MatList) : List Str → Except PyErr (List Mat)
  | [] => .ok []
  | k :: ks =>
    match l.byName k with
    | .error e => .error e
    | .ok m =>
      match getMaterials l ks with
      | .error e => .error e
      | .ok ms => .ok (m :: ms)

/-! ### extraction -/

/-- one pass over the frontier (MCNPinput.py:964-976): complement references and filling
universes; `self.cells[str(cell_num)]` raises `KeyError`. A Python set is a list here, its order and
repetitions play no role. -/
def scanFrontier (cells : Dict Str Card) (fillers : Bool) : List ℤ → Except PyErr (List ℤ × List ℤ)
  | [] => .ok ([], [])
  | n :: ns =>
    match cells.get? (intStr n) with
    | none => .error .keyError
    | some c =>
      match scanFrontier cells fillers ns with
      | .error e => .error e
      | .ok (new, uni) =>
        .ok (c.refs ++ new, if fillers then (match c.fill with | none => uni | some f => f :: uni) else uni)

/-- the cells of the collected universes (MCNPinput.py:979-982) -/
def cellsOfUniverses (uni : List ℤ) : Dict Str Card → Except PyErr (List ℤ)
  | [] => .ok []
  | (_, c) :: r =>
    match c.univ with
    | none => cellsOfUniverses uni r
    | some u =>
      if u ∈ uni then
        match c.num with
        | .error e => .error e
        | .ok n =>
          match cellsOfUniverses uni r with
          | .error e => .error e
          | .ok ns => .ok (n :: ns)
      else cellsOfUniverses uni r

/-- The loop of `_collect_hash_uni` (MCNPinput.py:952-986); `diverges` when the fuel is used up. -/
def collectLoop (cells : Dict Str Card) (fillers : Bool) :
    Nat → List ℤ → List ℤ → Except PyErr (List ℤ)
  | 0, _, _ => .error .diverges
  | fuel + 1, cset, frontier =>
    match scanFrontier cells fillers frontier with
    | .error e => .error e
    | .ok (new, uni) =>
      match (if fillers then cellsOfUniverses uni cells else .ok []) with
      | .error e => .error e
      | .ok inUni =>
        let next := ((new ++ inUni).filter (fun n => n ∉ frontier)).dedup
        if next = [] then .ok cset
        else collectLoop cells fillers fuel ((cset ++ next).dedup) next

/-- `list.sort()` of integers (Python) -/
def sortInts (l : List ℤ) : List ℤ := l.insertionSort (· ≤ ·)

/-- `Input.remove_u` (MCNPinput.py:1589-1612): the first `u` value is removed (its text too) -/
def eraseFirst (vs : List (ℤ × Kind)) (k : Kind) : List (ℤ × Kind) :=
  match vs with
  | [] => []
  | (v, k') :: r => if k' = k then r else (v, k') :: eraseFirst r k

/-- `Input.remove_u` (MCNPinput.py:1589-1612) -/
def removeU (c : Card) : Card := { c with values := eraseFirst c.values .u }

/-- numbers of a given kind on the cells (MCNPinput.py:917-923) -/
def numbersOf (k : Kind) (cs : Dict Str Card) : List ℤ :=
  (cs.flatMap (fun kc => kc.2.values.filterMap (fun v => if v.2 = k then some v.1 else none))).dedup

/-- the cells of which the universe is removed (MCNPinput.py:925-926) -/
def stripUniverses (keep : Bool) (requested : List ℤ) :
    Dict Str Card → Except PyErr (Dict Str Card)
  | [] => .ok []
  | (k, c) :: r =>
    match (if keep then .ok c
           else match c.num with
             | .error e => .error e
             | .ok n => .ok (if n ∈ requested then removeU c else c) : Except PyErr Card) with
    | .error e => .error e
    | .ok c =>
      match stripUniverses keep requested r with
      | .error e => .error e
      | .ok r => .ok ((k, c) :: r)

/-- `_extraction_function` (MCNPinput.py:880-950), for integer cell numbers. The surfaces and
materials are collected before the universe of each cell is removed; `remove_u` touches neither. -/
def extraction (m : Deck) (requested : List ℤ) (keep fillers : Bool) (fuel : Nat) :
    Except PyErr (Dict Str Card × Dict Str Card × MatList) :=
  match collectLoop m.cells fillers fuel requested.dedup requested.dedup with
  | .error e => .error e
  | .ok cset =>
    match getCardsById m.cells ((sortInts cset).map intStr) [] with
    | .error e => .error e
    | .ok cs =>
      match stripUniverses keep requested cs with
      | .error e => .error e
      | .ok cs' =>
        match getCardsById m.surfs ((sortInts (numbersOf .sur cs)).map intStr) [] with
        | .error e => .error e
        | .ok ss =>
          match getMaterials m.materials
              (((numbersOf .mat cs).filter (fun n => n ≠ 0)).map (fun n => 'M' :: intStr n)) with
          | .error e => .error e
          | .ok ms => .ok (cs', ss, mkMatList ms)

/-- `extract_cells` without renumbering (MCNPinput.py:759-814): the model that is written; the
constructor runs the setters of cells and surfaces. The original model is not changed (copies are
made whenever the cells are modified). -/
def extractCells (m : Deck) (requested : List ℤ) (keep fillers : Bool) (fuel : Nat) : Except PyErr Deck :=
  match extraction m requested keep fillers fuel with
  | .error e => .error e
  | .ok (cs, ss, ms) =>
    match setCards .cel id cs with
    | .error e => .error e
    | .ok cs =>
      match setCards .sur keyNum ss with
      | .error e => .error e
      | .ok ss => .ok { m with cells := cs, surfs := ss, materials := ms }

/-- `extract_universe` (MCNPinput.py:988-1027): the requested numbers -/
def universeCells (uid : ℤ) : Dict Str Card → Except PyErr (List ℤ)
  | [] => .ok []
  | (_, c) :: r =>
    if c.univ = some uid then
      match c.num with
      | .error e => .error e
      | .ok n =>
        match universeCells uid r with
        | .error e => .error e
        | .ok ns => .ok (n :: ns)
    else universeCells uid r

/-- `extract_universe` (MCNPinput.py:988-1027) -/
def extractUniverse (m : Deck) (uid : ℤ) (keep : Bool) (fuel : Nat) : Except PyErr Deck :=
  match universeCells uid m.cells with
  | .error e => .error e
  | .ok ns => extractCells m ns keep true fuel

/-! ### check_range -/

/-- `check_range` (MCNPinput.py:1725-1760) -/
def checkRange (m : Deck) (range : List ℤ) (who : Str) : Except PyErr Bool :=
  match (if who = "cell".toList then some m.cells.keys
         else if who = "surf".toList then some m.surfs.keys else none) with
  | none => .error .valueError
  | some used =>
    .ok (range.all (fun i => used.all (fun j =>
      intStr i ≠ (j.filter (fun c => c ≠ '*')).filter (fun c => c ≠ '+'))))

/-! ### merge -/

/-- `_safe_dict_update` (MCNPinput.py:411-415) on a plain dictionary: the dictionary as it is when the
loop ends or raises -/
def safeUpdate (d : Dict Str Card) : Dict Str Card → Dict Str Card × Option PyErr
  | [] => (d, none)
  | (k, v) :: r => if d.has k then (d, some .keyError) else safeUpdate (d.set k v) r

/-- `_safe_dict_update` on a `CardsDict` (`__setitem__` may fix the number of the card) (MCNPinput.py:411-415) -/
def safeUpdateCards (kind : Kind) (d : Dict Str Card) : Dict Str Card → Dict Str Card × Option PyErr
  | [] => (d, none)
  | (k, v) :: r =>
    if d.has k then (d, some .keyError)
    else match setItem kind d k v with
      | .error e => (d, some e)
      | .ok d => safeUpdateCards kind d r

/-- `merge` without key updates (MCNPinput.py:402-409): the model as the call leaves it, and the
exception, if any -/
def merge (m o : Deck) : Deck × Option PyErr :=
  match safeUpdateCards .cel m.cells o.cells with
  | (cells, some e) => ({ m with cells := cells }, some e)
  | (cells, none) =>
    match safeUpdateCards .sur m.surfs o.surfs with
    | (surfs, some e) => ({ m with cells := cells, surfs := surfs }, some e)
    | (surfs, none) =>
      let mats := m.materials.extend o.materials.mats
      match safeUpdate m.transformations o.transformations with
      | (trs, some e) =>
        ({ m with cells := cells, surfs := surfs, materials := mats, transformations := trs }, some e)
      | (trs, none) =>
        ({ m with cells := cells, surfs := surfs, materials := mats, transformations := trs,
                  other := m.other.update o.other, tallyKeys := m.tallyKeys ++ o.tallyKeys,
                  fmeshKeys := m.fmeshKeys ++ o.fmeshKeys }, none)

/-! ### renumbering -/

/-- the first word of the card's text, upper case (`_get_card_key`, MCNPinput.py:2164-2174) -/
def cardKey (c : Card) : Str :=
  upper (if c.numbered then
    (match c.values with
      | [] => c.pre ++ c.post
      | v :: _ => c.pre ++ intStr v.1 ++ c.post)
    else c.pre ++ c.post)

/-- rebuild a dictionary from the keys of its cards (MCNPinput.py:426-433): later cards overwrite -/
def rekey (d : Dict Str Card) : Dict Str Card :=
  d.foldl (fun acc kc => acc.set (cardKey kc.2) kc.2) []

/-- `_update_card_keys` (MCNPinput.py:417-437) -/
def updateKeys (m : Deck) : Except PyErr Deck :=
  match setCards .cel id (rekey m.cells) with
  | .error e => .error e
  | .ok cs =>
    match setCards .sur keyNum (rekey m.surfs) with
    | .error e => .error e
    | .ok ss => .ok { m with cells := cs, surfs := ss, other := rekey m.other,
                             transformations := rekey m.transformations }

/-- the offsets of `renumber` by kind (MCNPinput.py:439-495) -/
structure Offsets where
  cells : Option ℤ
  surfs : Option ℤ
  universes : Option ℤ
  translations : Option ℤ

/-- `renum_all` trumps the others (MCNPinput.py:473-475) -/
def Offsets.withAll (o : Offsets) : Option ℤ → Offsets
  | none => o
  | some a => ⟨some a, some a, some a, some a⟩

/-- the map of a kind (MCNPinput.py:478-489; `fill` follows `u` in numjuggler's `apply_map`) -/
def Offsets.of (o : Offsets) : Kind → Option ℤ
  | .cel => o.cells
  | .sur => o.surfs
  | .u => o.universes
  | .fill => o.universes
  | .tr => o.translations
  | _ => none

/-- one number: zero is kept, others are shifted (MCNPinput.py:484-488) -/
def shift (off : Option ℤ) (n : ℤ) : ℤ :=
  match off with
  | none => n
  | some a => if n = 0 then 0 else n + a

/-- `card.apply_map(maps)` (numjuggler, MCNPinput.py:439-495) -/
def applyMap (o : Offsets) (c : Card) : Card :=
  { c with values := c.values.map (fun v => (shift (o.of v.2) v.1, v.2)) }

/-- `renumber` (MCNPinput.py:439-495) -/
def renumber (m : Deck) (o : Offsets) (all : Option ℤ) (update : Bool) : Except PyErr Deck :=
  let f : Dict Str Card → Dict Str Card := fun d => d.map (fun kc => (kc.1, applyMap (o.withAll all) kc.2))
  let m' := { m with cells := f m.cells, surfs := f m.surfs, other := f m.other,
                     transformations := f m.transformations }
  if update then updateKeys m' else .ok m'

/-- `merge` with its key updates (MCNPinput.py:398-409) -/
def mergeUpdated (m o : Deck) : Except PyErr (Deck × Option PyErr) :=
  match updateKeys m with
  | .error e => .error e
  | .ok m =>
    match updateKeys o with
    | .error e => .error e
    | .ok o => .ok (merge m o)

/-! ### materials of cells -/

/-- `set_cell_void` (MCNPinput.py:555-563): a void cell is left alone -/
def setVoid (c : Card) : Card :=
  if c.mat = some 0 then c else { c with values := setFirst c.values .mat 0, dens := none }

/-- `int(float(s)) == 0` where `float(s)` is `q` (Python, MCNPinput.py:1296-1326) -/
def truncZero (q : ℚ) : Bool := decide (-1 < q ∧ q < 1)

/-- `add_material_to_void_cell` (MCNPinput.py:1296-1327); `num` is `float` of a text -/
def addMaterial (num : Str → Option ℚ) (c : Card) (new : ℤ) (dens : Str) : Except PyErr Card :=
  match num dens with
  | none => .error .valueError
  | some q =>
    if truncZero q ∨ new ≤ 0 then .error .valueError
    else if c.mat = some 0 then .ok { c with values := setFirst c.values .mat new, dens := some dens }
    else .ok c

/-- `replace_cell_material` (MCNPinput.py:1281-1294) -/
def replaceCellMaterial (num : Str → Option ℚ) (c : Card) (new : ℤ) (dens : Str) : Except PyErr Card :=
  if c.mat = some 0 then addMaterial num c new dens
  else if new = 0 then .ok (setVoid c)
  else .ok { c with values := setFirst c.values .mat new, dens := some dens }

/-- is the cell selected by the universe list? (MCNPinput.py:1267-1274; `None` in the list is not
modelled) -/
def inUniverses (ul : Option (List ℤ)) (c : Card) : Bool :=
  match ul with
  | none => true
  | some us => match c.univ with
    | none => false
    | some u => decide (u ∈ us)

/-- the loop of `replace_material` (MCNPinput.py:1265-1279): the cells as the loop leaves them, and the
exception, if any -/
def replaceLoop (num : Str → Option ℚ) (new : ℤ) (dens : Str) (old : ℤ) (ul : Option (List ℤ)) :
    Dict Str Card → Dict Str Card × Option PyErr
  | [] => ([], none)
  | (k, c) :: r =>
    if c.mat = some old ∧ inUniverses ul c then
      match replaceCellMaterial num c new dens with
      | .error e => ((k, c) :: r, some e)
      | .ok c' =>
        match replaceLoop num new dens old ul r with
        | (r', e) => ((k, c') :: r', e)
    else
      match replaceLoop num new dens old ul r with
      | (r', e) => ((k, c) :: r', e)

/-- `replace_material` (MCNPinput.py:1242-1279) -/
def replaceMaterial (num : Str → Option ℚ) (m : Deck) (new : ℤ) (dens : Str) (old : ℤ)
    (ul : Option (List ℤ)) : Deck × Option PyErr :=
  if new < 0 ∨ new < 0 then (m, some .valueError)
  else match replaceLoop num new dens old ul m.cells with
    | (cs, e) => ({ m with cells := cs }, e)

/-- `get_cells_by_matID` (MCNPinput.py:1045-1073) -/
def cellsByMat (m : Deck) (id : ℤ) : Dict Str Card := m.cells.filter (fun kc => kc.2.mat = some id)

/-- `scale_densities` (MCNPinput.py:1075-1089); `num` is `float`, `fmt` is `"{:.5e}".format`. A non-void
cell without density is a `TypeError` (`None * factor`), with an unreadable one a `ValueError`. -/
def scaleDensities (num : Str → Option ℚ) (fmt : ℚ → Str) (factor : ℚ) :
    Dict Str Card → Except PyErr (Dict Str Card)
  | [] => .ok []
  | (k, c) :: r =>
    match (if c.mat = some 0 then .ok c
           else match c.dens with
             | none => .error .typeError
             | some d => match num d with
               | none => .error .valueError
               | some q => .ok { c with dens := some (fmt (q * factor)) } : Except PyErr Card) with
    | .error e => .error e
    | .ok c =>
      match scaleDensities num fmt factor r with
      | .error e => .error e
      | .ok r => .ok ((k, c) :: r)

end F4Enix.Inp
