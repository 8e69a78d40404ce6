import Verif.Out.MctalValues
import Verif.Base.Find
/-!
# The layout of a MCTAL file (specification of C102)

What a MCTAL file says (`Doc`, `HeadDoc`) and which lines say it (`IsTally`, `IsHeader`, `IsFile`),
following appendix B of the MCNP manual and the files in `tests/resources/mctal`. Words may be
separated by any blanks; numbers may be broken into lines in any way. Nothing here uses the reader
except `tokens` (words of a line), `parseInt` (Python `int`) and the value stream of C36.
-/
namespace F4Enix.Mctal
open F4Enix

/-- a section `u`, `s`, `m`, `c`, `e` or `t`: total/cumulative mark, number of bins, optional flag and
the boundaries listed (specification) -/
structure Sec where
  mark : Option Char := none
  count : ℤ := 0
  flag : Option ℤ := none
  bins : List Num := []

/-- what the file says about one tally (specification) -/
structure Doc where
  number : ℤ
  typeNumber : ℤ
  detectorType : ℤ
  particles : List Nat
  comment : List Str
  /-- number of cells, surfaces or detectors -/
  nCells : ℤ := 1
  cells : List Num := []
  /-- for meshes: the unused number and the boundaries along the three axes -/
  mesh0 : ℤ := 0
  cora : List Num := []
  corb : List Num := []
  corc : List Num := []
  nDir : ℤ
  usr : Sec
  seg : Sec
  mul : Sec
  cos : Sec
  erg : Sec
  tim : Sec
  /-- words of the value section, in reading order -/
  vals : List Str
  jtf : List ℤ := []
  chart : List (ℤ × List Num) := []

/-- a mesh tally (detector type −1 or less) (specification) -/
def Doc.isMesh (d : Doc) : Prop := d.detectorType ≤ -1

/-- a radiography tally (detector type 3 or more) (specification) -/
def Doc.isRadio (d : Doc) : Prop := 3 ≤ d.detectorType

/-- the number of values along an axis: a count of 0 means one value (specification) -/
def bins1 (n : ℤ) : Nat := if n = 0 then 1 else n.toNat

/-- the shape of the values of a tally; a mesh has one "cell" (specification) -/
def Doc.shape (d : Doc) (nI nJ nK : Nat) : List Nat :=
  [if d.detectorType ≤ -1 then 1 else bins1 d.nCells, bins1 d.nDir, bins1 d.usr.count, bins1 d.seg.count, bins1 d.mul.count,
   bins1 d.cos.count, bins1 d.erg.count, bins1 d.tim.count, nI, nJ, nK]

/-- a line of numbers: it starts with a blank (specification) -/
def NumLine (num : ParseNum) (l : Str) (xs : List Num) : Prop :=
  l.head? = some ' ' ∧ List.Forall₂ (fun w x => num w = some x) (tokens l) xs

/-- a line of cell numbers: integers, or decimal numbers without an exponent (specification) -/
def CellLine (num : ParseNum) (l : Str) (xs : List Num) : Prop :=
  l.head? = some ' ' ∧
  (('.' ∈ l ∧ 'E' ∉ l ∧ List.Forall₂ (fun w x => num w = some x) (tokens l) xs) ∨
   ('.' ∉ l ∧ List.Forall₂ (fun w x => ∃ i, parseInt w = some i ∧ x = some (i : ℚ)) (tokens l) xs))

/-- numbers broken into lines (specification) -/
def Lines (P : Str → List Num → Prop) (ls : List Str) (xs : List Num) : Prop :=
  ∃ parts, List.Forall₂ P ls parts ∧ xs = parts.flatten

/-- the line that opens a section: `e 10`, `et 11`, `ec 11 1`, in either case (specification) -/
def SecLine (c : Char) (l : Str) (s : Sec) : Prop :=
  ∃ w n rest tail, tokens l = w :: n :: rest ∧ l = w ++ tail ∧
    w.map Char.toLower = c :: s.mark.toList ∧ (s.mark = none ∨ s.mark = some 't' ∨ s.mark = some 'c') ∧
    parseInt n = some s.count ∧
    ((s.flag = none ∧ rest = []) ∨ ∃ f k, s.flag = some k ∧ rest = [f] ∧ parseInt f = some k)

/-- the line of the particles: a blank, then flags separated by blanks (specification) -/
def ParticleLine (l : Str) (ps : List Nat) : Prop :=
  (∃ c r, l = ' ' :: c :: r ∧ c ≠ ' ') ∧ ps ≠ [] ∧
  List.Forall₂ (fun w p => w ≠ [] ∧ (∀ c ∈ w, isDigit c = true) ∧ digitsVal w = p) (tokens l) ps

/-- a comment line: five blanks, then the text (specification) -/
def CommentLine (l c : Str) : Prop := ∃ t, l = "     ".toList ++ t ∧ c = rstrip t

/-- the `f` line: number of cells, or for a mesh the number of voxels, the unused number and the
numbers of bins along the axes (specification) -/
def FLine (l : Str) (d : Doc) : Prop :=
  (∃ c r, l = c :: r ∧ c ≠ ' ') ∧ ∃ w n rest, tokens l = w :: n :: rest ∧
    (¬ d.isMesh → parseInt n = some d.nCells) ∧
    (d.isMesh → ∃ a b c e more, rest = a :: b :: c :: e :: more ∧ parseInt a = some d.mesh0 ∧
      parseInt b = some ((d.cora.length : ℤ) - 1) ∧ parseInt c = some ((d.corb.length : ℤ) - 1) ∧
      parseInt e = some ((d.corc.length : ℤ) - 1))

/-- a line of the fluctuation chart: histories, mean (0 if it is no number), error and possibly the
figure of merit (specification) -/
def ChartLine (num : ParseNum) (l : Str) (r : ℤ × List Num) : Prop :=
  ¬ "tally".toList <:+: l ∧
  ∃ n a b more, tokens l = n :: a :: b :: more ∧ parseInt n = some r.1 ∧ ∃ vb, num b = some vb ∧
    ((more = [] ∧ r.2 = [(num a).getD (some 0), vb]) ∨
     (∃ c vc, more = [c] ∧ num c = some vc ∧ r.2 = [(num a).getD (some 0), vb, vc]))

/-- the `tally` line (specification) -/
def TallyLine (l : Str) (d : Doc) : Prop :=
  "tally".toList <+: l ∧ ∃ a b c more, tokens l = "tally".toList :: a :: b :: c :: more ∧
    parseInt a = some d.number ∧ parseInt b = some d.typeNumber ∧ parseInt c = some d.detectorType

/-- the lines of a tally after its `tally` line (specification) -/
def IsBody (num : ParseNum) (d : Doc) (ls : List Str) : Prop :=
  ∃ (pl cm : List Str) (fl : Str) (cl : List Str) (dl ul : Str) (ub : List Str) (sl : Str) (sb : List Str)
    (ml kl : Str) (cb : List Str) (el : Str) (eb : List Str) (tl : Str) (tb : List Str) (vl : Str)
    (vb fin : List Str),
    ls = pl ++ cm ++ fl :: cl ++ dl :: ul :: ub ++ sl :: sb ++ ml :: kl :: cb ++ el :: eb ++
      tl :: tb ++ vl :: vb ++ fin ∧
    -- particles and comment
    ((d.particles = [] ∧ pl = []) ∨ ∃ p, pl = [p] ∧ ParticleLine p d.particles) ∧
    List.Forall₂ CommentLine cm d.comment ∧ FLine fl d ∧
    -- cells, or coordinates of a mesh
    (¬ d.isMesh → if d.number % 10 = 5 then cl = [] ∧ d.cells = [] else
      Lines (CellLine num) cl d.cells ∧ (d.cells.length : ℤ) ≤ d.nCells + 1) ∧
    (d.isMesh → d.cora ≠ [] ∧ d.corb ≠ [] ∧ d.corc ≠ [] ∧
      Lines (NumLine num) cl (d.cora ++ d.corb ++ d.corc)) ∧
    -- sections
    (∃ n, tokens dl = "d".toList :: [n] ∧ dl.head? = some 'd' ∧ parseInt n = some d.nDir) ∧
    SecLine 'u' ul d.usr ∧ Lines (NumLine num) ub d.usr.bins ∧ (d.usr.bins.length : ℤ) ≤ d.usr.count + 1 ∧
    SecLine 's' sl d.seg ∧ Lines (NumLine num) sb d.seg.bins ∧ (d.seg.bins.length : ℤ) ≤ d.seg.count + 1 ∧
    SecLine 'm' ml d.mul ∧
    SecLine 'c' kl d.cos ∧ Lines (NumLine num) cb d.cos.bins ∧ (d.cos.bins.length : ℤ) ≤ d.cos.count + 1 ∧
    SecLine 'e' el d.erg ∧ Lines (NumLine num) eb d.erg.bins ∧ (d.erg.bins.length : ℤ) ≤ d.erg.count + 1 ∧
    SecLine 't' tl d.tim ∧ Lines (NumLine num) tb d.tim.bins ∧ (d.tim.bins.length : ℤ) ≤ d.tim.count + 1 ∧
    strip vl = "vals".toList ∧
    -- values
    (∀ l ∈ vb, ValueLine l ∧ ¬ "tally".toList <:+: l) ∧ stream vb = d.vals ∧ d.vals ≠ [] ∧
    d.vals.length = 2 * (d.shape (if d.detectorType ≤ -1 then d.cora.length - 1 else 1)
      (if d.detectorType ≤ -1 then d.corb.length - 1 else 1)
      (if d.detectorType ≤ -1 then d.corc.length - 1 else 1)).foldr (· * ·) 1 ∧
    -- fluctuation chart
    (d.isMesh → fin = []) ∧
    (¬ d.isMesh → ∃ tf ch ws, fin = tf :: ch ∧ tokens tf = "tfc".toList :: ws ∧
      List.Forall₂ (fun w i => parseInt w = some i) ws d.jtf ∧ d.jtf.length = 9 ∧
      List.Forall₂ (ChartLine num) ch d.chart)

/-- what a `Tally` object must hold to say what the file says (specification) -/
structure Holds (num : ParseNum) (d : Doc) (t : Tally) : Prop where
  number : t.number = d.number
  typeNumber : t.typeNumber = d.typeNumber
  detectorType : t.detectorType = d.detectorType
  mesh : t.mesh = true ↔ d.isMesh
  radiograph : t.radiograph = true ↔ d.isRadio
  particles : t.particles = d.particles.map (fun (n : Nat) => (n : ℤ))
  comment : t.comment = d.comment
  nCells : t.nCells = if d.detectorType ≤ -1 then 1 else d.nCells
  /-- detectors are numbered 1, 2, …; other cells have the numbers of the file -/
  cells : ¬ d.isMesh → t.cells =
    if d.number % 10 = 5 then (List.range d.nCells.toNat).map (fun k : ℕ => some ((k : ℚ) + 1)) else d.cells
  meshCells : d.isMesh → t.cells = if d.number % 10 = 5 then [some 1] else []
  /-- the upper boundary of the last voxel is not kept -/
  cora : d.isMesh → t.cora = d.cora.dropLast ∧ t.corb = d.corb.dropLast ∧ t.corc = d.corc.dropLast
  noCor : ¬ d.isMesh → t.cora = [] ∧ t.corb = [] ∧ t.corc = []
  nDir : t.nDir = d.nDir
  usr : t.nUsr = d.usr.count ∧ t.usrTC = d.usr.mark ∧ t.usr = d.usr.bins
  /-- of the boundaries of a radiograph the last three are dropped -/
  seg : t.nSeg = d.seg.count ∧ t.segTC = d.seg.mark ∧
    t.seg = if 3 ≤ d.detectorType then d.seg.bins.take (d.seg.bins.length - 3) else d.seg.bins
  mul : t.nMul = d.mul.count ∧ t.mulTC = d.mul.mark
  cos : t.nCos = d.cos.count ∧ t.cosTC = d.cos.mark ∧ t.cosFlag = d.cos.flag.getD 0 ∧
    t.cos = if 3 ≤ d.detectorType then d.cos.bins.take (d.cos.bins.length - 3) else d.cos.bins
  erg : t.nErg = d.erg.count ∧ t.ergTC = d.erg.mark ∧ t.ergFlag = d.erg.flag.getD 0 ∧ t.erg = d.erg.bins
  tim : t.nTim = d.tim.count ∧ t.timTC = d.tim.mark ∧ t.timFlag = d.tim.flag.getD 0 ∧ t.tim = d.tim.bins
  /-- every bin has the pair of words at its position -/
  vals : ∀ idx, IsBin t.shape idx → t.vals idx = pairNo num d.vals (position t.shape idx)
  shape : t.shape = d.shape (if d.detectorType ≤ -1 then d.cora.length - 1 else 1)
      (if d.detectorType ≤ -1 then d.corb.length - 1 else 1)
      (if d.detectorType ≤ -1 then d.corc.length - 1 else 1)
  jtf : ¬ d.isMesh → t.tfcJtf = d.jtf
  chart : ¬ d.isMesh → t.tfcDat = d.chart

/-- what the header says (specification) -/
structure HeadDoc where
  /-- name and version of the code, date and time; old files have none -/
  code : Option (Str × Str × Str × Str)
  knod : ℤ
  nps : ℤ
  rnr : ℤ
  title : Str
  ntal : ℤ
  ntals : List ℤ

/-- the lines of the header: code and dump, title, number of tallies, their numbers (specification) -/
def IsHeader (h : HeadDoc) (ls : List Str) : Prop :=
  ∃ l1 l2 l3 nl, ls = l1 :: l2 :: l3 :: nl ∧
    (∃ a b c, parseInt a = some h.knod ∧ parseInt b = some h.nps ∧ parseInt c = some h.rnr ∧
      ((h.code = none ∧ tokens l1 = [a, b, c]) ∨
       ∃ k v d t, h.code = some (k, v, d, t) ∧ tokens l1 = [k, v, d, t, a, b, c])) ∧
    h.title = strip l2 ∧
    (∃ w n, tokens l3 = [w, n] ∧ parseInt n = some h.ntal ∧ h.ntal ≠ 0) ∧
    ∃ parts, List.Forall₂ (fun l is => tokens l ≠ [] ∧
      List.Forall₂ (fun w i => parseInt w = some i) (tokens l) is) nl parts ∧ h.ntals = parts.flatten

/-- the tallies one after the other, each opened by its `tally` line (specification) -/
inductive IsTallies (num : ParseNum) : List Doc → List Str → Prop
  | nil : IsTallies num [] []
  | cons {d : Doc} {ds : List Doc} {t : Str} {body rest : List Str} : TallyLine t d →
      IsBody num d body → IsTallies num ds rest → IsTallies num (d :: ds) (t :: body ++ rest)

/-- a MCTAL file: the header and at least one tally (specification) -/
def IsFile (num : ParseNum) (h : HeadDoc) (ds : List Doc) (ls : List Str) : Prop :=
  ∃ hl tl, ls = hl ++ tl ∧ ds ≠ [] ∧ IsHeader h hl ∧ IsTallies num ds tl

/-- what the `Header` object must hold (specification) -/
def HeaderHolds (h : HeadDoc) (r : Header) : Prop :=
  r.knod = h.knod ∧ r.nps = h.nps ∧ r.rnr = h.rnr ∧ r.title = h.title ∧ r.ntal = h.ntal ∧
  r.ntals = h.ntals ∧
  (∀ k v d t, h.code = some (k, v, d, t) → r.kod = k ∧ r.ver = v ∧ r.probid = [d, t])

end F4Enix.Mctal
