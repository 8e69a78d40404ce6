import Verif.Base.Tokens
import Verif.WW.Vectors
/-!
# Model of the WWINP reader and writer, `src/f4enix/input/ww_gvr/ww_parser.py`

Character by character. The rendering of a number (`{:#.5g}`, `{:#.4E}`) and `float(str)` are
parameters (`NumFmt`): Python runtime functions, whose assumed behaviour is stated as an explicit
hypothesis of each theorem.
-/
namespace F4Enix.WW
open F4Enix

/-- Number rendering and parsing of the Python runtime. (Python) -/
structure NumFmt where
  /-- `f"{x:#.5g}"` -/
  g : ℚ → Str
  /-- `f"{x:#.4E}"` -/
  e : ℚ → Str
  /-- `float(s)`; `none` is the `ValueError` -/
  num : Str → Option ℚ

/-- `WWHeader` / `WWHeaderCyl` (ww_parser.py:22-41); the directors are present in a `WWHeaderCyl` -/
structure Header where
  if_ : ℤ
  iv : ℤ
  ni : ℤ
  nr : ℤ
  probid : Str
  ne : List ℤ
  nfx : ℤ
  nfy : ℤ
  nfz : ℤ
  origin : List ℚ
  ncx : ℤ
  ncy : ℤ
  ncz : ℤ
  directors : Option (List ℚ × List ℚ)
  deriving DecidableEq

/-- `ParseResult` (ww_parser.py:45-50) -/
structure ParseResult where
  header : Header
  b2i : List ℚ
  b2j : List ℚ
  b2k : List ℚ
  energies : List (List ℚ)
  values : List (List ℚ)
  deriving DecidableEq

/-! ### reader -/

/-- `infile.readline()`: the next line, or `""` at the end of the file (Python) -/
def readline : List Str → Str × List Str
  | [] => ([], [])
  | l :: ls => (l, ls)

/-- `[float(word) for word in words]` (Python) -/
def floats (f : NumFmt) : List Str → Except PyErr (List ℚ)
  | [] => .ok []
  | w :: ws =>
    match f.num w with
    | none => .error .valueError
    | some q =>
      match floats f ws with
      | .error x => .error x
      | .ok qs => .ok (q :: qs)

/-- `[int(word) for word in words]` (Python) -/
def intsOf : List Str → Except PyErr (List ℤ)
  | [] => .ok []
  | w :: ws =>
    match parseInt w with
    | none => .error .valueError
    | some q =>
      match intsOf ws with
      | .error x => .error x
      | .ok qs => .ok (q :: qs)

/-- `while len(vector) < expected: vector.extend(float(word) for word in readline().split())`
(ww_parser.py:149-153, 168-170, 177-179). At the end of the file `readline` returns `""` for ever:
the loop does not end. -/
def readUntil (f : NumFmt) (expected : ℤ) (acc : List ℚ) :
    List Str → Except PyErr (List ℚ × List Str)
  | [] => if (acc.length : ℤ) < expected then .error .diverges else .ok (acc, [])
  | l :: ls =>
    if (acc.length : ℤ) < expected then
      match floats f (tokens l) with
      | .error x => .error x
      | .ok qs => readUntil f expected (acc ++ qs) ls
    else .ok (acc, l :: ls)

/-- the words of a line that start a header line: `int(words[0])`, … (`IndexError` if missing) (ww_parser.py:83-135) -/
def intAt (ws : List Str) (i : Nat) : Except PyErr ℤ :=
  match ws[i]? with
  | none => .error .indexError
  | some w =>
    match parseInt w with
    | none => .error .valueError
    | some n => .ok n

/-- `int(float(words[i]))` (ww_parser.py:83-135) -/
def intFloatAt (f : NumFmt) (ws : List Str) (i : Nat) : Except PyErr ℤ :=
  match ws[i]? with
  | none => .error .indexError
  | some w =>
    match f.num w with
    | none => .error .valueError
    | some q => .ok (truncQ q)

/-- `_parse_header` (ww_parser.py:85-136) -/
def parseHeader (f : NumFmt) (ls : List Str) : Except PyErr (Header × List Str) := do
  let (l1, ls) := readline ls
  let w1 := tokens l1
  let if_ ← intAt w1 0
  let iv ← intAt w1 1
  let ni ← intAt w1 2
  let nr ← intAt w1 3
  let probid := unwords (w1.drop 4)
  let (l2, ls) := readline ls
  let ne ← intsOf (tokens l2)
  let (l3, ls) := readline ls
  let w3 := tokens l3
  let nfx ← intFloatAt f w3 0
  let nfy ← intFloatAt f w3 1
  let nfz ← intFloatAt f w3 2
  let origin ← floats f (w3.drop 3)
  let (l4, ls) := readline ls
  let w4 := tokens l4
  let ncx ← intFloatAt f w4 0
  let ncy ← intFloatAt f w4 1
  let ncz ← intFloatAt f w4 2
  if nr = 10 then
    .ok ({ if_ := if_, iv := iv, ni := ni, nr := nr, probid := probid, ne := ne, nfx := nfx,
           nfy := nfy, nfz := nfz, origin := origin, ncx := ncx, ncy := ncy, ncz := ncz,
           directors := none }, ls)
  else
    let d1 ← floats f (w4.drop 3)
    let (l5, ls) := readline ls
    let d2 ← floats f ((tokens l5).take 3)
    .ok ({ if_ := if_, iv := iv, ni := ni, nr := nr, probid := probid, ne := ne, nfx := nfx,
           nfy := nfy, nfz := nfz, origin := origin, ncx := ncx, ncy := ncy, ncz := ncz,
           directors := some (d1, d2) }, ls)

/-- `_read_block_3` (ww_parser.py:158-188), for the particles still to be read: `header.ne[i]`
raises `IndexError` if missing -/
def readBlock3 (f : NumFmt) (nvox : ℤ) : Nat → List ℤ → List Str →
    Except PyErr (List (List ℚ) × List (List ℚ))
  | 0, _, _ => .ok ([], [])
  | _ + 1, [], _ => .error .indexError
  | n + 1, ne :: nes, ls =>
    match readUntil f ne [] ls with
    | .error x => .error x
    | .ok (es, ls) =>
      match readUntil f (nvox * ne) [] ls with
      | .error x => .error x
      | .ok (vs, ls) =>
        match readBlock3 f nvox n nes ls with
        | .error x => .error x
        | .ok (ess, vss) => .ok (es :: ess, vs :: vss)

/-- `parse` (ww_parser.py:53-82) on the text of the file -/
def parse (f : NumFmt) (text : Str) : Except PyErr ParseResult :=
  match parseHeader f (fileLines text) with
  | .error x => .error x
  | .ok (h, ls) =>
    match readUntil f (3 * h.ncx + 1) [] ls with
    | .error x => .error x
    | .ok (bi, ls) =>
      match readUntil f (3 * h.ncy + 1) [] ls with
      | .error x => .error x
      | .ok (bj, ls) =>
        match readUntil f (3 * h.ncz + 1) [] ls with
        | .error x => .error x
        | .ok (bk, ls) =>
          match readBlock3 f (h.nfx * h.nfy * h.nfz) h.ni.toNat h.ne ls with
          | .error x => .error x
          | .ok (es, vs) =>
            .ok { header := h, b2i := bi, b2j := bj, b2k := bk, energies := es, values := vs }

/-! ### writer -/

/-- `[vector[i : i + 6] for i in range(0, len(vector), 6)]` (ww_parser.py:350) -/
def packs6 {α : Type} : List α → List (List α)
  | a :: b :: c :: d :: e :: f :: r => [a, b, c, d, e, f] :: packs6 r
  | [] => []
  | l => [l]

/-- a line of a block-2 vector or of energies (ww_parser.py:344-348, 356-360) -/
def gLine (f : NumFmt) (pack : List ℚ) : Str :=
  (match pack with
    | [] => []
    | x :: xs => fields ((9, f.g x) :: xs.map (fun y => (13, f.g y)))) ++ ['\n']

/-- a line of values (ww_parser.py:364-367) -/
def eLine (f : NumFmt) (pack : List ℚ) : Str := fields (pack.map (fun y => (13, f.e y))) ++ ['\n']

/-- `_write_block_2` (ww_parser.py:338-348) for one vector, and the energies of `_write_block_3` -/
def gLines (f : NumFmt) (v : List ℚ) : List Str := (packs6 v).map (gLine f)

/-- the values of `_write_block_3` (ww_parser.py:362-367) -/
def eLines (f : NumFmt) (v : List ℚ) : List Str := (packs6 v).map (eLine f)

/-- three numbers `xs[0]`, `xs[1]`, `xs[2]` (`IndexError` if missing) (ww_parser.py:83-135) -/
def three (xs : List ℚ) : Except PyErr (ℚ × ℚ × ℚ) :=
  match xs with
  | a :: b :: c :: _ => .ok (a, b, c)
  | _ => .error .indexError

/-- `_write_header` (ww_parser.py:320-344), as lines -/
def headerLines (f : NumFmt) (h : Header) : Except PyErr (List Str) := do
  let l1 := fields [(10, intStr h.if_), (10, intStr h.iv), (10, intStr h.ni), (10, intStr h.nr),
    (38, h.probid)] ++ ['\n']
  let l2 := fields (h.ne.map (fun n => (10, intStr n))) ++ ['\n']
  let (o0, o1, o2) ← three h.origin
  let l3 := fields [(9, f.g h.nfx), (13, f.g h.nfy), (13, f.g h.nfz), (13, f.g o0), (13, f.g o1),
    (13, f.g o2)] ++ ['\n']
  let c4 : List (Nat × Str) := [(9, f.g h.ncx), (13, f.g h.ncy), (13, f.g h.ncz)]
  match h.directors with
  | none => .ok [l1, l2, l3, fields (c4 ++ [(13, f.g 1)]) ++ ['\n']]
  | some (d1, d2) =>
    let (a0, a1, a2) ← three d1
    let (b0, b1, b2) ← three d2
    .ok [l1, l2, l3, fields (c4 ++ [(13, f.g a0), (13, f.g a1), (13, f.g a2)]) ++ ['\n'],
      fields [(9, f.g b0), (13, f.g b1), (13, f.g b2), (13, f.g 2)] ++ ['\n']]

/-- `_write_block_3` (ww_parser.py:351-367): `IndexError` if a particle has no values -/
def block3Lines (f : NumFmt) : List (List ℚ) → List (List ℚ) → Except PyErr (List Str)
  | [], _ => .ok []
  | _ :: _, [] => .error .indexError
  | es :: ess, vs :: vss =>
    match block3Lines f ess vss with
    | .error x => .error x
    | .ok ls => .ok (gLines f es ++ eLines f vs ++ ls)

/-- `write` (ww_parser.py:287-317): the text of the file -/
def write (f : NumFmt) (r : ParseResult) : Except PyErr Str :=
  match headerLines f r.header with
  | .error x => .error x
  | .ok hl =>
    match block3Lines f r.energies r.values with
    | .error x => .error x
    | .ok bl =>
      .ok (hl ++ (gLines f r.b2i ++ gLines f r.b2j ++ gLines f r.b2k) ++ bl).flatten

end F4Enix.WW
