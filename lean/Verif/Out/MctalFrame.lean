import Verif.Out.Mctal
/-!
# Model of the data frames of a MCTAL file, `Mctal._get_dfs` and `get_error_summary` (mctal.py:613-668, 1144-1380)

A pandas frame is a list of visible columns and a list of rows with their index labels. A row holds a
value for each of the thirteen columns; deleting a column only makes it invisible. Integers and floats
are not distinguished in the frame (`1 == 1.0` in pandas comparisons).
-/
namespace F4Enix.Mctal
open F4Enix

/-- an entry of the frame (pandas, mctal.py:1252-1268) -/
inductive Val where
  | num (q : Num)
  | str (s : Str)
  deriving DecidableEq

/-- `pandas.isna` (pandas) -/
def Val.isNaN : Val → Bool
  | .num none => true
  | _ => false

/-- the columns, in order (mctal.py:1309-1323) -/
inductive Col where
  | cells | dir | user | segments | multiplier | cosine | energy | time | corC | corB | corA | value | error
  deriving DecidableEq

/-- the list `columns` (mctal.py:1309-1323) -/
def allCols : List Col :=
  [.cells, .dir, .user, .segments, .multiplier, .cosine, .energy, .time, .corC, .corB, .corA, .value, .error]

/-- `Row` (mctal.py:1252-1268) -/
abbrev Row := Col → Val

/-- `Frame` (pandas, mctal.py:1324) -/
structure Frame where
  cols : List Col
  rows : List (Nat × Row)

/-- `int(x)` of a float: towards zero (Python, mctal.py:1196) -/
def truncQ (q : ℚ) : ℤ := q.num.tdiv q.den

/-- the labels of the cells (mctal.py:1193-1203): zero becomes `Input i`; `int(nan)` raises `ValueError` -/
def cellLabels : Nat → List Num → Except PyErr (List Val)
  | _, [] => .ok []
  | _, none :: _ => .error .valueError
  | i, some q :: cs =>
    match cellLabels (i + 1) cs with
    | .error e => .error e
    | .ok ls =>
      .ok ((if truncQ q = 0 then .str ("Input ".toList ++ natStr (i + 1)) else .num (some (truncQ q : ℚ))) :: ls)

/-- `range(n)` as labels (Python, mctal.py:1180, 1188) -/
def rangeLabels (n : ℤ) : List Val := (List.range n.toNat).map (fun i : ℕ => Val.num (some (i : ℚ)))

/-- an empty binning becomes `[nan]` (mctal.py:1205-1207) -/
def orNan (l : List Val) : List Val := if l = [] then [Val.num none] else l

/-- `enumerate` (Python, mctal.py:1209-1223) -/
def enum (l : List Val) : List (Nat × Val) := l.zipIdx.map (fun p => (p.2, p.1))

/-- `range(1, nSeg + 1)` used as label `sn` and index `sn - 1` (mctal.py:1212);
`nSeg = t._getNbins("s", False)` (538-541) -/
def segAxis (t : Tally) : List (Nat × Val) :=
  (List.range ((if t.segTC = some 't' then atLeast1 t.nSeg - 1 else atLeast1 t.nSeg)).toNat).map
    (fun i : ℕ => (i, Val.num (some ((i : ℚ) + 1))))

/-- the axes of the loops below the one on the cells, in the order of the loops (mctal.py:1213-1225):
direct, user, segment, multiplier, cosine, energy, time, then cor C, cor B, cor A -/
def innerAxes (t : Tally) : List (List (Nat × Val)) :=
  [enum (orNan (rangeLabels t.nDir)), enum (orNan (t.usr.map Val.num)), segAxis t,
   enum (orNan (rangeLabels t.nMul)), enum (orNan (t.cos.map Val.num)), enum (orNan (t.erg.map Val.num)),
   enum (orNan (t.tim.map Val.num)), enum (orNan (t.corc.map Val.num)), enum (orNan (t.corb.map Val.num)),
   enum (orNan (t.cora.map Val.num))]

/-- nested `for` loops over the axes: every combination of one entry per axis, the last axis fastest (mctal.py:1209-1223) -/
def product : List (List (Nat × Val)) → List (List (Nat × Val))
  | [] => [[]]
  | ax :: axs => ax.flatMap (fun p => (product axs).map (fun b => p :: b))

/-- entry `n` of a combination (loop order: cell, direct, user, segment, multiplier, cosine, energy,
time, cor C, cor B, cor A) (mctal.py:1224-1268) -/
def pick (b : List (Nat × Val)) (n : Nat) : Nat × Val := b.getD n (0, Val.num none)

/-- the arguments of `_getValue(f, d, u, sn - 1, m, c, e, nt, i, j, k, _)` (mctal.py:1224-1251) -/
def binIdx (b : List (Nat × Val)) : List Nat :=
  [(pick b 0).1, (pick b 1).1, (pick b 2).1, (pick b 3).1, (pick b 4).1, (pick b 5).1, (pick b 6).1,
   (pick b 7).1, (pick b 10).1, (pick b 9).1, (pick b 8).1]

/-- one row: `[fn, dn, un, sn, mn, cn, en, ntn, ina, jn, kn, val, err]` under the columns
(mctal.py:1252-1268, 1309-1323) -/
def mkRow (fn dn un sn mn cn en ntn ina jn kn : Val) (v : Num × Num) : Row
  | .cells => fn
  | .dir => dn
  | .user => un
  | .segments => sn
  | .multiplier => mn
  | .cosine => cn
  | .energy => en
  | .time => ntn
  | .corC => ina
  | .corB => jn
  | .corA => kn
  | .value => .num v.1
  | .error => .num v.2

/-- `binRow` (mctal.py:1224-1268) -/
def binRow (b : List (Nat × Val)) (v : Num × Num) : Row :=
  mkRow (pick b 0).2 (pick b 1).2 (pick b 2).2 (pick b 3).2 (pick b 4).2 (pick b 5).2 (pick b 6).2
    (pick b 7).2 (pick b 10).2 (pick b 9).2 (pick b 8).2 v

/-- is every index below the size of its axis? (numpy, mctal.py:460-462) -/
def inShape : List Nat → List Nat → Bool
  | [], [] => true
  | i :: is, n :: ns => decide (i < n) && inShape is ns
  | _, _ => false

/-- `_getValue(…, 0)` and `_getValue(…, 1)` (mctal.py:460-462) -/
def getVal (t : Tally) (idx : List Nat) : Except PyErr (Num × Num) :=
  if inShape idx t.shape then .ok (t.vals idx) else .error .indexError

/-- the rows of a list of combinations (mctal.py:1209-1268) -/
def binRows (t : Tally) : List (List (Nat × Val)) → Except PyErr (List Row)
  | [] => .ok []
  | b :: bs =>
    match getVal t (binIdx b) with
    | .error e => .error e
    | .ok v =>
      match binRows t bs with
      | .error e => .error e
      | .ok rs => .ok (binRow b v :: rs)

/-- which column gets the total row (mctal.py:1273-1306): time, energy, segments, cosine, user,
multiplier, in this order -/
def totalCol (t : Tally) : Option Col :=
  if t.timTC ≠ none then some .time
  else if t.ergTC ≠ none then some .energy
  else if t.segTC ≠ none then some .segments
  else if t.cosTC ≠ none then some .cosine
  else if t.usrTC ≠ none then some .user
  else if t.mulTC ≠ none then some .multiplier
  else none

/-- last label of an axis (mctal.py:1273-1306) -/
def lastLabel (ax : List (Nat × Val)) : Val := (ax.getLast?.map Prod.snd).getD (.num none)

/-- index of the last entry of an axis, as a label: the variable `m` (mctal.py:1273-1306) -/
def lastIndex (ax : List (Nat × Val)) : Val := .num (some ((ax.length - 1 : ℕ) : ℚ))

/-- the loop variables that survive a tally: `sn, m, cn, en, ntn, ina, jn, kn` when bound, and `total` (mctal.py:1209-1306) -/
structure Leak where
  inner : Option (Val × Val × Val × Val × Val × Val × Val × Val) := none
  total : Option Col := none

/-- the inner variables after the loops (unchanged if the loop on the segments is empty) (mctal.py:1209-1306) -/
def innerVars (axes : List (List (Nat × Val))) (old : Option (Val × Val × Val × Val × Val × Val × Val × Val)) :
    Option (Val × Val × Val × Val × Val × Val × Val × Val) :=
  match axes with
  | [_, _, sg, mu, co, er, ti, cC, cB, cA] =>
    if sg = [] then old
    else some (lastLabel sg, lastIndex mu, lastLabel co, lastLabel er, lastLabel ti, lastLabel cA, lastLabel cB,
      lastLabel cC)
  | _ => old

/-- `"total"` (mctal.py:1275) -/
def totalVal : Val := .str "total".toList

/-- the total row: the labels left over from the loops, `"total"` in one column (mctal.py:1273-1306) -/
def totalRow (fn dn un : Val) (x : Val × Val × Val × Val × Val × Val × Val × Val) (c : Col) (v : Num × Num) : Row :=
  fun k => if k = c then totalVal
    else mkRow fn dn un x.1 x.2.1 x.2.2.1 x.2.2.2.1 x.2.2.2.2.1 x.2.2.2.2.2.1 x.2.2.2.2.2.2.1 x.2.2.2.2.2.2.2 v k

/-- the indices `f, -1, …, -1` (mctal.py:1271-1272) -/
def totalIdx (t : Tally) (f : Nat) : List Nat := f :: t.shape.tail.map (fun n => n - 1)

/-- `_getValue(f, -1, …, -1, _)`: `IndexError` if an axis is empty (mctal.py:460-462) -/
def getTotal (t : Tally) (f : Nat) : Except PyErr (Num × Num) :=
  if f < t.shape.headD 0 ∧ ∀ n ∈ t.shape.tail, 0 < n then .ok (t.vals (totalIdx t f)) else .error .indexError

/-- one pass of the loop on the cells (mctal.py:1210-1306) -/
def cellPass (t : Tally) (axes : List (List (Nat × Val))) (p : Nat × Val) (lk : Leak) :
    Except PyErr (List Row × Leak) :=
  match binRows t (product ([p] :: axes)) with
  | .error e => .error e
  | .ok rs =>
    match getTotal t p.1 with
    | .error e => .error e
    | .ok v =>
      let inner := innerVars axes lk.inner
      match totalCol t with
      | none => .ok (rs, { lk with inner := inner })
      | some c =>
        match inner with
        | none => .error .unboundLocal
        | some x =>
          .ok (rs ++ [totalRow p.2 (lastLabel (axes.getD 0 [])) (lastLabel (axes.getD 1 [])) x c v],
            { inner := inner, total := some c })

/-- the loop on the cells (mctal.py:1209-1306) -/
def cellLoop (t : Tally) (axes : List (List (Nat × Val))) :
    List (Nat × Val) → Leak → Except PyErr (List Row × Leak)
  | [], lk => .ok ([], lk)
  | p :: ps, lk =>
    match cellPass t axes p lk with
    | .error e => .error e
    | .ok (rs, lk) =>
      match cellLoop t axes ps lk with
      | .error e => .error e
      | .ok (rs', lk) => .ok (rs ++ rs', lk)

/-- `pd.DataFrame(rows, columns=columns)` (pandas, mctal.py:1309-1324) -/
def mkFrame (rs : List Row) : Frame := { cols := allCols, rows := rs.zipIdx.map (fun p => (p.2, p.1)) }

/-- `df.dropna(axis=1, inplace=True)` (mctal.py:1328) -/
def Frame.dropna (f : Frame) : Frame :=
  { f with cols := f.cols.filter (fun c => f.rows.all (fun r => !(r.2 c).isNaN)) }

/-- are all entries of the column equal to the first? (mctal.py:1333-1335) -/
def constCol (rows : List (Nat × Row)) (c : Col) : Bool :=
  match rows with
  | [] => true
  | r :: _ => rows.all (fun s => decide (s.2 c = r.2 c))

/-- drop the constant axes (mctal.py:1330-1337) -/
def Frame.dropConst (f : Frame) : Frame :=
  if f.rows.length > 1 then
    { f with cols := f.cols.filter (fun c => decide (c = .value) || decide (c = .error) || !constCol f.rows c) }
  else f

/-- do two rows agree on the visible columns? (pandas, mctal.py:1341) -/
def same (cols : List Col) (r s : Row) : Bool := cols.all (fun c => decide (r c = s c))

/-- `drop_duplicates`: the first of equal rows is kept (pandas, mctal.py:1341) -/
def dedup (cols : List Col) : List Row → List (Nat × Row) → List (Nat × Row)
  | _, [] => []
  | seen, r :: rs =>
    if seen.any (same cols r.2) then dedup cols seen rs else r :: dedup cols (seen ++ [r.2]) rs

/-- `df.drop_duplicates(inplace=True)` (mctal.py:1341); an empty frame (no column) is left alone -/
def Frame.dropDuplicates (f : Frame) : Frame :=
  if f.cols = [] then f else { f with rows := dedup f.cols [] f.rows }

/-- `df[df[total] == "total"]`, `None` on `KeyError` or `NameError` (mctal.py:1370-1375) -/
def totalFrame (f : Frame) : Option Col → Option Frame
  | none => none
  | some c =>
    if c ∈ f.cols then some { f with rows := f.rows.filter (fun r => decide (r.2 c = totalVal)) } else none

/-- the frame and the total frame of one tally (mctal.py:1167-1378, without `collapse`) -/
def tallyFrame (t : Tally) (lk : Leak) : Except PyErr (Frame × Option Frame × Leak) :=
  match cellLabels 0 t.cells with
  | .error e => .error e
  | .ok ls =>
    match cellLoop t (innerAxes t) (enum (orNan ls)) lk with
    | .error e => .error e
    | .ok (rs, lk) =>
      let f := (mkFrame rs).dropna.dropConst.dropDuplicates
      .ok (f, totalFrame f lk.total, lk)

/-- `_get_dfs()` (mctal.py:1144-1380): per tally its number, frame and total frame. The dictionaries
keep, for a number occurring twice, the last entry (see `lookupLast`). -/
def getDfs : List Tally → Leak → Except PyErr (List (ℤ × Frame × Option Frame))
  | [], _ => .ok []
  | t :: ts, lk =>
    match tallyFrame t lk with
    | .error e => .error e
    | .ok (f, tf, lk) =>
      match getDfs ts lk with
      | .error e => .error e
      | .ok r => .ok ((t.number, f, tf) :: r)

/-! ### `get_error_summary` -/

/-- the number in an entry (pandas, mctal.py:616-668) -/
def Val.q : Val → ℚ
  | .num (some q) => q
  | _ => 0

/-- smallest (or, with `flip`, largest) entry and the label of the first row holding it (pandas, mctal.py:616-668) -/
def extreme (better : ℚ → ℚ → Bool) : List (Nat × ℚ) → Option (Nat × ℚ)
  | [] => none
  | x :: xs =>
    match extreme better xs with
    | none => some x
    | some y => if better y.2 x.2 then some y else some x

/-- `data["Error"].min()`, `idxmin()` and `data["Value"].iloc[min_idx]` (mctal.py:635-641), with the
zero/zero rule (643-647). Gives the reported error (`none` is NaN) and the value. -/
def extremeError (better : ℚ → ℚ → Bool) (f : Frame) : Except PyErr (Num × ℚ) :=
  if Col.error ∉ f.cols then .error .keyError
  else
    match extreme better (f.rows.map (fun r => (r.1, (r.2 .error).q))) with
    | none => .error .valueError
    | some (label, e) =>
      if Col.value ∉ f.cols then .error .keyError
      else
        match f.rows[label]? with
        | none => .error .indexError
        | some r => .ok (if e = 0 ∧ (r.2 .value).q = 0 then none else some e, (r.2 .value).q)

/-- one row of `get_error_summary(include_abs_err=True)`: min error, `min abs err`, max error, `max abs err` (mctal.py:616-668) -/
def errorSummary (f : Frame) : Except PyErr (Num × ℚ × Num × ℚ) :=
  match extremeError (fun a b => decide (a < b)) f with
  | .error e => .error e
  | .ok (e1, v1) =>
    match extremeError (fun a b => decide (b < a)) f with
    | .error e => .error e
    | .ok (e2, v2) => .ok (e1, v1, e2, v2)

end F4Enix.Mctal
