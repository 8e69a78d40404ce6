import Verif.Base.Text
import Verif.Base.Dict
import Mathlib.Algebra.Order.Floor.Ring
import Mathlib.Data.Rat.Floor
/-!
# Model of `src/f4enix/output/plotter.py` and of the constants it uses

Numbers are exact. pyvista, matplotlib, docx and PIL are parameters: what a cut of a mesh gives, what a drawing of a slice gives, where a
picture goes. The lists of the constants `TID_CATEGORIES`, `TNF_CATEGORIES` and `SDDR_CATEGORIES` are shared by all plots of a session and
are changed by them, so they are the state of the model.
-/
namespace F4Enix.Plot
open F4Enix

/-! ### categories -/

/-- a dictionary of categories (constants.py:107-131) -/
structure Ctg where
  values : List ℚ
  categories : List Str
  colors : List Str
  deriving DecidableEq, Repr

/-- constants.py:108-112 -/
def tid : Ctg := ⟨[1, 10], ["< 1 Gy".toList, "1-10 Gy".toList, "> 10 Gy".toList], ["green".toList, "orange".toList, "red".toList]⟩

/-- constants.py:114-118 -/
def tnf : Ctg := ⟨[1 / 100, 100], ["< 0.01 n/cm^2/s".toList, "0.01-100 n/cm^2/s".toList, "> 100 n/cm^2/s".toList],
  ["green".toList, "orange".toList, "red".toList]⟩

/-- constants.py:120-131 -/
def sddr : Ctg := ⟨[132 / 100000, 75 / 10000, 25 / 1000, 2, 100],
  ["< 1.32 uSv/h".toList, "1.32-7.5 uSv/h".toList, "7.5-25 uSv/h".toList, "0.025-2 mSv/s".toList, "2-100 mSv/h".toList, "> 100 mSv/h".toList],
  ["white".toList, "blue".toList, "green".toList, "yellow".toList, "orange".toList, "red".toList]⟩

/-- the label of a value: the default, overwritten by every pair whose limit it is below (plotter.py:494-504); the array holds
ten characters (`<U10`) -/
def labelOf (ps : List (ℚ × Str)) (d : Str) (x : ℚ) : Str := ps.foldl (fun l p => if x < p.1 then p.2.take 10 else l) (d.take 10)

/-- `_add_categorization` (plotter.py:487-515): labels, colours, and the dictionary afterwards (`vals` is reversed for good, `categories`
twice) -/
def categorize (c : Ctg) (xs : List ℚ) : Except PyErr (List Str × List Str × Ctg) :=
  match c.categories.getLast? with
  | none => .error .indexError
  | some d =>
    let labels := xs.map (labelOf (c.values.reverse.zip c.categories.reverse) d)
    .ok (labels, ((c.categories.zip c.colors).filter (fun p => decide (1 < labels.count p.1))).map Prod.snd,
      { c with values := c.values.reverse })

/-- the constants of the session (plotter.py:353-359, constants.py:107-130) -/
structure Consts where
  sddr : Ctg
  tnf : Ctg
  tid : Ctg
  deriving DecidableEq, Repr

/-- the constants when the program starts (constants.py:107-130) -/
def fresh : Consts := ⟨sddr, tnf, tid⟩

/-- the dictionary of a name (plotter.py:370-380) -/
def Consts.get (s : Consts) (n : Str) : Option Ctg :=
  if n = "SDDR".toList then some s.sddr else if n = "TNF".toList then some s.tnf else if n = "TID".toList then some s.tid else none

/-- the dictionary is the one of the constants: its change is theirs (plotter.py:487-515) -/
def Consts.put (s : Consts) (n : Str) (c : Ctg) : Consts :=
  if n = "SDDR".toList then { s with sddr := c } else if n = "TNF".toList then { s with tnf := c } else if n = "TID".toList then { s with tid := c } else s

/-! ### plots of slices -/

/-- a slice: name, cut of the mesh, cut of the stl (plotter.py:381) -/
abbrev Slice (α β : Type) := Str × α × Option β

/-- the settings of a drawing: the labels and colours of a categorical plot (plotter.py:384-406) -/
abbrev Style := Option (List Str × List Str)

/-- the loop of `plot_slices` (plotter.py:399-440): the dictionary, the files (if a folder was given) and the images.
`vals` is the array plotted, `draw` makes the picture. -/
def plotLoop {α β γ : Type} (vals : α → List ℚ) (draw : α → Option β → Style → Except PyErr γ) (save : Bool) :
    Option Ctg → Dict Str γ → List (Slice α β) → Option Ctg × Dict Str γ × Except PyErr (List (Str × γ))
  | c, files, [] => (c, files, .ok [])
  | c, files, (name, m, stl) :: rest =>
    match (match c with
      | none => Except.ok (none, none)
      | some c =>
        match categorize c (vals m) with
        | .error e => Except.error e
        | .ok (ls, cs, c') => Except.ok (some (ls, cs), some c')) with
    | .error e => (c, files, .error e)
    | .ok (st, c') =>
      match draw m stl st with
      | .error e => (c', files, .error e)
      | .ok im =>
        match plotLoop vals draw save c' (if save then Dict.set files name im else files) rest with
        | (c', files', .error e) => (c', files', .error e)
        | (c', files', .ok ims) => (c', files', .ok ((name, im) :: ims))

/-- `plot_slices` (plotter.py:322-441); `out` is `none` without a folder, else whether it exists; `files` are those of the folder,
by the name before `.png` -/
def plotSlices {α β γ : Type} (vals : α → List ℚ) (draw : α → Option β → Style → Except PyErr γ) (s : Consts) (ctg : Option Str)
    (out : Option Bool) (files : Dict Str γ) (slices : List (Slice α β)) : Consts × Dict Str γ × Except PyErr (List (Str × γ)) :=
  match (match ctg with
    | none => Except.ok none
    | some n => match s.get n with
      | none => Except.error PyErr.valueError
      | some c => Except.ok (some c)) with
  | .error e => (s, files, .error e)
  | .ok c =>
    if out = some false then (s, files, .error .valueError)
    else
      match plotLoop vals draw (decide (out = some true)) c files slices with
      | (c', files', r) =>
        (match ctg, c' with
          | some n, some c' => s.put n c'
          | _, _ => s, files', r)

/-! ### slicing -/

/-- `np.arange` on exact numbers (numpy, plotter.py:220-296) -/
def arange (a b step : ℚ) : Except PyErr (List ℚ) :=
  if step = 0 then .error .zeroDivision else .ok ((List.range (⌈(b - a) / step⌉.toNat)).map (fun i : ℕ => a + (i : ℚ) * step))

/-- `slice_toroidal` (plotter.py:220-296): angles in degrees, which the code converts to radians and back. `cut` gives the slice
at an angle, nothing if it is empty; `stl` the slice of the stl if there is one; `label` the name of an angle. -/
def sliceToroidal {α β : Type} (cut : ℚ → Option α) (stl : Option (α → Option β)) (label : ℚ → Str) (inc : ℚ) (mm : Option (ℚ × ℚ)) :
    Except PyErr (List (Slice α β)) :=
  match (match mm with
    | none => arange 0 180 inc
    | some (a, b) => arange a b inc) with
  | .error e => .error e
  | .ok angles => .ok ((angles.zip (angles.filterMap cut)).map (fun p => (label p.1, p.2, stl.bind (fun f => f p.2))))

/-- `slice` (plotter.py:135-173): rows of a name, a point and a normal -/
def sliceRows {α β V : Type} (cut : V → V → α) (stl : Option (α → Option β)) (rows : List (Str × V × V)) : List (Slice α β) :=
  rows.map (fun r => (r.1, cut r.2.1 r.2.2, stl.bind (fun f => f (cut r.2.1 r.2.2))))

/-- `round(x, 1)` in tenths: to the nearest, halves to the even (Python, plotter.py:175-218) -/
def tenths (x : ℚ) : ℤ :=
  let f := ⌊x * 10⌋
  let r := x * 10 - f
  if r < 1 / 2 then f else if 1 / 2 < r then f + 1 else if f % 2 = 0 then f else f + 1

/-- `slice_on_axis` (plotter.py:178-211): `show` prints the tenths, `centre` is the coordinate of the centre along the axis -/
def sliceOnAxis {α β : Type} (centre : α → ℚ) (stl : Option (α → Option β)) (shown : ℤ → Str) (axis : Str) (cuts : List α) : List (Slice α β) :=
  cuts.map (fun m => ('P' :: axis ++ " = ".toList ++ shown (tenths (centre m)), m, stl.bind (fun f => f m)))

/-! ### atlas -/

/-- the blocks of the document (plotter.py:600-644) -/
inductive Block (γ : Type) where
  | heading (level : ℕ) (text : Str)
  | picture (p : γ)
  deriving DecidableEq, Repr

/-- the name of a picture (plotter.py:638-642) -/
def pictureName (section_ name : Str) (withSection : Bool) (disclaimer : Option Str) : Str :=
  (if withSection then name ++ " - ".toList ++ section_ else name) ++ (match disclaimer with | none => [] | some d => ' ' :: d)

/-- `add_section` (plotter.py:600-644) -/
def addSection {γ : Type} (doc : List (Block γ)) (section_ : Str) (images : List (Str × γ)) (level : ℕ) (withSection : Bool)
    (disclaimer : Option Str) : List (Block γ) :=
  doc ++ .heading level section_ ::
    images.flatMap (fun i => [.heading (level + 1) (pictureName section_ i.1 withSection disclaimer), .picture i.2])

/-- a file of a folder: name, time, content (plotter.py:646-680) -/
structure File (γ : Type) where
  name : Str
  time : ℤ
  content : γ
  deriving DecidableEq, Repr

/-- the last three characters (plotter.py:682) -/
def ext (n : Str) : Str := n.drop (n.length - 3)

/-- the blocks of a folder (plotter.py:670-689): sorted by time (stable), only `jpg`, `png`, `tif`, headings without the last four characters -/
def folderBlocks {γ : Type} (fs : List (File γ)) : List (Block γ) :=
  ((fs.mergeSort (fun a b => decide (a.time ≤ b.time))).filter (fun f => ["jpg".toList, "png".toList, "tif".toList].contains (ext f.name))).flatMap
    (fun f => [.heading 2 (f.name.take (f.name.length - 4)), .picture f.content])

/-- `build_from_root` (plotter.py:646-680); an entry of the root is a folder with its files or something else -/
def buildFromRoot {γ : Type} (doc : List (Block γ)) (entries : List (Str × Option (List (File γ)))) : List (Block γ) :=
  doc ++ entries.flatMap (fun e => match e.2 with
    | none => []
    | some fs => .heading 1 e.1 :: folderBlocks fs)

/-! ### cumulative distributions -/

/-- the line styles and colours, each list fifty times (plotter.py:844-858) -/
def lineStyles : List ℕ := (List.replicate 50 [0, 1, 2, 3]).flatten
/-- `lineColors` (plotter.py:800-860) -/
def lineColors : List ℕ := (List.replicate 50 [0, 1, 2, 3, 4, 5, 6, 7, 8]).flatten

/-- a curve: the values, the weight of each, its label, style and colour (plotter.py:906-974) -/
structure Curve where
  values : List ℚ
  weight : ℚ
  label : Option Str
  style : ℕ
  color : ℕ
  deriving DecidableEq, Repr

/-- the loop (plotter.py:950-966), from curve number `i` on -/
def cdfLoop (labels : Option (List Str)) : ℕ → List (List ℚ) → Except PyErr (List Curve)
  | _, [] => .ok []
  | i, v :: vs =>
    match (match labels with
      | none => Except.ok none
      | some ls => match ls[i]? with
        | none => Except.error PyErr.indexError
        | some l => Except.ok (some l)), lineStyles[i]?, lineColors[i]? with
    | .ok l, some s, some c =>
      match cdfLoop labels (i + 1) vs with
      | .error e => .error e
      | .ok r => .ok (⟨v, 1 / (v.length : ℚ), l, s, c⟩ :: r)
    | _, _, _ => .error .indexError

/-- `CDFplot.plot` (plotter.py:912-974) -/
def cdfPlot (labels : Option (List Str)) (data : List (List ℚ)) : Except PyErr (List Curve) :=
  match labels with
  | none => cdfLoop none 0 data
  | some ls => if ls.length = data.length then cdfLoop (some ls) 0 data else .error .valueError

/-- the number of the bin of a value: the bins are `[e_k, e_{k+1})`, the last one closed (`np.histogram`) (numpy, plotter.py:906-974) -/
def inBin (edges : List ℚ) (k : ℕ) (x : ℚ) : Bool :=
  match edges[k]?, edges[k + 1]? with
  | some a, some b => decide (a ≤ x) && (decide (x < b) || (decide (x = b) && decide (edges.length = k + 2)))
  | _, _ => false

/-- the height of the cumulative histogram in bin `k` (`hist(..., weights, cumulative=True)`, assumed of matplotlib) (matplotlib, plotter.py:906-974) -/
def height (edges : List ℚ) (c : Curve) (k : ℕ) : ℚ :=
  ((List.range (k + 1)).map (fun j => c.weight * ((c.values.filter (inBin edges j)).length : ℚ))).sum

end F4Enix.Plot
