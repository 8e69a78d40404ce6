import Verif.Mat.Names
import Verif.Base.Find
import Mathlib.Data.List.Sort
/-!
# Model of `src/f4enix/output/decay_pathways.py`: `PathwayLibrary`

The library is a table. Assumed of pandas (2.x): `loc` with a label, lists of labels and full slices keeps the rows
that match all of them, raises `KeyError` for a label that does not occur in its column and when nothing is left;
`max` of a group ignores missing values; `sort_values` sorts, in no stated order of ties (the model keeps one).
The order of the rows that `filter_pathways` returns is not modelled.
-/
namespace F4Enix.Path
open F4Enix F4Enix.Mat

/-- the available spectra (decay_pathways.py:29-33) -/
def spectra : List Str :=
  ["First Wall (315g)".toList, "Eq. port interspace (175g)".toList, "N-17 neutron emission (175g)".toList]

/-- the available cooling times (decay_pathways.py:34-41) -/
def times : List Str := ["24h".toList, "11.6d".toList, "30d".toList, "180d".toList, "1y".toList, "10y".toList]

/-- a row of the table given to the constructor; `vals` are the columns `max dose % at t` in the order of `times` (decay_pathways.py:45-77) -/
structure RawRow where
  dose : Str
  spectrum : Str
  element : Str
  isotope : Str
  state : Option Str
  pathway : Str
  material : Str
  vals : List (Option ℚ)
  deriving DecidableEq

/-- the table of the caller; `hasState`: the column `state` is there (decay_pathways.py:45-77) -/
structure Table where
  rows : List RawRow
  hasState : Bool
  deriving DecidableEq

/-- a row of the library (decay_pathways.py:45-77) -/
structure Row where
  dose : Str
  spectrum : Str
  element : Str
  isotope : Str
  pathway : Str
  material : Str
  vals : List (Option ℚ)
  deriving DecidableEq

/-- the name of the isotope: number and state, a missing state being the text `nan`, which is removed (decay_pathways.py:62-63) -/
def isotopeName (r : RawRow) : Str := Find.removeAll "nan".toList 0 (r.isotope ++ r.state.getD "nan".toList)

/-- `PathwayLibrary.__init__` (decay_pathways.py:44-77): the library and the table of the caller afterwards, from which the column
`state` is deleted and in which the isotopes are overwritten -/
def create (t : Table) : Except PyErr (List Row × Table) :=
  if t.hasState then
    .ok (t.rows.map (fun r => ⟨r.dose, r.spectrum, r.element, isotopeName r, r.pathway, r.material, r.vals⟩),
      ⟨t.rows.map (fun r => { r with isotope := isotopeName r, state := none }), false⟩)
  else .error .keyError

/-- the value of a row at a cooling time (decay_pathways.py:139-214) -/
def Row.at (r : Row) (t : Str) : Option ℚ := (((times.zip r.vals).find? (fun p => p.1 = t)).map Prod.snd).getD none

/-- one list of labels in `df.loc` (pandas, decay_pathways.py:139-214) -/
def locList (lib cur : List Row) (f : Row → Str) (ls : List Str) : Except PyErr (List Row) :=
  if ls.all (fun l => (lib.map f).contains l) then
    if (cur.filter (fun r => ls.contains (f r))) = [] then .error .keyError
    else .ok (cur.filter (fun r => ls.contains (f r)))
  else .error .keyError

/-- `df.loc[doselabel, spectrum, :, :, :, mat_names]` (decay_pathways.py:212); an empty list of labels selects nothing -/
def loc (lib : List Row) (dl : Str) (sp ms : List Str) : Except PyErr (List Row) :=
  if (lib.map Row.dose).contains dl then
    if sp = [] then .ok []
    else
      match locList lib (lib.filter (fun r => r.dose = dl)) Row.spectrum sp with
      | .error e => .error e
      | .ok cur => if ms = [] then .ok [] else locList lib cur Row.material ms
  else .error .keyError

/-- the label of a dose (decay_pathways.py:180-185) -/
def doseLabel (dose : ℤ) : Except PyErr Str :=
  if dose = 95 then .ok "Dose 95%".toList
  else if dose = 99 then .ok "Dose 99%".toList
  else .error .valueError

/-- `None`: all; otherwise every entry must be available (decay_pathways.py:139-214) -/
def request (avail : List Str) : Option (List Str) → Except PyErr (List Str)
  | none => .ok avail
  | some ls => if ls.all (fun l => avail.contains l) then .ok ls else .error .valueError

/-- `filter_pathways` (decay_pathways.py:138-213): the rows with their values at the requested times, in the order of the request.
`avail` are the names of the materials of the library of materials (equal names are taken as equal materials). -/
def filterPathways (lib : List Row) (avail : List Str) (spectrum : Option (List Str)) (dose : ℤ)
    (materials cooling : Option (List Str)) : Except PyErr (List (Row × List (Option ℚ))) :=
  match request spectra spectrum with
  | .error e => .error e
  | .ok sp =>
    match doseLabel dose with
    | .error e => .error e
    | .ok dl =>
      match request avail materials with
      | .error e => .error e
      | .ok ms =>
        match request times cooling with
        | .error e => .error e
        | .ok ts =>
          match loc lib dl sp ms with
          | .error e => .error e
          | .ok rows => .ok ((rows.map (fun r => (r, ts.map r.at))).filter (fun p => p.2.any Option.isSome))

/-- the key of a group: element, isotope, pathway (decay_pathways.py:79-137) -/
abbrev Key := Str × Str × Str

/-- the key of a row (decay_pathways.py:79-137) -/
def Row.key (r : Row) : Key := (r.element, r.isotope, r.pathway)

/-- the greater of two values, one of which may be missing (pandas, decay_pathways.py:79-137) -/
def maxO : Option ℚ → Option ℚ → Option ℚ
  | none, b => b
  | a, none => a
  | some a, some b => some (max a b)

/-- `max` of a group: column by column (pandas, decay_pathways.py:79-137) -/
def maxRows : List (List (Option ℚ)) → List (Option ℚ)
  | [] => []
  | [r] => r
  | r :: rs => List.zipWith maxO r (maxRows rs)

/-- the groups (decay_pathways.py:118-129) -/
def groups (fs : List (Row × List (Option ℚ))) : List (Key × List (Option ℚ)) :=
  (fs.map (fun p => p.1.key)).dedup.map (fun k => (k, maxRows ((fs.filter (fun p => p.1.key = k)).map Prod.snd)))

/-- comparison of texts (Python, decay_pathways.py:14-26) -/
def lexLe : Str → Str → Bool
  | [], _ => true
  | _ :: _, [] => false
  | a :: as, b :: bs => if a = b then lexLe as bs else decide (a.toNat < b.toNat)

/-- the column `zaidnum` (decay_pathways.py:20-22) -/
def zaidNums (lm : LibMan) : List (Key × List (Option ℚ)) → Except PyErr (List (Str × Key × List (Option ℚ)))
  | [] => .ok []
  | (k, v) :: r =>
    match lm.zaidNum (k.1 ++ k.2.1) with
    | .error e => .error e
    | .ok z =>
      match zaidNums lm r with
      | .error e => .error e
      | .ok zs => .ok ((z, k, v) :: zs)

/-- `_sort_df_byzaidnum` (decay_pathways.py:14-26): an empty table is a `ValueError` (`apply` returns a table, which cannot be stored
as a column) -/
def sortByZaid (lm : LibMan) (gs : List (Key × List (Option ℚ))) : Except PyErr (List (Key × List (Option ℚ))) :=
  if gs = [] then .error .valueError
  else
    match zaidNums lm gs with
    | .error e => .error e
    | .ok zs => .ok ((zs.insertionSort (fun a b => lexLe a.1 b.1 = true)).map Prod.snd)

/-- `get_pathways` (decay_pathways.py:79-136) -/
def getPathways (lm : LibMan) (lib : List Row) (avail : List Str) (spectrum : Option (List Str)) (dose : ℤ)
    (materials cooling : Option (List Str)) : Except PyErr (List (Key × List (Option ℚ))) :=
  match filterPathways lib avail spectrum dose materials cooling with
  | .error e => .error e
  | .ok fs => sortByZaid lm (groups fs)

end F4Enix.Path
