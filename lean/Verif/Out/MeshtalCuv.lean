import Verif.Out.Meshtal
import Mathlib.Data.Rat.Floor
/-!
# Model of the cell-under-voxel and source mesh readers

`src/f4enix/output/meshtal/aux_meshtal_functions.py:208-394, 945-1026`. One time bin: with more, the second pass
of the loops writes into an array that has been transposed, and is not modelled.
-/
namespace F4Enix.Mesh
open F4Enix

/-- `line.split()[i]` as a number (Python, aux_meshtal_functions.py:206-237) -/
def wordNum (num : ParseNum) (l : Str) (i : Nat) : Except PyErr ℚ :=
  match (tokens l)[i]? with
  | none => .error .indexError
  | some w => toNum num w

/-- `int(q)` (Python, aux_meshtal_functions.py:206-237) -/
def trunc (q : ℚ) : ℤ := if q < 0 then ⌈q⌉ else ⌊q⌋

/-- a cell of a voxel: number, volume fraction, values and errors per energy (aux_meshtal_functions.py:206-237) -/
structure VCell where
  id : ℤ
  frac : ℚ
  vals : List ℚ
  errs : List ℚ
  deriving DecidableEq

/-! ### cell under voxel -/

/-- the total and its error in a line of four words (aux_meshtal_functions.py:217-219): how many totals the line gives -/
def cuvTotal (num : ParseNum) (l : Str) : Except PyErr Nat :=
  if (tokens l).length = 4 then
    match wordNum num l 2 with
    | .error e => .error e
    | .ok _ =>
      match wordNum num l 3 with
      | .error e => .error e
      | .ok _ => .ok 1
  else .ok 0

/-- first loop of `_read_cuv_cell_info` (aux_meshtal_functions.py:209-219): the cells, how many totals were found, the lines left. The totals are
appended with `np.append`, whose result is dropped: only their number matters. -/
def cuvHeads (num : ParseNum) : Nat → List Str → Except PyErr (List (ℤ × ℚ) × Nat × List Str)
  | 0, ls => .ok ([], 0, ls)
  | n + 1, ls =>
    match wordNum num (ls.headD []) 0 with
    | .error e => .error e
    | .ok c =>
      match wordNum num (ls.headD []) 1 with
      | .error e => .error e
      | .ok f =>
        match cuvTotal num (ls.headD []) with
        | .error e => .error e
        | .ok k =>
          match cuvHeads num n ls.tail with
          | .error e => .error e
          | .ok (hs, t, rest) => .ok ((trunc c, f) :: hs, k + t, rest)

/-- second loop of `_read_cuv_cell_info` (aux_meshtal_functions.py:221-236) from cell `i` on: a line of values and a line of errors per cell; when there are
`t > 0` totals, the total of every cell is looked up -/
def cuvRows (num : ParseNum) (t : Nat) : Nat → List (ℤ × ℚ) → List Str → Except PyErr (List VCell × List Str)
  | _, [], ls => .ok ([], ls)
  | i, h :: hs, ls =>
    match rowNums num (tokens (ls.headD [])) with
    | .error e => .error e
    | .ok v =>
      match rowNums num (tokens (ls.tail.headD [])) with
      | .error e => .error e
      | .ok r =>
        if 0 < t ∧ t ≤ i then .error .indexError
        else
          match cuvRows num t (i + 1) hs ls.tail.tail with
          | .error e => .error e
          | .ok (cs, rest) => .ok (⟨h.1, h.2, v, r⟩ :: cs, rest)

/-- element `e` of a row that is stretched to the length of another one: a row of one number is repeated (numpy, aux_meshtal_functions.py:296-308) -/
def stretched (v : List ℚ) (e : Nat) : ℚ := if v.length = 1 then v.headD 0 else v.getD e 0

/-- mean value of one energy of `_get_mean_value` (aux_meshtal_functions.py:306) -/
def meanVal (cells : List VCell) (e : Nat) : ℚ := (cells.map (fun c => c.frac * stretched c.vals e)).sum

/-- mean error of one energy of `_get_mean_value` (aux_meshtal_functions.py:307) -/
def meanErr (cells : List VCell) (e : Nat) : ℚ :=
  if meanVal cells e ≠ 0 then (cells.map (fun c => c.frac * (stretched c.vals e * stretched c.errs e))).sum / meanVal cells e else 0

/-- `_get_mean_value`: values and errors (aux_meshtal_functions.py:296-308). The rows of values must have the same length, and so must the rows of errors;
the product of both stretches rows of one number. -/
def meanValue (cells : List VCell) : Except PyErr (List ℚ × List ℚ) :=
  match cells with
  | [] => .error .indexError
  | c :: cs =>
    if cs.all (fun d => decide (d.vals.length = c.vals.length ∧ d.errs.length = c.errs.length)) = true ∧
        (c.errs.length = c.vals.length ∨ c.errs.length = 1 ∨ c.vals.length = 1) then
      .ok ((List.range c.vals.length).map (meanVal (c :: cs)),
        (List.range (if c.vals.length = 1 then c.errs.length else c.vals.length)).map (meanErr (c :: cs)))
    else .error .valueError

/-- normalisation argument of the CUV reader (aux_meshtal_functions.py:311-347) -/
inductive Norm where
  | ctot | celf | other
  deriving DecidableEq

/-- values and errors of one voxel from its cells (`_get_cuv_element`, aux_meshtal_functions.py:311-347) -/
def cuvVoxel (norm : Norm) (filter : Option (List ℤ)) (volume : ℚ) (cells : List VCell) :
    Except PyErr (List ℚ × List ℚ) :=
  match cells with
  | [] => .error .indexError
  | c0 :: _ =>
    let sel := match filter with
      | none => cells
      | some f => cells.filter (fun c => decide (c.id ∈ f))
    let sumf : ℚ := match filter with
      | none => 1
      | some _ => (sel.map (fun c => c.frac)).sum
    if sumf = 0 then .ok (List.replicate c0.vals.length 0, List.replicate c0.vals.length 0)
    else
      let base := if 1 < cells.length then meanValue sel
        else match sel with
          | [] => Except.error PyErr.indexError
          | c :: _ => .ok (c.vals, c.errs)
      match base with
      | .error e => .error e
      | .ok b =>
        match norm with
        | .ctot => .ok (b.1.map (fun q => q * volume), b.2)
        | .celf => .ok (b.1.map (fun q => q / sumf), b.2)
        | .other => .error .valueError

/-- `_get_cuv_element` from the file (aux_meshtal_functions.py:311-347) -/
def cuvElement (num : ParseNum) (norm : Norm) (filter : Option (List ℤ)) (ls : List Str) :
    Except PyErr ((List ℚ × List ℚ) × List Str) :=
  match wordNum num (ls.headD []) 4 with
  | .error e => .error e
  | .ok volume =>
    match wordNum num (ls.headD []) 5 with
    | .error e => .error e
    | .ok n =>
      match cuvHeads num (trunc n).toNat ls.tail with
      | .error e => .error e
      | .ok (hs, t, ls) =>
        match cuvRows num t 0 hs ls with
        | .error e => .error e
        | .ok (cells, ls) =>
          match cuvVoxel norm filter volume cells with
          | .error e => .error e
          | .ok v => .ok (v, ls)

/-- `array[i, :] = v[:]` for `ne` energies (numpy, aux_meshtal_functions.py:921-947) -/
def fitRow (ne : Nat) (v : List ℚ) : Except PyErr (List ℚ) :=
  if v.length = ne then .ok v
  else if v.length = 1 then .ok (List.replicate ne (v.headD 0))
  else .error .valueError

/-- values and errors of a voxel put in their arrays (aux_meshtal_functions.py:938-940) -/
def fit (ne : Nat) (p : List ℚ × List ℚ) : Except PyErr (List (ℚ × ℚ)) :=
  match fitRow ne p.1 with
  | .error e => .error e
  | .ok v =>
    match fitRow ne p.2 with
    | .error e => .error e
    | .ok r => .ok (List.zip v r)

/-- the loop over the voxels (aux_meshtal_functions.py:921-947) -/
def cuvLoop (num : ParseNum) (norm : Norm) (filter : Option (List ℤ)) (ne : Nat) :
    Nat → List Str → Except PyErr (List (List (ℚ × ℚ)))
  | 0, _ => .ok []
  | n + 1, ls =>
    match cuvElement num norm filter ls with
    | .error e => .error e
    | .ok (v, ls) =>
      match fit ne v with
      | .error e => .error e
      | .ok v =>
        match cuvLoop num norm filter ne n ls with
        | .error e => .error e
        | .ok vs => .ok (v :: vs)

/-- `np.transpose(val_array.reshape((nx1, nx2, nx3, ne)))`: voxel `(a, b, c)` is element `(a * nx2 + b) * nx3 + c` (numpy, aux_meshtal_functions.py:921-947) -/
def voxelData (nx3 nx2 : Nat) (vs : List (List (ℚ × ℚ))) (junk : Data) : Data := fun idx =>
  match idx with
  | [0, e, c, b, a] => (vs.getD ((a * nx2 + b) * nx3 + c) []).getD e (0, 0)
  | _ => junk idx

/-- `_get_CUVmesh_data` (aux_meshtal_functions.py:921-947), one time bin -/
def readCuv (num : ParseNum) (junk : Data) (norm : Norm) (filter : Option (List ℤ)) (ne nx3 nx2 nx1 : Nat)
    (lines : List Str) : Except PyErr Data :=
  match cuvLoop num norm filter ne (nx1 * nx2 * nx3) lines.tail with
  | .error e => .error e
  | .ok vs => .ok (voxelData nx3 nx2 vs junk)

/-! ### sources -/

/-- `_get_multilines` (aux_meshtal_functions.py:38-43): lines are read until there are `n` words; the end of the file never gives any.
The words are turned into numbers afterwards. -/
def multilines (n : Nat) : List Str → List Str → Except PyErr (List Str × List Str)
  | [], acc => if n ≤ acc.length then .ok (acc, []) else .error .diverges
  | l :: ls, acc => if n ≤ acc.length then .ok (acc, l :: ls) else multilines n ls (acc ++ tokens l)

/-- the same as numbers (aux_meshtal_functions.py:38-43) -/
def multinums (num : ParseNum) (n : Nat) (ls : List Str) : Except PyErr (List ℚ × List Str) :=
  match multilines n ls [] with
  | .error e => .error e
  | .ok (ws, ls) =>
    match rowNums num ws with
    | .error e => .error e
    | .ok qs => .ok (qs, ls)

/-- total of a cell from the line of the cell and the values (aux_meshtal_functions.py:255-268) -/
def cdgsTotal (num : ParseNum) (head : Str) (vals : List ℚ) : Except PyErr (ℚ × ℚ) :=
  if (tokens head).length = 2 then .ok (vals.sum, 0)
  else if (tokens head).length = 3 then
    match wordNum num head 2 with
    | .error e => .error e
    | .ok t => .ok (t, 0)
  else
    match wordNum num head 2 with
    | .error e => .error e
    | .ok t =>
      match wordNum num head 3 with
      | .error e => .error e
      | .ok r => .ok (t, r)

/-- one cell of `_read_cdgs_cell_info` (aux_meshtal_functions.py:243-273) -/
def cdgsCell (num : ParseNum) (ne : Nat) (ls : List Str) : Except PyErr (VCell × List Str) :=
  match wordNum num (ls.headD []) 0 with
  | .error e => .error e
  | .ok c =>
    match wordNum num (ls.headD []) 1 with
    | .error e => .error e
    | .ok f =>
      match multinums num ne ls.tail with
      | .error e => .error e
      | .ok (vals, l1) =>
        match multinums num ne l1 with
        | .error e => .error e
        | .ok (errs, l2) =>
          if ne = 1 then .ok (⟨trunc c, f, vals, errs⟩, l2)
          else
            match cdgsTotal num (ls.headD []) vals with
            | .error e => .error e
            | .ok t => .ok (⟨trunc c, f, vals ++ [t.1], errs ++ [t.2]⟩, l2)

/-- all the cells of a voxel (aux_meshtal_functions.py:240-273) -/
def cdgsCells (num : ParseNum) (ne : Nat) : Nat → List Str → Except PyErr (List VCell × List Str)
  | 0, ls => .ok ([], ls)
  | n + 1, ls =>
    match cdgsCell num ne ls with
    | .error e => .error e
    | .ok (c, l1) =>
      match cdgsCells num ne n l1 with
      | .error e => .error e
      | .ok (cs, l2) => .ok (c :: cs, l2)

/-- values of a source voxel (`_get_cdgs_element`, aux_meshtal_functions.py:371-394, no normalisation and no filter). A voxel whose
fractions sum to zero gives a pair where a triple is expected. -/
def cdgsVoxel (cells : List VCell) : Except PyErr (List ℚ × List ℚ) :=
  if (cells.map (fun c => c.frac)).sum = 0 then .error .valueError
  else if 1 < cells.length then meanValue cells
  else match cells with
    | [] => .error .indexError
    | c :: _ => .ok (c.vals, c.errs)

/-- `_get_cdgs_element`: `none` at the end of the data (aux_meshtal_functions.py:350-392) -/
def cdgsElement (num : ParseNum) (ne : Nat) (ls : List Str) :
    Except PyErr (Option (ℤ × List ℚ × List ℚ) × List Str) :=
  match tokens (ls.headD []) with
  | [] => .error .indexError
  | w :: ws =>
    if w = "end_source_data".toList then .ok (none, ls.tail)
    else
      match toNum num w with
      | .error e => .error e
      | .ok i =>
        match fromEnd (w :: ws) 2 with
        | .error e => .error e
        | .ok vw =>
          match toNum num vw with
          | .error e => .error e
          | .ok _ =>
            match fromEnd (w :: ws) 1 with
            | .error e => .error e
            | .ok nw =>
              match toNum num nw with
              | .error e => .error e
              | .ok n =>
                match cdgsCells num ne (trunc n).toNat ls.tail with
                | .error e => .error e
                | .ok (cells, rest) =>
                  match cdgsVoxel cells with
                  | .error e => .error e
                  | .ok v => .ok (some (trunc i, v), rest)

/-- state of the loop of `_get_CDGSmesh_data`: the voxel read but not yet placed, or the end of the data (aux_meshtal_functions.py:950-993) -/
inductive Pending where
  | next | have_ (index : ℤ) (v : List ℚ × List ℚ) | ended

/-- the voxel to look at: read if needed (aux_meshtal_functions.py:950-993) -/
def cdgsPending (num : ParseNum) (ner : Nat) : Pending → List Str → Except PyErr (Pending × List Str)
  | .next, ls =>
    match cdgsElement num ner ls with
    | .error e => .error e
    | .ok (none, rest) => .ok (.ended, rest)
    | .ok (some p, rest) => .ok (.have_ (p.1 - 1) p.2, rest)
  | s, ls => .ok (s, ls)

/-- loop over the voxels (`_get_CDGSmesh_data`, aux_meshtal_functions.py:950-993) from voxel `i` on -/
def cdgsLoop (num : ParseNum) (ne : Nat) : Nat → Nat → Pending → List Str → Except PyErr (List (List (ℚ × ℚ)))
  | 0, _, _, _ => .ok []
  | n + 1, i, s, ls =>
    match cdgsPending num (if ne = 1 then ne else ne - 1) s ls with
    | .error e => .error e
    | .ok (.have_ index v, ls) =>
      if (i : ℤ) = index then
        match fit ne v with
        | .error e => .error e
        | .ok v =>
          match cdgsLoop num ne n (i + 1) .next ls with
          | .error e => .error e
          | .ok vs => .ok (v :: vs)
      else
        match cdgsLoop num ne n (i + 1) (.have_ index v) ls with
        | .error e => .error e
        | .ok vs => .ok (List.replicate ne (0, 0) :: vs)
    | .ok (s, ls) =>
      match cdgsLoop num ne n (i + 1) s ls with
      | .error e => .error e
      | .ok vs => .ok (List.replicate ne (0, 0) :: vs)

/-- `_get_CDGSmesh_data`, one time bin; `skip` is 4 for the old format inside meshtal files, else 1 (aux_meshtal_functions.py:950-993) -/
def readCdgs (num : ParseNum) (junk : Data) (skip ne nx3 nx2 nx1 : Nat) (lines : List Str) : Except PyErr Data :=
  match cdgsLoop num ne (nx1 * nx2 * nx3) 0 .next (lines.drop skip) with
  | .error e => .error e
  | .ok vs => .ok (voxelData nx3 nx2 vs junk)

end F4Enix.Mesh
