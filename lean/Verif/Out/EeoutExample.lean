import Verif.Out.EeoutClaims
/-!
# A file with the layout (the hypotheses of C124-C127 can be met)

Two tetrahedra over five points, two materials, one edit. Numbers are kept as their texts.
-/
namespace F4Enix.Eeout
open F4Enix

instance (l : Str) : Decidable (Filler l) := by unfold Filler; infer_instance

instance (l : Str) (w : Which) : Decidable (Trigger l w) := by cases w <;> (unfold Trigger; infer_instance)

namespace Ex

/-- 0 (example) -/
abbrev z : Str := "0.00000E+00".toList
/-- 1 (example) -/
abbrev o : Str := "1.00000E+00".toList
/-- -1 (example) -/
abbrev u : Str := "-1.00000E+00".toList

theorem num_z : IsNum z := ⟨false, '0', '+', "00000".toList, "00".toList, by decide, by decide, by decide, by decide, by decide, by decide, by decide⟩
theorem num_o : IsNum o := ⟨false, '1', '+', "00000".toList, "00".toList, by decide, by decide, by decide, by decide, by decide, by decide, by decide⟩
theorem num_u : IsNum u := ⟨true, '1', '+', "00000".toList, "00".toList, by decide, by decide, by decide, by decide, by decide, by decide, by decide⟩

/-- lines of these three numbers -/
theorem nums {wss : List (List Str)} (hne : ∀ ws ∈ wss, ws ≠ []) (h : ∀ ws ∈ wss, ∀ w ∈ ws, w = z ∨ w = o ∨ w = u) :
    NumLines (some : Str → Option Str) (wss.map numLine) wss.flatten := by
  refine ⟨wss, rfl, fun ws hws => ⟨hne ws hws, fun w hw => ?_⟩, rfl⟩
  rcases h ws hws w hw with h | h | h
  · rw [h]; exact num_z
  · rw [h]; exact num_o
  · rw [h]; exact num_u

/-- the line before a section (example) -/
abbrev rec6 : Str := intLine 15 [1, 2, 3, 4, 5, 6]

theorem rec_ok : IsRecord rec6 := ⟨[1, 2, 3, 4, 5, 6], rfl, by decide, rfl⟩

/-- the edit (example) -/
def edit : Edit Str := ⟨1, 1, "FLUX_1".toList, [(.values, [o, z]), (.errors, [z, u])]⟩

/-- what the file says (example) -/
def data : Data Str where
  materials := ["steel".toList, "water 2".toList]
  particles := [1]
  points := [(z, z, z), (o, z, z), (z, o, z), (z, z, o), (u, z, z)]
  elements := [[1, 2, 3, 4], [1, 5, 3, 4]]
  elemMats := [2, 1]
  edits := [edit]
  density := [o, o]
  volume := [z, o]

/-- the numbers of the head (example) -/
def nums6 : List (Str × ℕ) :=
  [("NUMBER OF PARTICLES".toList, 1), ("NUMBER OF NODES".toList, 5), ("NUMBER OF MATERIALS".toList, 2), ("NUMBER OF 1st TETS".toList, 2),
    ("NUMBER OF 2nd TETS".toList, 0), ("NUMBER OF EDITS".toList, 1)]

/-- the lines of the edit (example) -/
def editText : List Str :=
  editHead 1 1 "FLUX_1".toList :: ([" DATA SETS RESULT TIME BIN : 1\n".toList, numLine [z, o], numLine [z], rec6,
    " TOTALS\n".toList, " DATA SETS REL ERROR TIME BIN : 1\n".toList, numLine [z, z, u], rec6] ++ [])

/-- `text` (example) -/
def text : Text where
  head := [" EEOUT\n".toList]
  info := nums6.map (fun x => ' ' :: x.1 ++ List.replicate 3 ' ' ++ ':' :: List.replicate 9 ' ' ++ natStr x.2 ++ ['\n'])
  a := [rec6]
  particles := intLine 12 [1]
  b := [rec6]
  materials := ["steel   \n".toList, "water 2\n".toList]
  c := [rec6]
  xs := [[z, o, z], [z, u]].map numLine
  r1 := rec6
  ys := [[z, z, o], [z, z]].map numLine
  r2 := rec6
  zs := [[z, z, z], [o, z]].map numLine
  r3 := rec6
  types := [intLine 8 [1, 1], rec6]
  mats := [intLine 8 [2, 1]]
  r4 := rec6
  connHead := " CONNECTIVITY DATA 1ST ORDER TETS ELEMENT ORDERED\n".toList
  conn := [intLine 12 [1, 2, 3, 4], intLine 12 [1, 5, 3, 4]]
  r5 := rec6
  neighHead := " NEAREST NEIGHBOR DATA 1ST ORDER TETS\n".toList
  d := [intLine 12 [0, 0, 0, 2], rec6]
  edits := editText
  centHead := " CENTROIDS X (cm)\n".toList
  e := [numLine [z, z], rec6]
  density := [[o, o]].map numLine
  r6 := rec6
  volume := [[z, o]].map numLine

theorem edit_layout : EditLines (some : Str → Option Str) editText [edit] := by
  refine EditLines.cons (e := edit) (by decide) (by decide) ?_ EditLines.nil
  refine Body.block (tr := " DATA SETS RESULT TIME BIN : 1\n".toList) (e := rec6) (vl := [[z, o], [z]].map numLine) (v := z) (vs := [o, z])
    (by decide +kernel) (nums (by decide) (by decide)) rec_ok ?_
  refine Body.filler (by decide +kernel) ?_
  refine Body.block (tr := " DATA SETS REL ERROR TIME BIN : 1\n".toList) (e := rec6) (vl := [[z, z, u]].map numLine) (v := z) (vs := [z, u])
    (by decide +kernel) (nums (by decide) (by decide)) rec_ok ?_
  exact Body.nil

theorem info_layout : InfoLines text.info nums6 := by
  refine ⟨?_, by decide, ⟨_, _, rfl, by decide⟩, ⟨_, (text.info).dropLast, (List.dropLast_append_getLast (by decide)).symm, by decide, by decide⟩⟩
  unfold text nums6
  simp only [List.map_cons, List.map_nil]
  repeat' apply List.Forall₂.cons
  all_goals first | exact List.Forall₂.nil | exact ⟨3, 9, rfl, by decide, by decide, by decide⟩

/-- the layout is met -/
theorem layout : Layout (some : Str → Option Str) text data 4 nums6 where
  head := by decide
  info := info_layout
  nMat := by decide
  nPart := by decide
  nNodes := by decide
  nTets1 := by decide
  nTets2 := by decide
  nodes := by decide
  some := by decide
  particlesOnce := by decide +kernel
  particles := ⟨12, rfl, by decide⟩
  materialsOnce := by decide +kernel
  materials := by
    refine List.Forall₂.cons ⟨3, by decide, by decide, by decide, by decide⟩ (List.Forall₂.cons ⟨0, by decide, by decide, by decide, by decide⟩ List.Forall₂.nil)
  front := by decide +kernel
  xs := nums (by decide) (by decide)
  ys := nums (by decide) (by decide)
  zs := nums (by decide) (by decide)
  records := ⟨rec_ok, rec_ok, rec_ok, rec_ok, rec_ok, rec_ok⟩
  types := by decide +kernel
  mats := ⟨[[2, 1]], rfl, by decide, rfl⟩
  connHead := by decide
  conn := ⟨[[1, 2, 3, 4], [1, 5, 3, 4]], rfl, by decide, rfl⟩
  neighHead := by decide +kernel
  d := by decide +kernel
  edits := edit_layout
  centHead := by decide
  e := by decide +kernel
  density := nums (by decide) (by decide)
  volume := nums (by decide) (by decide)
  elements := by decide
  names := by decide
  blocks := by decide
  sizes := by decide

/-- the file is read -/
example : ∃ g, readFile (some : Str → Option Str) text.lines = .ok g ∧ g.cells = [[4, 0, 1, 2, 3], [4, 0, 4, 2, 3]] ∧
    g.material = ([some "water 2".toList, some "steel".toList], .cells) ∧
    Dict.get? g.arrays "Tally1_par1_FLUX_1 - error".toList = some ([z, u], .cells) :=
  ⟨_, read_file layout, by decide, by decide, by decide⟩


/-! ### as many elements as points -/

namespace Equal

/-- the edit (example) -/
def edit : Edit Str := ⟨1, 1, "FLUX_1".toList, [(.values, [o, o, o, o, o]), (.errors, [u, u, u, u, u])]⟩

/-- what the file says (example) -/
def data : Data Str where
  materials := ["steel".toList, "water 2".toList]
  particles := [1]
  points := [(z, z, z), (z, o, u), (z, u, o), (o, z, z), (o, o, u)]
  elements := [[1, 2, 3, 4], [1, 5, 3, 4], [1, 2, 3, 5], [2, 3, 4, 5], [1, 2, 4, 5]]
  elemMats := [1, 1, 1, 1, 1]
  edits := [edit]
  density := [o, o, o, o, o]
  volume := [z, z, z, z, z]

/-- the numbers of the head (example) -/
def nums6 : List (Str × ℕ) :=
  [("NUMBER OF PARTICLES".toList, 1), ("NUMBER OF NODES".toList, 5), ("NUMBER OF MATERIALS".toList, 2), ("NUMBER OF 1st TETS".toList, 5),
    ("NUMBER OF 2nd TETS".toList, 0), ("NUMBER OF EDITS".toList, 1)]

/-- the lines of the edit (example) -/
def editText : List Str :=
  editHead 1 1 "FLUX_1".toList :: ([" DATA SETS RESULT TIME BIN : 1\n".toList, numLine [z, o, o, o, o, o], rec6,
    " TOTALS\n".toList, " DATA SETS REL ERROR TIME BIN : 1\n".toList, numLine [z, u, u, u, u, u], rec6] ++ [])

/-- `text` (example) -/
def text : Text where
  head := [" EEOUT\n".toList]
  info := nums6.map (fun x => ' ' :: x.1 ++ List.replicate 3 ' ' ++ ':' :: List.replicate 9 ' ' ++ natStr x.2 ++ ['\n'])
  a := [rec6]
  particles := intLine 12 [1]
  b := [rec6]
  materials := ["steel   \n".toList, "water 2\n".toList]
  c := [rec6]
  xs := [[z, z, z, o, o]].map numLine
  r1 := rec6
  ys := [[z, o, u, z, o]].map numLine
  r2 := rec6
  zs := [[z, u, o, z, u]].map numLine
  r3 := rec6
  types := [intLine 8 [1, 1], rec6]
  mats := [intLine 8 [1, 1, 1, 1, 1]]
  r4 := rec6
  connHead := " CONNECTIVITY DATA 1ST ORDER TETS ELEMENT ORDERED\n".toList
  conn := [intLine 12 [1, 2, 3, 4], intLine 12 [1, 5, 3, 4], intLine 12 [1, 2, 3, 5], intLine 12 [2, 3, 4, 5], intLine 12 [1, 2, 4, 5]]
  r5 := rec6
  neighHead := " NEAREST NEIGHBOR DATA 1ST ORDER TETS\n".toList
  d := [intLine 12 [0, 0, 0, 2], rec6]
  edits := editText
  centHead := " CENTROIDS X (cm)\n".toList
  e := [numLine [z, z], rec6]
  density := [[o, o, o, o, o]].map numLine
  r6 := rec6
  volume := [[z, z, z, z, z]].map numLine

theorem edit_layout : EditLines (some : Str → Option Str) editText [edit] := by
  refine EditLines.cons (e := edit) (by decide) (by decide) ?_ EditLines.nil
  refine Body.block (tr := " DATA SETS RESULT TIME BIN : 1\n".toList) (e := rec6) (vl := [[z, o, o, o, o, o]].map numLine) (v := z) (vs := [o, o, o, o, o])
    (by decide +kernel) (nums (by decide) (by decide)) rec_ok ?_
  refine Body.filler (by decide +kernel) ?_
  refine Body.block (tr := " DATA SETS REL ERROR TIME BIN : 1\n".toList) (e := rec6) (vl := [[z, u, u, u, u, u]].map numLine) (v := z) (vs := [u, u, u, u, u])
    (by decide +kernel) (nums (by decide) (by decide)) rec_ok ?_
  exact Body.nil

theorem info_layout : InfoLines text.info nums6 := by
  refine ⟨?_, by decide, ⟨_, _, rfl, by decide⟩, ⟨_, (text.info).dropLast, (List.dropLast_append_getLast (by decide)).symm, by decide, by decide⟩⟩
  unfold text nums6
  simp only [List.map_cons, List.map_nil]
  repeat' apply List.Forall₂.cons
  all_goals first | exact List.Forall₂.nil | exact ⟨3, 9, rfl, by decide, by decide, by decide⟩

/-- the layout is met -/
theorem layout : Layout (some : Str → Option Str) text data 4 nums6 where
  head := by decide
  info := info_layout
  nMat := by decide
  nPart := by decide
  nNodes := by decide
  nTets1 := by decide
  nTets2 := by decide
  nodes := by decide
  some := by decide
  particlesOnce := by decide +kernel
  particles := ⟨12, rfl, by decide⟩
  materialsOnce := by decide +kernel
  materials := by
    refine List.Forall₂.cons ⟨3, by decide, by decide, by decide, by decide⟩ (List.Forall₂.cons ⟨0, by decide, by decide, by decide, by decide⟩ List.Forall₂.nil)
  front := by decide +kernel
  xs := nums (by decide) (by decide)
  ys := nums (by decide) (by decide)
  zs := nums (by decide) (by decide)
  records := ⟨rec_ok, rec_ok, rec_ok, rec_ok, rec_ok, rec_ok⟩
  types := by decide +kernel
  mats := ⟨[[1, 1, 1, 1, 1]], rfl, by decide, rfl⟩
  connHead := by decide
  conn := ⟨[[1, 2, 3, 4], [1, 5, 3, 4], [1, 2, 3, 5], [2, 3, 4, 5], [1, 2, 4, 5]], rfl, by decide, rfl⟩
  neighHead := by decide +kernel
  d := by decide +kernel
  edits := edit_layout
  centHead := by decide
  e := by decide +kernel
  density := nums (by decide) (by decide)
  volume := nums (by decide) (by decide)
  elements := by decide
  names := by decide
  blocks := by decide
  sizes := by decide

/-- the values of the elements are on the points -/
example : ∃ g, readFile (some : Str → Option Str) text.lines = .ok g ∧ g.material.2 = .points := by
  obtain ⟨g, h1, h2, _⟩ := read_on_points layout (by decide)
  exact ⟨g, h1, h2⟩

end Equal

/-! ### an element of second order -/

namespace Quad

/-- the edit (example) -/
def edit : Edit Str := ⟨1, 1, "FLUX_1".toList, [(.values, [o]), (.errors, [u])]⟩

/-- what the file says (example) -/
def data : Data Str where
  materials := ["steel".toList, "water 2".toList]
  particles := [1]
  points := [(z, z, z), (z, o, u), (z, u, o), (o, z, z), (o, o, u), (o, u, o), (u, z, z), (u, o, u), (u, u, o), (z, z, z)]
  elements := [[1, 2, 3, 4, 5, 6, 7, 8, 9, 10]]
  elemMats := [1]
  edits := [edit]
  density := [o]
  volume := [z]

/-- the numbers of the head (example) -/
def nums6 : List (Str × ℕ) :=
  [("NUMBER OF PARTICLES".toList, 1), ("NUMBER OF NODES".toList, 10), ("NUMBER OF MATERIALS".toList, 2), ("NUMBER OF 1st TETS".toList, 0),
    ("NUMBER OF 2nd TETS".toList, 1), ("NUMBER OF EDITS".toList, 1)]

/-- the lines of the edit (example) -/
def editText : List Str :=
  editHead 1 1 "FLUX_1".toList :: ([" DATA SETS RESULT TIME BIN : 1\n".toList, numLine [z, o], rec6,
    " TOTALS\n".toList, " DATA SETS REL ERROR TIME BIN : 1\n".toList, numLine [z, u], rec6] ++ [])

/-- `text` (example) -/
def text : Text where
  head := [" EEOUT\n".toList]
  info := nums6.map (fun x => ' ' :: x.1 ++ List.replicate 3 ' ' ++ ':' :: List.replicate 9 ' ' ++ natStr x.2 ++ ['\n'])
  a := [rec6]
  particles := intLine 12 [1]
  b := [rec6]
  materials := ["steel   \n".toList, "water 2\n".toList]
  c := [rec6]
  xs := [[z, z, z, o, o, o, u, u, u, z]].map numLine
  r1 := rec6
  ys := [[z, o, u, z, o, u, z, o, u, z]].map numLine
  r2 := rec6
  zs := [[z, u, o, z, u, o, z, u, o, z]].map numLine
  r3 := rec6
  types := [intLine 8 [1, 1], rec6]
  mats := [intLine 8 [1]]
  r4 := rec6
  connHead := " CONNECTIVITY DATA 1ST ORDER TETS ELEMENT ORDERED\n".toList
  conn := [intLine 12 [1, 2, 3, 4, 5, 6, 7, 8, 9, 10]]
  r5 := rec6
  neighHead := " NEAREST NEIGHBOR DATA 1ST ORDER TETS\n".toList
  d := [intLine 12 [0, 0, 0, 2], rec6]
  edits := editText
  centHead := " CENTROIDS X (cm)\n".toList
  e := [numLine [z, z], rec6]
  density := [[o]].map numLine
  r6 := rec6
  volume := [[z]].map numLine

theorem edit_layout : EditLines (some : Str → Option Str) editText [edit] := by
  refine EditLines.cons (e := edit) (by decide) (by decide) ?_ EditLines.nil
  refine Body.block (tr := " DATA SETS RESULT TIME BIN : 1\n".toList) (e := rec6) (vl := [[z, o]].map numLine) (v := z) (vs := [o])
    (by decide +kernel) (nums (by decide) (by decide)) rec_ok ?_
  refine Body.filler (by decide +kernel) ?_
  refine Body.block (tr := " DATA SETS REL ERROR TIME BIN : 1\n".toList) (e := rec6) (vl := [[z, u]].map numLine) (v := z) (vs := [u])
    (by decide +kernel) (nums (by decide) (by decide)) rec_ok ?_
  exact Body.nil

theorem info_layout : InfoLines text.info nums6 := by
  refine ⟨?_, by decide, ⟨_, _, rfl, by decide⟩, ⟨_, (text.info).dropLast, (List.dropLast_append_getLast (by decide)).symm, by decide, by decide⟩⟩
  unfold text nums6
  simp only [List.map_cons, List.map_nil]
  repeat' apply List.Forall₂.cons
  all_goals first | exact List.Forall₂.nil | exact ⟨3, 9, rfl, by decide, by decide, by decide⟩

/-- the layout is met -/
theorem layout : Layout (some : Str → Option Str) text data 10 nums6 where
  head := by decide
  info := info_layout
  nMat := by decide
  nPart := by decide
  nNodes := by decide
  nTets1 := by decide
  nTets2 := by decide
  nodes := by decide
  some := by decide
  particlesOnce := by decide +kernel
  particles := ⟨12, rfl, by decide⟩
  materialsOnce := by decide +kernel
  materials := by
    refine List.Forall₂.cons ⟨3, by decide, by decide, by decide, by decide⟩ (List.Forall₂.cons ⟨0, by decide, by decide, by decide, by decide⟩ List.Forall₂.nil)
  front := by decide +kernel
  xs := nums (by decide) (by decide)
  ys := nums (by decide) (by decide)
  zs := nums (by decide) (by decide)
  records := ⟨rec_ok, rec_ok, rec_ok, rec_ok, rec_ok, rec_ok⟩
  types := by decide +kernel
  mats := ⟨[[1]], rfl, by decide, rfl⟩
  connHead := by decide
  conn := ⟨[[1, 2, 3, 4, 5, 6, 7, 8, 9, 10]], rfl, by decide, rfl⟩
  neighHead := by decide +kernel
  d := by decide +kernel
  edits := edit_layout
  centHead := by decide
  e := by decide +kernel
  density := nums (by decide) (by decide)
  volume := nums (by decide) (by decide)
  elements := by decide
  names := by decide
  blocks := by decide
  sizes := by decide

/-- a cell with ten nodes has the type with four -/
example : ∃ g, readFile (some : Str → Option Str) text.lines = .ok g ∧ vtkNodes g.cellType = some 4 ∧ ∀ c ∈ g.cells, c.length - 1 = 10 :=
  quadratic_type layout

end Quad

/-- only the last block of a kind is kept -/
example : ({ data with edits := [⟨1, 1, "X".toList, [(.values, [o, o]), (.values, [z, z]), (.errors, [o, o])]⟩] } : Data Str).grid 4 =
    ({ data with edits := [⟨1, 1, "X".toList, [(.values, [z, z]), (.errors, [o, o])]⟩] } : Data Str).grid 4 :=
  bins_lost (k := 1) (by
    intro e he w
    rw [List.mem_singleton.1 he]
    cases w
    · exact ⟨(.values, [z, z]), by decide, rfl⟩
    · exact ⟨(.errors, [o, o]), by decide, rfl⟩)

end Ex
end F4Enix.Eeout
