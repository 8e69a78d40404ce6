import Verif.Out.MeshFileSrc
/-!
# Concrete mesh tally files (C163 - C169)
-/
namespace F4Enix.MeshFile
open F4Enix F4Enix.Mesh F4Enix.Find

instance (l : Str) : Decidable (Visible l) := inferInstanceAs (Decidable (∃ c ∈ l, c ≠ ' ' ∧ c ≠ '\n'))
instance (num : ParseNum) (s : Str) (qs : List ℚ) : Decidable (ShowsNums num s qs) := inferInstanceAs (Decidable ((tokens s).map num = qs.map some))
deriving instance DecidableEq for Vec

/-- lines with their line ends (proof) -/
def fileOf (l : List String) : List Str := l.map (fun s => s.toList ++ ['\n'])

/-- a line with its line end (proof) -/
def ln (s : String) : Str := s.toList ++ ['\n']

/-- tally 4: two by one by one voxels, one energy bin, column format (example) -/
def tally4 : TallyText where
  first := ln " Mesh Tally Number         4"
  comment := [ln " flux in the port"]
  kind := ln " This is a neutron mesh tally."
  more := []
  gap := ln ""
  title := ln " Tally bin boundaries:"
  bins := fileOf ["    X direction:   0  1  2", "    Y direction:   0  5", "    Z direction:   0  3", "    Energy bin boundaries:  0 9"]
  gap2 := ln "  "
  data := fileOf ["   X  Y  Z  Result  Rel Error", " 0 2 1  7 1", " 1 2 1  8 2", ""]

/-- tally 14: the same mesh in a matrix format, no comments (example) -/
def tally14 : TallyText where
  first := ln " Mesh Tally Number        14"
  comment := []
  kind := ln " This is a photon mesh tally."
  more := [ln " This mesh tally is modified by a dose function"]
  gap := ln ""
  title := ln " Tally bin boundaries:"
  bins := fileOf ["    X direction:   0  1  2", "    Y direction:   0  5", "    Z direction:   0  3", "    Energy bin boundaries:  0 9"]
  gap2 := ln ""
  data := fileOf ["  Energy Bin: 0 - 9 MeV", "", "    Z bin: 0 - 3", "  Tally Results:  X (across) by Y (down)", "        0  1", "", "   2    4  5",
    "", "  Relative Errors", "  ", "   2    1  3", "", "", ""]

/-- `tallies` (example) -/
def tallies : List (Nat × TallyText) := [(14, tally14), (4, tally4)]

/-- `theFile` (example) -/
def theFile : List Str := fileOf ["mcnp   version 6", "probid", "Number of histories = 9", ""] ++ allLines tallies

theorem isTally4 : IsTally 4 tally4 where
  first := ⟨9, by decide, by decide⟩
  comment := by decide +kernel
  kind := by decide +kernel
  more := by decide +kernel
  gap := ⟨0, by decide⟩
  title := by decide +kernel
  bins := by decide +kernel
  gap2 := ⟨2, by decide⟩
  data := by decide +kernel

theorem isTally14 : IsTally 14 tally14 where
  first := ⟨8, by decide, by decide⟩
  comment := by decide +kernel
  kind := by decide +kernel
  more := by decide +kernel
  gap := ⟨0, by decide⟩
  title := by decide +kernel
  bins := by decide +kernel
  gap2 := ⟨0, by decide⟩
  data := by decide +kernel

theorem isFile : IsFile tallies theFile where
  tallies := by
    intro x hx
    simp only [tallies, List.mem_cons, List.not_mem_nil, or_false] at hx
    rcases hx with rfl | rfl
    · exact isTally14
    · exact isTally4
  pre := ⟨_, rfl, by decide +kernel⟩

/-- the bins of both tallies (example) -/
def theBounds : Bounds :=
  ⟨false, none, [0, 1, 2], [0, 5], [0, 3], { data := [0, 9], tag := .erg }, noTime⟩

theorem showsBounds4 : ShowsBounds digit theBounds tally4.bins :=
  ⟨[], ln "    X direction:   0  1  2", ln "    Y direction:   0  5", ln "    Z direction:   0  3", [ln "    Energy bin boundaries:  0 9"],
    "    X direction".toList, "    Y direction".toList, "    Z direction".toList, rfl, .flat,
    ⟨by decide, ln "   0  1  2", by decide, by decide +kernel⟩, ⟨by decide, ln "   0  5", by decide, by decide +kernel⟩,
    ⟨by decide, ln "   0  3", by decide, by decide +kernel⟩,
    .one ⟨rfl, "    Energy bin boundaries".toList, (by decide +kernel : "Energy".toList <:+: "    Energy bin boundaries".toList), by decide,
      ln "  0 9", by decide, by decide +kernel⟩ (by decide +kernel), fun _ => by decide +kernel⟩

theorem usableBounds : Usable theBounds := ⟨by decide, by decide, by decide, by decide⟩

/-- the values of tally 4 (example) -/
def values4 (_ _ _ _ k1 : Nat) : ℚ × ℚ := if k1 = 0 then (7, 1) else (8, 2)

/-- the values of tally 14 (example) -/
def values14 (_ _ _ _ k1 : Nat) : ℚ × ℚ := if k1 = 0 then (4, 1) else (5, 3)

theorem tally4_data : tally4.data = ln "   X  Y  Z  Result  Rel Error" :: fileOf [" 0 2 1  7 1", " 1 2 1  8 2", ""] := rfl

/-- the lines of tally 4 without the empty one behind them (example) -/
def tally4' : TallyText := { tally4 with data := fileOf ["   X  Y  Z  Result  Rel Error", " 0 2 1  7 1", " 1 2 1  8 2"] }

theorem isTally4' : IsTally 4 tally4' := { isTally4 with data := by decide +kernel }

theorem showsValues4 : ShowsValues digit theBounds values4 tally4'.data := by
  refine .column (title := ln "   X  Y  Z  Result  Rel Error") (ls := fileOf [" 0 2 1  7 1", " 1 2 1  8 2"]) (by decide +kernel) (by decide) ?_
  intro t e k3 k2 k1 ht he h3 h2 h1
  have n1 : t = 0 := by have : theBounds.nt = 1 := by decide
                        omega
  have n2 : e = 0 := by have : theBounds.ne = 1 := by decide
                        omega
  have n3 : k3 = 0 := by have : theBounds.n3 = 1 := by decide
                         omega
  have n4 : k2 = 0 := by have : theBounds.n2 = 1 := by decide
                         omega
  have n5 : k1 < 2 := h1
  subst n1 n2 n3 n4
  rcases (show k1 = 0 ∨ k1 = 1 by omega) with rfl | rfl
  · exact ⟨["0".toList, "2".toList, "1".toList], "7".toList, "1".toList, by decide, by decide +kernel, by decide +kernel⟩
  · exact ⟨["1".toList, "2".toList, "1".toList], "8".toList, "2".toList, by decide, by decide +kernel, by decide +kernel⟩

theorem showsValues14 : ShowsValues digit theBounds values14 tally14.data := by
  refine .matrix (o := .ij) (by decide +kernel) (by decide +kernel) (by decide) (by decide +kernel : "Z bin".toList <:+: ln "    Z bin: 0 - 3") rfl (by decide) ?_
  refine ⟨[tally14.data], by decide, by simp, ?_⟩
  intro e he
  have : e = 0 := by have : theBounds.ne = 1 := by decide
                     omega
  subst this
  refine ⟨fileOf ["  Energy Bin: 0 - 9 MeV", ""], fileOf ["    Z bin: 0 - 3", "  Tally Results:  X (across) by Y (down)", "        0  1", "", "   2    4  5",
    "", "  Relative Errors", "  ", "   2    1  3", "", ""], fileOf [""], by decide, rfl, rfl, ?_⟩
  refine ⟨[fileOf ["    Z bin: 0 - 3", "  Tally Results:  X (across) by Y (down)", "        0  1", "", "   2    4  5",
    "", "  Relative Errors", "  ", "   2    1  3", "", ""]], by decide, by simp, ?_⟩
  intro p hp
  have : p = 0 := by have : (blockShape .ij theBounds.n3 theBounds.n2 theBounds.n1).1 = 1 := by decide
                     omega
  subst this
  refine ⟨fileOf ["    Z bin: 0 - 3", "  Tally Results:  X (across) by Y (down)", "        0  1", ""], fileOf ["   2    4  5"],
    fileOf ["", "  Relative Errors", "  "], fileOf ["   2    1  3"], fileOf ["", ""], by decide, rfl, rfl, rfl, ⟨rfl, ?_⟩, ⟨rfl, ?_⟩⟩
  · intro i hi
    have : i = 0 := by have : (blockShape .ij theBounds.n3 theBounds.n2 theBounds.n1).2.1 = 1 := by decide
                       omega
    subst this
    exact ⟨"2".toList, ["4".toList, "5".toList], by decide, by decide +kernel⟩
  · intro i hi
    have : i = 0 := by have : (blockShape .ij theBounds.n3 theBounds.n2 theBounds.n1).2.1 = 1 := by decide
                       omega
    subst this
    exact ⟨"2".toList, ["1".toList, "3".toList], by decide, by decide +kernel⟩

theorem showsBounds14 : ShowsBounds digit theBounds tally14.bins := showsBounds4

/-- a file with both tallies meets all the hypotheses of `read_file` -/
example (cs sn : ℚ → ℚ) (junk : Data) : ∃ d m, scan .outside (fileOf ["mcnp", ""] ++ allLines [(14, tally14), (4, tally4')]) [] = .ok d ∧
    afterRead (getFMesh cs sn digit junk d) (meshList d) [] .none = (m, none) ∧
    (∃ r, Dict.get? m 4 = some r ∧ ReadAs cs sn theBounds values4 tally4' r) ∧
    (∃ r, Dict.get? m 14 = some r ∧ ReadAs cs sn theBounds values14 tally14 r) := by
  obtain ⟨d, m, h1, h2, h3, _⟩ := read_file cs sn (num := digit) junk (ts := [(14, tally14), (4, tally4')]) (file := fileOf ["mcnp", ""] ++ allLines [(14, tally14), (4, tally4')])
    ⟨by
      intro x hx
      simp only [List.mem_cons, List.not_mem_nil, or_false] at hx
      rcases hx with rfl | rfl
      · exact isTally14
      · exact isTally4', _, rfl, by decide +kernel⟩ (by decide) (b := fun _ => theBounds) (v := fun n => if n = 4 then values4 else values14) (by
      intro x hx
      simp only [List.mem_cons, List.not_mem_nil, or_false] at hx
      rcases hx with rfl | rfl
      · exact ⟨showsBounds14, usableBounds, showsValues14⟩
      · exact ⟨showsBounds4, usableBounds, showsValues4⟩) []
  refine ⟨d, m, h1, h2, ?_, ?_⟩
  · exact h3 (4, tally4') (by simp)
  · exact h3 (14, tally14) (by simp)

/-- the names are sorted as strings, the numbers as numbers -/
example : (scan .outside theFile []).toOption.map meshList = some ["14".toList, "4".toList] := by decide +kernel
example : (scan .outside theFile []).toOption.bind (fun d => (meshIds (meshList d)).toOption) = some [4, 14] := by decide +kernel

/-- the values of tally 4, then of tally 14 -/
example : (scan .outside theFile []).toOption.bind (fun d => (getFMesh id id digit (fun _ => (0, 0)) d "4".toList).toOption.map
    (fun r => (r.particle, r.comments, r.fm.mesh.x1, [r.fm.mesh.data [0, 0, 0, 0, 0], r.fm.mesh.data [0, 0, 0, 0, 1]]))) =
  some (some "neutron".toList, some (ln " flux in the port"), [0, 1, 2], [(7, 1), (8, 2)]) := by decide +kernel

example : (scan .outside theFile []).toOption.bind (fun d => (getFMesh id id digit (fun _ => (0, 0)) d "14".toList).toOption.map
    (fun r => (r.particle, r.comments, r.fm.mesh.x1, [r.fm.mesh.data [0, 0, 0, 0, 0], r.fm.mesh.data [0, 0, 0, 0, 1]]))) =
  some (some "photon".toList, none, [0, 1, 2], [(4, 1), (5, 3)]) := by decide +kernel

/-- a number the file does not have -/
example : (scan .outside theFile []).toOption.map (fun d => (getFMesh id id digit (fun _ => (0, 0)) d "24".toList).toOption.isSome) = some false := by
  decide +kernel

/-- C165: the values seven and eight with errors one and two, volume five: value and error read are the volume and the product (example) -/
def tallyCf : TallyText :=
  { tally4 with data := fileOf ["   X  Y  Z  Result  Rel Error  Volume  Rslt * Vol", " 0 2 1  1 1 5 5", " 1 2 1  0 2 5 0"] }

theorem showsCf : ShowsColumnsCf digit theBounds (fun _ _ _ _ k => if k = 0 then (1, 1) else (0, 2)) (fun _ _ _ _ k => if k = 0 then (5, 5) else (5, 0)) tallyCf.data := by
  refine ⟨ln "   X  Y  Z  Result  Rel Error  Volume  Rslt * Vol", fileOf [" 0 2 1  1 1 5 5", " 1 2 1  0 2 5 0"], rfl, by decide +kernel, by decide +kernel, by decide, ?_⟩
  intro t e k3 k2 k1 ht he h3 h2 h1
  have n1 : t = 0 := by have : theBounds.nt = 1 := by decide
                        omega
  have n2 : e = 0 := by have : theBounds.ne = 1 := by decide
                        omega
  have n3 : k3 = 0 := by have : theBounds.n3 = 1 := by decide
                         omega
  have n4 : k2 = 0 := by have : theBounds.n2 = 1 := by decide
                         omega
  have n5 : k1 < 2 := h1
  subst n1 n2 n3 n4
  rcases (show k1 = 0 ∨ k1 = 1 by omega) with rfl | rfl
  · exact ⟨["0".toList, "2".toList, "1".toList], "1".toList, "1".toList, "5".toList, "5".toList, by decide, by decide +kernel, by decide +kernel, by decide +kernel, by decide +kernel⟩
  · exact ⟨["1".toList, "2".toList, "1".toList], "0".toList, "2".toList, "5".toList, "0".toList, by decide, by decide +kernel, by decide +kernel, by decide +kernel, by decide +kernel⟩

example : (getFMesh id id digit (fun _ => (0, 0)) (catalog [(4, tallyCf)] []) "4".toList).toOption.map
    (fun r => [r.fm.mesh.data [0, 0, 0, 0, 0], r.fm.mesh.data [0, 0, 0, 0, 1]]) = some [(5, 5), (5, 0)] := by decide +kernel

/-- C166: a comment with the words by which the head ends: the tally of photons is read as one of neutrons and the rest of the comments is lost -/
example : (header (fileOf [" Mesh Tally Number 4", " first", " compare with the neutron mesh tally.", " second", " This is a photon mesh tally.", ""])).toOption =
  some ("neutron".toList, some (ln " first")) := by decide +kernel

/-- C166: without those words the loop does not end -/
example : (match header (fileOf [" Mesh Tally Number 4", " source importance", ""]) with | .error .diverges => true | _ => false) = true := by decide +kernel

/-- a cylinder as MCNP6 writes it: its place and bins -/
example : (boundaries digit (fileOf ["  Cylinder origin at   1  2  3 axis in  0 0 1 direction, VEC direction  1 0 0", "  R direction:  0 1 2", "  Z direction: 0 1",
    "  Theta direction (revolutions): 0 1", "  Energy bin boundaries: 0 9", ""])).toOption.map (fun r => (r.1.cyl, r.1.place.map (fun p => [p.trsf.origin, p.axis, p.vec.getD Vec.zero]), r.1.x1)) =
  some (true, some [⟨1, 2, 3⟩, ⟨0, 0, 1⟩, ⟨1, 0, 0⟩], [0, 1, 2]) := by decide +kernel

/-- times and energies: the first list is the time -/
example : (boundaries digit (fileOf ["  X direction:  0 1 2", "  Y direction: 0 1", "  Z direction: 0 1", "  Time bin boundaries: 0 1 2", "  Energy bin boundaries: 0 9", ""])).toOption.map
    (fun r => (r.1.tbin, r.1.ebin)) = some ({ data := [0, 1, 2], tag := .tme }, { data := [0, 9], tag := .erg }) := by decide +kernel

/-- C168: a cell-under-voxel file with two voxels (example) -/
def cuvTally : TallyText where
  first := ln " Mesh Tally Number        44"
  comment := []
  kind := ln " This is a neutron cell-under-voxel mesh tally."
  more := []
  gap := ln ""
  title := ln " Tally bin boundaries:"
  bins := fileOf ["    X direction:   0  1  2", "    Y direction:   0  5", "    Z direction:   0  3", "    Energy bin number:  1", "    Energy bin boundaries:  0 9"]
  gap2 := ln ""
  data := fileOf ["  INDEX X Y Z Volume ncel", " 1 0 2 1 5 1", "  7 1", " 4", " 2", " 2 1 2 1 5 1", "  8 1", " 6", " 3"]

/-- `voxelCell` (proof) -/
def voxelCell (p : Nat) : VCell := if p = 0 then ⟨7, 1, [4], [2]⟩ else ⟨8, 1, [6], [3]⟩

theorem isCuvTally : IsCuvTally digit 44 theBounds (fun _ => 5) (fun p => [voxelCell p]) cuvTally where
  tally :=
    { first := ⟨8, by decide, by decide⟩
      comment := by decide +kernel
      kind := by decide +kernel
      more := by decide +kernel
      gap := ⟨0, by decide⟩
      title := by decide +kernel
      bins := by decide +kernel
      gap2 := ⟨0, by decide⟩
      data := by decide +kernel }
  title := by decide +kernel
  before := by
    intro l hl
    rcases hl with hl | rfl | hl
    · simp [cuvTally] at hl
    · decide +kernel
    · simp [cuvTally] at hl
  bins := ⟨[], ln "    X direction:   0  1  2", ln "    Y direction:   0  5", ln "    Z direction:   0  3",
    [ln "    Energy bin number:  1", ln "    Energy bin boundaries:  0 9"],
    "    X direction".toList, "    Y direction".toList, "    Z direction".toList, rfl, .flat,
    ⟨by decide, ln "   0  1  2", by decide, by decide +kernel⟩, ⟨by decide, ln "   0  5", by decide, by decide +kernel⟩,
    ⟨by decide, ln "   0  3", by decide, by decide +kernel⟩,
    .counted (by decide +kernel) (Or.inl ⟨_, rfl, ⟨rfl, "    Energy bin boundaries".toList, (by decide +kernel : "Energy".toList <:+: "    Energy bin boundaries".toList), by decide,
      ln "  0 9", by decide, by decide +kernel⟩, rfl⟩), fun _ => by decide +kernel⟩
  noTimes := rfl
  usable := usableBounds
  data := by
    refine ⟨ln "  INDEX X Y Z Volume ncel", fileOf [" 1 0 2 1 5 1", "  7 1", " 4", " 2", " 2 1 2 1 5 1", "  8 1", " 6", " 3"], [], by decide, ?_⟩
    refine ⟨[fileOf [" 1 0 2 1 5 1", "  7 1", " 4", " 2"], fileOf [" 2 1 2 1 5 1", "  8 1", " 6", " 3"]], by decide, by decide, ?_⟩
    intro i hi
    have : i < 2 := hi
    rcases (show i = 0 ∨ i = 1 by omega) with rfl | rfl
    · refine ⟨⟨ln " 1 0 2 1 5 1", [ln "  7 1"], [(ln " 4", ln " 2")], rfl, ⟨"5".toList, by decide, by decide +kernel⟩, ⟨"1".toList, by decide, by decide +kernel⟩, ?_, ?_⟩,
        by decide, 1, "1".toList, by decide, by decide +kernel⟩
      · exact .cons ⟨⟨"7".toList, by decide, by decide +kernel⟩, ⟨"1".toList, by decide, by decide +kernel⟩⟩ .nil
      · exact ⟨Or.inl (by decide +kernel), .cons ⟨by unfold Line; decide +kernel, by unfold Line; decide +kernel⟩ .nil⟩
    · refine ⟨⟨ln " 2 1 2 1 5 1", [ln "  8 1"], [(ln " 6", ln " 3")], rfl, ⟨"5".toList, by decide, by decide +kernel⟩, ⟨"1".toList, by decide, by decide +kernel⟩, ?_, ?_⟩,
        by decide, 2, "2".toList, by decide, by decide +kernel⟩
      · exact .cons ⟨⟨"8".toList, by decide, by decide +kernel⟩, ⟨"1".toList, by decide, by decide +kernel⟩⟩ .nil
      · exact ⟨Or.inl (by decide +kernel), .cons ⟨by unfold Line; decide +kernel, by unfold Line; decide +kernel⟩ .nil⟩

/-- all the hypotheses of `cuv_tally_exact_partial` are met; the first voxel has the value four -/
example (cs sn : ℚ → ℚ) (junk : Data) : ∃ d r m, scanCuv digit 99 (fileOf ["d1sune", ""] ++ allLines [(44, cuvTally)]) [] = .ok d ∧
    getCuv cs sn digit junk .celf none d (natStr 44) = .ok r ∧ r.particle = some (particleOf cuvTally.kind) ∧
    mkFmesh cs sn (theBounds.mesh m) none none = .ok r.fm ∧ (m [0, 0, 0, 0, 0]).1 = 4 ∧ (m [0, 0, 0, 0, 1]).1 = 6 := by
  obtain ⟨d, r, m, h1, h2, h3, _, h5, _, h7⟩ := cuv_tally_exact_partial cs sn (num := digit) junk .celf (by decide) none (pre := []) (post := []) (n := 44) (t := cuvTally)
    (file := fileOf ["d1sune", ""] ++ allLines [(44, cuvTally)])
    ⟨by
      intro x hx
      simp only [List.nil_append, List.mem_cons, List.not_mem_nil, or_false] at hx
      subst hx
      exact isCuvTally.tally, _, rfl, by decide +kernel⟩
    (by
      intro x hx
      simp only [List.nil_append, List.mem_cons, List.not_mem_nil, or_false] at hx
      subst hx
      exact ⟨_, _, _, isCuvTally⟩) (by simp) isCuvTally
    (by
      intro p hp
      constructor
      · by_cases h : p = 0 <;> simp [voxelCell, h]
      · intro c hc
        rw [List.mem_singleton] at hc
        subst hc
        by_cases h : p = 0
        · rw [voxelCell, if_pos h]; decide
        · rw [voxelCell, if_neg h]; decide
      · intro _ c hc
        rw [List.mem_singleton] at hc
        subst hc
        by_cases h : p = 0 <;> simp [voxelCell, h]) (k := 99) (by decide)
  refine ⟨d, r, m, h1, h2, h5, h3, ?_, ?_⟩
  · have := (h7 0 0 0 0 (by decide) (by decide) (by decide) (by decide)).2 (by simp)
    rw [this.1]
    simp [voxelValue, weighted, selected, voxelCell]
  · have := (h7 0 0 0 1 (by decide) (by decide) (by decide) (by decide)).2 (by simp)
    rw [this.1]
    simp [voxelValue, weighted, selected, voxelCell, Bounds.n2, Bounds.n3, theBounds]

/-- with times the file is refused -/
example : (match scanCuv digit 99 (fileOf ["d1sune", ""] ++ { cuvTally with bins := fileOf ["    X direction:   0  1  2", "    Y direction:   0  5",
    "    Z direction:   0  3", "    Time bin boundaries: 0 1", "    Energy bin boundaries:  0 9"] }.lines) [] with | .error .valueError => true | _ => false) = true := by decide +kernel

/-- C169: a source file (proof) -/
def srcFile (place : String) : List Str := fileOf ["num_meshes 1", "total_source 5", "mesh_id 1", "CDGS", "cooling_time 0", "mesh_source 5", "energy_type bins", "energy_boundaries 2",
  " 0 9", "mesh_type rec", "mesh_boundaries 3 2 2", place, " 0 1 2", " 0 5", " 0 3", "source_data", "2 5 1", "7 1", "4", "2", "end_source_data"]

/-- the place: origin, then the directions of the axes (proof) -/
def placeLine (o : String) : String := "    " ++ o ++ "                                   " ++ "     1 0 0                                 " ++ "    0 1 0"

example : (scanCdgs digit (srcFile (placeLine "0 0 0"))).toOption.bind (fun d => (getCdgs id id digit (fun _ => (9, 9)) d "1".toList).toOption.map
    (fun r => (r.comments, r.source, r.fm.mesh.x1, [r.fm.mesh.data [0, 0, 0, 0, 0], r.fm.mesh.data [0, 0, 0, 0, 1]]))) =
  some (some (ln "CDGS"), some (0, 5), [0, 1, 2], [(0, 0), (4, 2)]) := by decide +kernel

/-- moved from the origin -/
example : (match scanCdgs digit (srcFile (placeLine "1 0 0")) with
  | .ok d => (match getCdgs id id digit (fun _ => (9, 9)) d "1".toList with | .error .unboundLocal => true | _ => false)
  | .error _ => false) = true := by decide +kernel

/-- the source of that file (example) -/
def theSource : SrcText where
  id := ln "mesh_id 1"
  comment := ln "CDGS"
  cooling := ln "cooling_time 0"
  strength := ln "mesh_source 5"
  etype := ln "energy_type bins"
  ecount := ln "energy_boundaries 2"
  energies := [ln " 0 9"]
  geom := ln "mesh_type rec"
  counts := ln "mesh_boundaries 3 2 2"
  place := ln (placeLine "0 0 0")
  x1 := [ln " 0 1 2"]
  x2 := [ln " 0 5"]
  x3 := [ln " 0 3"]
  start := ln "source_data"
  data := fileOf ["2 5 1", "7 1", "4", "2"]
  stop := ln "end_source_data"

instance (l : Str) (i : Nat) (w : Str) : Decidable (Word l i w) := inferInstanceAs (Decidable ((tokens l)[i]? = some w))

theorem theSource_marked : Marked 1 theSource where
  id := by decide +kernel
  head := by decide +kernel
  start := by decide +kernel
  data := by decide +kernel
  stop := by decide +kernel

theorem theSource_is : IsSource digit 1 theBounds 0 5 [(2, [⟨7, 1, [4], [2]⟩])] theSource where
  head :=
    { id := by decide +kernel
      cooling := ⟨"0".toList, by decide, by decide +kernel⟩
      strength := ⟨"5".toList, by decide, by decide +kernel⟩
      etype := ⟨"bins".toList, by decide +kernel, by decide⟩
      explicit := rfl
      ecount := ⟨"2".toList, by decide, by decide +kernel⟩
      energies := ⟨by decide +kernel, by decide +kernel⟩ }
  geom := .box (o := ⟨0, 0, 0⟩) (x := ⟨1, 0, 0⟩) (y := ⟨0, 1, 0⟩) (by decide +kernel)
    ⟨by decide +kernel, by decide +kernel, by decide +kernel⟩ (by simp [getTransformationRec, Vec.dot])
  counts := by decide +kernel
  x1 := ⟨by decide +kernel, by decide +kernel⟩
  x2 := ⟨by decide +kernel, by decide +kernel⟩
  x3 := ⟨by decide +kernel, by decide +kernel⟩
  noTimes := rfl
  usable := usableBounds
  values := by
    refine .voxel 2 [⟨7, 1, [4], [2]⟩] [] (fileOf ["2 5 1", "7 1", "4", "2"]) [ln "end_source_data"] ?_ ?_ (.done _ [] [] (by decide))
    · refine ⟨ln "2 5 1", fileOf ["7 1", "4", "2"], rfl, ⟨"2".toList, [], "5".toList, "1".toList, by decide, by decide, by decide +kernel, ⟨5, by decide +kernel⟩, by decide +kernel⟩, ?_⟩
      refine ⟨[fileOf ["7 1", "4", "2"]], rfl, by simp, ?_⟩
      intro i hi
      have : i = 0 := by simpa using hi
      subst this
      exact ⟨ln "7 1", [ln "4"], [ln "2"], [4], [2], rfl, ⟨"7".toList, by decide, by decide +kernel⟩, ⟨"1".toList, by decide, by decide +kernel⟩,
        by decide, by decide, ⟨by decide +kernel, by decide +kernel⟩, ⟨by decide +kernel, by decide +kernel⟩, Or.inl ⟨by decide, rfl, rfl⟩⟩
    · exact ⟨by simp [weighted], by simp; decide⟩
  ascending := by simp
  positive := by simp

/-- the file with that source meets the hypotheses of `source_exact_partial` -/
example : IsSrcFile digit [(1, theSource)] (fileOf ["num_meshes 1", "total_source 5"] ++ theSource.lines) where
  marked := by
    intro x hx
    rw [List.mem_singleton] at hx
    subst hx
    exact theSource_marked
  lines := ⟨_, _, [], 5, by simp [srcLines, fileOf]; exact ⟨rfl, rfl⟩, ⟨"1".toList, by decide, by decide +kernel⟩, ⟨"5".toList, by decide, by decide +kernel⟩⟩

end F4Enix.MeshFile
