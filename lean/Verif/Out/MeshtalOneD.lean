import Verif.Out.MeshtalGridProps
/-!
# What is lost in the conversion of one-dimensional meshes (C71)

The code takes a cylinder with two angular bins for a full circle that was split for the drawing, and it never looks at the times.
-/
namespace F4Enix.Mesh
open F4Enix

/-- **C71 (energies).** The frame of a mesh with several energies (and their total) and one spatial bin - or a cylinder with two angular
bins - holds the values of the first angular bin and of the first time, whatever the others are. -/
theorem convert_energies {f : FMesh} (h1 : f.mesh.nx1 = 1) (h2 : f.mesh.nx2 = 1)
    (h3 : f.mesh.nx3 = 1 ∨ (f.mesh.cyl = true ∧ f.mesh.nx3 = 2)) (he : 2 < f.mesh.ebin.data.length)
    (htot : f.mesh.ebin.data.length = f.mesh.ne) :
    ∃ vals errs, convert2tally f = .ok ("Energy".toList, f.mesh.ebin.data.tail, vals, errs) ∧
      RowsAre f.mesh (f.mesh.ne - 1) f.mesh.ebin.data (fun i => [0, i, 0, 0, 0]) f.mesh.ebin.data.tail vals errs := by
  refine ⟨(List.range (f.mesh.ne - 1)).map (fun e => (f.mesh.data [0, e, 0, 0, 0]).1),
    (List.range (f.mesh.ne - 1)).map (fun e => (f.mesh.data [0, e, 0, 0, 0]).2), ?_, ?_⟩
  · unfold convert2tally
    simp only
    rw [if_pos ⟨h1, h2, he⟩, if_pos (h3.symm), if_pos (by simp [htot])]
  · intro i hi
    refine ⟨by simp [List.getElem?_tail], ?_, ?_⟩ <;> simp [hi]

/-- **C71 (false: times and sectors).** Two meshes with the same bins whose values agree at the first time and in the first angular bin
have the same frame. -/
theorem convert_same {f g : FMesh} (h1 : f.mesh.nx1 = 1) (h2 : f.mesh.nx2 = 1)
    (h3 : f.mesh.nx3 = 1 ∨ (f.mesh.cyl = true ∧ f.mesh.nx3 = 2)) (he : 2 < f.mesh.ebin.data.length)
    (htot : f.mesh.ebin.data.length = f.mesh.ne) (d : Data) (hg : g.mesh = { f.mesh with data := d })
    (hd : ∀ e, d [0, e, 0, 0, 0] = f.mesh.data [0, e, 0, 0, 0]) : convert2tally g = convert2tally f ∧ ∃ r, convert2tally f = .ok r := by
  obtain ⟨v, w, h, -⟩ := convert_energies h1 h2 h3 he htot
  refine ⟨?_, _, h⟩
  have e1 : g.mesh.nx1 = f.mesh.nx1 := by rw [hg]; rfl
  have e2 : g.mesh.nx2 = f.mesh.nx2 := by rw [hg]; rfl
  have e3 : g.mesh.nx3 = f.mesh.nx3 := by rw [hg]; rfl
  have e4 : g.mesh.cyl = f.mesh.cyl := by rw [hg]
  have e5 : g.mesh.ebin = f.mesh.ebin := by rw [hg]
  have e6 : g.mesh.ne = f.mesh.ne := by rw [hg]; rfl
  have e7 : ∀ e, g.mesh.data [0, e, 0, 0, 0] = f.mesh.data [0, e, 0, 0, 0] := by rw [hg]; exact hd
  unfold convert2tally
  simp only [e1, e2, e3, e4, e5, e6, e7]
  rw [if_pos ⟨h1, h2, he⟩, if_pos (h3.symm), if_pos (by simp [htot]), if_pos ⟨h1, h2, he⟩]

/-- two rings with two sectors each, whose values are 1, 2 and 10, 20 (example) -/
def twoSectors : MeshData :=
  { tinyMesh 0 [0, 1] with cyl := true, x1 := [0, 1, 5], x3 := [0, 1 / 2, 1], data := fun i => ((if i.getD 2 0 = 0 then 1 else 10) * (i.getD 4 0 + 1 : ℚ), 7) }

/-- **C71 (false: two sectors).** A cylinder with two rings and two sectors is not one-dimensional; it is converted, and the values of the second
sector are missing. -/
theorem convert_sector_lost :
    ((mkFmesh id id twoSectors none none).bind convert2tally).toOption = some ("Cor A".toList, [1, 5], [1, 2], [7, 7]) ∧
    twoSectors.nx1 = 2 ∧ twoSectors.nx3 = 2 ∧ (twoSectors.data [0, 0, 1, 0, 0]).1 = 10 ∧ (twoSectors.data [0, 0, 1, 0, 1]).1 = 20 := by
  decide +kernel

/-- two times, two energies and their total (example) -/
def twoTimes : MeshData :=
  { tinyMesh 0 [0, 1, 2] with tbin := { data := [0, 100, 200], tag := .tme }, data := fun i => ((100 * (i.getD 0 0 : ℚ) + i.getD 1 0), 7) }

/-- **C71 (false: times).** A mesh with several energies and several times is converted, and the values of the later times are missing. -/
theorem convert_times_lost :
    ((mkFmesh id id twoTimes none none).bind convert2tally).toOption = some ("Energy".toList, [1, 2], [0, 1], [7, 7]) ∧
    1 < twoTimes.nt ∧ (twoTimes.data [1, 1, 0, 0, 0]).1 = 101 := by
  decide +kernel

/-- the mesh with two times meets the conditions of `convert_energies` -/
example : twoTimes.nx1 = 1 ∧ twoTimes.nx2 = 1 ∧ twoTimes.nx3 = 1 ∧ 2 < twoTimes.ebin.data.length ∧ twoTimes.ebin.data.length = twoTimes.ne := by
  decide +kernel

end F4Enix.Mesh
