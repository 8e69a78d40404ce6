import Verif.Out.MeshExportProps
import Verif.Out.FmeshWriteMore
/-!
# The point clouds, fluent files and vtk files of a tally of a meshtal file
-/
namespace F4Enix.MeshFile
open F4Enix F4Enix.Mesh

/-- a line of a point cloud: the point and the value, each within half a thousandth (specification) -/
structure CloudRow (p : FmeshW.Pt) (v : ℚ) (row : List Str) : Prop where
  length : row.length = 4
  x : ∃ w, row[0]? = some w ∧ FmeshW.Shows w p.1
  y : ∃ w, row[1]? = some w ∧ FmeshW.Shows w p.2.1
  z : ∃ w, row[2]? = some w ∧ FmeshW.Shows w p.2.2
  value : ∃ w, row[3]? = some w ∧ FmeshW.Shows w v

/-- a point cloud: a title and `n` lines (specification) -/
def IsCloud (text : Str) (rows : List (List Str)) : Prop :=
  text = "x, y, z, value\n".toList ++ (rows.map (fun r => FmeshW.commas r ++ ['\n'])).flatten ∧ ∀ r ∈ rows, FmeshW.fieldsOf (FmeshW.commas r) = r

/-- numbers in parentheses, each with its newline (specification) -/
def numberBlock (ws : List Str) : Str := '(' :: ((ws.map (· ++ ['\n'])).flatten ++ ")\n".toList)

/-- a fluent file with `n` points: a head and four blocks (specification) -/
def IsFluent (text : Str) (n : ℕ) (xs ys zs vs : List Str) : Prop :=
  text = "3\n3\n".toList ++ natStr n ++ "\n1\nuds-0\n".toList ++ numberBlock xs ++ numberBlock ys ++ numberBlock zs ++ numberBlock vs ∧
    xs.length = n ∧ ys.length = n ∧ zs.length = n ∧ vs.length = n

/-- the name of the array of values, or of errors, of a time and energy bin (specification) -/
def arrayName (err : Bool) (nt ne t e : ℕ) : Str := (if err then "Error - Total".toList else "Value - Total".toList) ++ suffix nt ne t e

/-! ### Names of files -/

/-- a character that stays in the name of a file (proof) -/
def plain (c : Char) : Bool := !(c == '[' || c == ']' || c == '\\' || c == '/')

theorem binName_plain (n i : ℕ) : ∀ c ∈ binName n i, plain c = true := by
  intro c hc
  unfold binName at hc
  split at hc
  · revert c; decide
  · unfold pad3 at hc
    have : isDigit c = true := by
      rcases List.mem_append.1 hc with h | h
      · rw [List.eq_of_mem_replicate h]; decide
      · exact natStr_all_digit _ c h
    cases hp : plain c with
    | true => rfl
    | false =>
      unfold plain at hp
      simp only [Bool.not_eq_false', Bool.or_eq_true, beq_iff_eq] at hp
      rcases hp with ((rfl | rfl) | rfl) | rfl <;> revert this <;> decide

theorem suffix_plain (nt ne t e : ℕ) : ∀ c ∈ suffix nt ne t e, plain c = true := by
  intro c hc
  unfold suffix at hc
  rcases List.mem_append.1 hc with h | h
  all_goals
    split at h
    · simp only [List.mem_cons] at h
      rcases h with rfl | rfl | h
      · decide
      · decide
      · exact binName_plain _ _ c h
    · cases h

theorem clean_arrayName (err : Bool) (nt ne t e : ℕ) : FmeshW.cleanPath (arrayName err nt ne t e) = arrayName err nt ne t e := by
  unfold FmeshW.cleanPath
  rw [List.filter_eq_self]
  intro c hc
  unfold arrayName at hc
  rcases List.mem_append.1 hc with h | h
  · clear hc
    cases err <;> revert c <;> decide
  · exact suffix_plain _ _ _ _ c h

theorem mem_names {f : FMesh} (ha : f.arrays = gridArrays f.mesh columnLabels) {x : Str} (hx : x ∈ (gridOf f).names) :
    ∃ err t e, t < f.mesh.nt ∧ e < f.mesh.ne ∧ x = arrayName err f.mesh.nt f.mesh.ne t e := by
  rw [names_eq ha] at hx
  obtain ⟨y, hy, rfl⟩ := List.mem_map.1 hx
  obtain ⟨t, e, ht, he, rfl | rfl⟩ := mem_gridArrays.1 hy
  · exact ⟨false, t, e, ht, he, rfl⟩
  · exact ⟨true, t, e, ht, he, rfl⟩

/-- the value or the error (specification) -/
def pick (err : Bool) (v : ℚ × ℚ) : ℚ := if err then v.2 else v.1

theorem array_named {f : FMesh} (ha : f.arrays = gridArrays f.mesh columnLabels) (err : Bool) {t e : ℕ} (ht : t < f.mesh.nt) (he : e < f.mesh.ne) :
    arrayName err f.mesh.nt f.mesh.ne t e ∈ (gridOf f).names ∧
      (gridOf f).array (arrayName err f.mesh.nt f.mesh.ne t e) = .ok (ravel f.mesh t e (pick err)) := by
  have hw : Dict.WF (gridArrays f.mesh columnLabels) := grid_names_nodup f.mesh columnLabels (by decide)
  have hm : (arrayName err f.mesh.nt f.mesh.ne t e, ravel f.mesh t e (pick err)) ∈ gridArrays f.mesh columnLabels := by
    rw [mem_gridArrays]
    refine ⟨t, e, ht, he, ?_⟩
    cases err
    · left; rfl
    · right; rfl
  refine ⟨?_, ?_⟩
  · rw [names_eq ha]; exact List.mem_map.2 ⟨_, hm, rfl⟩
  · unfold FmeshW.Grid.array
    rw [cells_eq ha, Dict.get?_of_mem hw hm]

/-- the files of the arrays of a tally: each array is written to a file of its own -/
theorem export_arrays {f : FMesh} (ha : f.arrays = gridArrays f.mesh columnLabels) (ht : 0 < f.mesh.nt) (he : 0 < f.mesh.ne) (vtk : FmeshW.Grid → Str)
    (n : ℕ) (files : Dict Str Str) {fmt : Str} (hf : fmt = "point_cloud".toList ∨ fmt = "ip_fluent".toList) :
    (FmeshW.write vtk (exported n f) none fmt none files).2 = none ∧
    (∀ err t e, t < f.mesh.nt → e < f.mesh.ne → ∃ text, FmeshW.textOf fmt (ravel f.mesh t e (pick err)) (cellCentres f) = (text, none) ∧
      Dict.get? (FmeshW.write vtk (exported n f) none fmt none files).1
        ("Tally_".toList ++ natStr n ++ '_' :: fmt ++ '_' :: arrayName err f.mesh.nt f.mesh.ne t e ++ ".txt".toList) = some text) ∧
    (∀ k, (∀ err t e, t < f.mesh.nt → e < f.mesh.ne →
        k ≠ "Tally_".toList ++ natStr n ++ '_' :: fmt ++ '_' :: arrayName err f.mesh.nt f.mesh.ne t e ++ ".txt".toList) →
      Dict.get? (FmeshW.write vtk (exported n f) none fmt none files).1 k = Dict.get? files k) := by
  have hg : FmeshW.CellGrid (exported n f).grid := cellGrid ha ht he
  have hname : ∀ err t e, FmeshW.arrayFile (FmeshW.baseName (exported n f) fmt none) (arrayName err f.mesh.nt f.mesh.ne t e) =
      "Tally_".toList ++ natStr n ++ '_' :: fmt ++ '_' :: arrayName err f.mesh.nt f.mesh.ne t e ++ ".txt".toList := by
    intro err t e
    unfold FmeshW.arrayFile FmeshW.baseName
    rw [clean_arrayName]
    simp [exported]
  obtain ⟨h1, h2, h3⟩ := FmeshW.array_files_partial vtk (exported n f) none fmt hf none files hg
    (fun x hx => (Dict.has_iff _ _).2 hx)
    (by
      have hn : (Option.getD (none : Option (List Str)) (exported n f).grid.names) = (gridArrays f.mesh columnLabels).map Prod.fst := names_eq ha
      rw [hn]
      have : ((gridArrays f.mesh columnLabels).map Prod.fst).map FmeshW.cleanPath = (gridArrays f.mesh columnLabels).map Prod.fst := by
        rw [List.map_congr_left (g := id), List.map_id]
        intro x hx
        rw [← names_eq ha] at hx
        obtain ⟨err, t, e, -, -, rfl⟩ := mem_names ha hx
        exact clean_arrayName _ _ _ _ _
      rw [this]
      exact grid_names_nodup f.mesh columnLabels (by decide))
  refine ⟨h1, ?_, ?_⟩
  · intro err t e l1 l2
    obtain ⟨m1, m2⟩ := array_named ha err l1 l2
    obtain ⟨a, text, q1, -, q3, q4⟩ := h2 _ m1
    have q1' : (gridOf f).array (arrayName err f.mesh.nt f.mesh.ne t e) = .ok a := q1
    rw [m2] at q1'
    cases q1'
    rw [hname] at q4
    exact ⟨text, q3, q4⟩
  · intro k hk
    refine h3 k ?_
    intro x hx
    obtain ⟨err, t, e, l1, l2, rfl⟩ := mem_names ha hx
    rw [hname]
    exact hk err t e l1 l2

theorem fmt3_no_comma (x : ℚ) : ',' ∉ FmeshW.fmt3 x := FmeshW.fmt3_no (by decide) (by decide) (by decide)

/-- the point cloud of a bin of a tally: one line for each voxel, the first axis fastest -/
theorem cloud_of {f : FMesh} {t e : ℕ} {err : Bool} {text : Str}
    (h : FmeshW.cloudText (ravel f.mesh t e (pick err)) (cellCentres f) = (text, none)) :
    ∃ rows, IsCloud text rows ∧ rows.length = f.mesh.nx3 * (f.mesh.nx2 * f.mesh.nx1) ∧
      ∀ c b a, c < f.mesh.nx3 → b < f.mesh.nx2 → a < f.mesh.nx1 → ∃ row, rows[(c * f.mesh.nx2 + b) * f.mesh.nx1 + a]? = some row ∧
        CloudRow (cellCentre f c b a) (pick err (f.mesh.data [t, e, c, b, a])) row := by
  obtain ⟨lines, l1, l2, l3⟩ := FmeshW.cloudText_ok (ravel f.mesh t e (pick err)) (cellCentres f) (by rw [centres_length, ravel_length])
  rw [l1] at h
  cases h
  refine ⟨lines, ⟨rfl, ?_⟩, by rw [l2, centres_length], ?_⟩
  · intro r hr
    obtain ⟨k, hk, rfl⟩ := List.getElem_of_mem hr
    obtain ⟨x, -, hx⟩ := l3 k ((cellCentres f)[k]'(by omega)) (List.getElem?_eq_getElem _)
    rw [List.getElem?_eq_getElem hk] at hx
    rw [Option.some.inj hx]
    refine FmeshW.fieldsOf_commas (by simp) ?_
    intro w hw
    simp only [List.mem_cons, List.not_mem_nil, or_false] at hw
    rcases hw with rfl | rfl | rfl | rfl <;> exact fmt3_no_comma _
  · intro c b a hc hb hA
    obtain ⟨x, x1, x2⟩ := l3 _ _ (centre_at hc hb hA)
    rw [ravel_get _ hc hb hA] at x1
    cases x1
    exact ⟨_, x2, rfl, ⟨_, rfl, FmeshW.shows_fmt3 _⟩, ⟨_, rfl, FmeshW.shows_fmt3 _⟩, ⟨_, rfl, FmeshW.shows_fmt3 _⟩, ⟨_, rfl, FmeshW.shows_fmt3 _⟩⟩

theorem block_eq (xs : List ℚ) : FmeshW.block xs = numberBlock (xs.map FmeshW.fmt3) := by
  unfold FmeshW.block numberBlock
  rw [List.map_map, ← List.flatMap_def]
  rfl

/-- the fluent file of a bin of a tally: the coordinates and the value of every voxel at the same place of the four blocks, the first axis fastest -/
theorem fluent_of {f : FMesh} {t e : ℕ} {err : Bool} {text : Str}
    (h : FmeshW.fluentText (ravel f.mesh t e (pick err)) (cellCentres f) = (text, none)) :
    ∃ xs ys zs vs, IsFluent text (f.mesh.nx3 * (f.mesh.nx2 * f.mesh.nx1)) xs ys zs vs ∧
      ∀ c b a, c < f.mesh.nx3 → b < f.mesh.nx2 → a < f.mesh.nx1 → ∃ x y z v, xs[(c * f.mesh.nx2 + b) * f.mesh.nx1 + a]? = some x ∧
        ys[(c * f.mesh.nx2 + b) * f.mesh.nx1 + a]? = some y ∧ zs[(c * f.mesh.nx2 + b) * f.mesh.nx1 + a]? = some z ∧
        vs[(c * f.mesh.nx2 + b) * f.mesh.nx1 + a]? = some v ∧ CloudRow (cellCentre f c b a) (pick err (f.mesh.data [t, e, c, b, a])) [x, y, z, v] := by
  rw [FmeshW.fluentText_ok _ _ (by rw [centres_length, ravel_length])] at h
  cases h
  refine ⟨(cellCentres f).map (fun p => FmeshW.fmt3 p.1), (cellCentres f).map (fun p => FmeshW.fmt3 p.2.1),
    (cellCentres f).map (fun p => FmeshW.fmt3 p.2.2), (ravel f.mesh t e (pick err)).map FmeshW.fmt3, ⟨?_, ?_, ?_, ?_, ?_⟩, ?_⟩
  · simp only [block_eq, List.map_map, centres_length]
    rfl
  · rw [List.length_map, centres_length]
  · rw [List.length_map, centres_length]
  · rw [List.length_map, centres_length]
  · rw [List.length_map, ravel_length]
  · intro c b a hc hb hA
    refine ⟨_, _, _, _, by rw [List.getElem?_map, centre_at hc hb hA]; rfl, by rw [List.getElem?_map, centre_at hc hb hA]; rfl,
      by rw [List.getElem?_map, centre_at hc hb hA]; rfl, by rw [List.getElem?_map, ravel_get _ hc hb hA]; rfl, ?_⟩
    exact ⟨rfl, ⟨_, rfl, FmeshW.shows_fmt3 _⟩, ⟨_, rfl, FmeshW.shows_fmt3 _⟩, ⟨_, rfl, FmeshW.shows_fmt3 _⟩, ⟨_, rfl, FmeshW.shows_fmt3 _⟩⟩

/-! ### From the file -/

/-- what the reader makes of a rectangular tally of a file -/
theorem read_rect (cs sn : ℚ → ℚ) {num : ParseNum} (junk : Data) {pre post : List (Nat × TallyText)} {n : Nat} {t : TallyText} {file : List Str}
    (h : IsFile (pre ++ (n, t) :: post) file) (hn : ∀ x ∈ post, x.1 ≠ n) {b : Bounds} (hb : ShowsBounds num b t.bins) (hu : Usable b)
    {v : Nat → Nat → Nat → Nat → Nat → ℚ × ℚ} (hv : ShowsValues num b v t.data) (hc : b.cyl = false) :
    ∃ d r, scan .outside file [] = .ok d ∧ getFMesh cs sn num junk d (natStr n) = .ok r ∧ r.fm.arrays = gridArrays r.fm.mesh columnLabels ∧
      r.fm.mesh.nt = b.nt ∧ r.fm.mesh.ne = b.ne ∧ r.fm.mesh.nx1 = b.n1 ∧ r.fm.mesh.nx2 = b.n2 ∧ r.fm.mesh.nx3 = b.n3 ∧
      (∀ k3 k2 k1 z0 z1 y0 y1 x0 x1, BinOf b.x3 k3 z0 z1 → BinOf b.x2 k2 y0 y1 → BinOf b.x1 k1 x0 x1 →
        k3 < b.n3 ∧ k2 < b.n2 ∧ k1 < b.n1 ∧ cellCentre r.fm k3 k2 k1 = ((x0 + x1) / 2, (y0 + y1) / 2, (z0 + z1) / 2) ∧
        ∀ t e, t < b.nt → e < b.ne → r.fm.mesh.data [t, e, k3, k2, k1] = v t e k3 k2 k1) ∧ r.fm.mesh.cyl = false ∧ r.fm.trsf = none := by
  obtain ⟨d, r, h1, h2, h3⟩ := tally_exact cs sn junk h hn hb hu hv
  obtain ⟨q0, q1, q2, q3, q4, q5, q6⟩ := tally_rect h3 hc
  obtain ⟨p1, p2⟩ := tally_points h3
  have ha : r.fm.arrays = gridArrays r.fm.mesh columnLabels := mkFmesh_arrays h3.mesh.choose_spec.1
  have hpl : b.place = none := by
    obtain ⟨pl, l1, l2, l3, ex, _, _, _, _, hs, _⟩ := hb
    rw [hc] at hs
    generalize b.place = q at hs ⊢
    cases hs
    rfl
  have ent : r.fm.mesh.nt = b.nt := by unfold MeshData.nt Bounds.nt; rw [q5]
  have ene : r.fm.mesh.ne = b.ne := by unfold MeshData.ne Bounds.ne; rw [q4]
  have e1 : r.fm.mesh.nx1 = b.n1 := by unfold MeshData.nx1 Bounds.n1; rw [q1]
  have e2 : r.fm.mesh.nx2 = b.n2 := by unfold MeshData.nx2 Bounds.n2; rw [q2]
  have e3 : r.fm.mesh.nx3 = b.n3 := by unfold MeshData.nx3 Bounds.n3; rw [q3]
  refine ⟨d, r, h1, h2, ha, ent, ene, e1, e2, e3, ?_, q0, ?_⟩
  · intro k3 k2 k1 z0 z1 y0 y1 x0 x1 hz hy hx
    have l3 : k3 < b.n3 := by have := (List.getElem?_eq_some_iff.1 hz.2).1; unfold Bounds.n3; omega
    have l2 : k2 < b.n2 := by have := (List.getElem?_eq_some_iff.1 hy.2).1; unfold Bounds.n2; omega
    have l1 : k1 < b.n1 := by have := (List.getElem?_eq_some_iff.1 hx.2).1; unfold Bounds.n1; omega
    have hcen := rect_centre p1 q0 (q1 ▸ hx) (q2 ▸ hy) (q3 ▸ hz)
    rw [hpl] at hcen
    simp only [Option.map_none, originOf, Vec.zero, add_zero] at hcen
    exact ⟨l3, l2, l1, hcen, fun t e ht he => q6 t e k3 k2 k1 ht he l3 l2 l1⟩
  · rw [p2, hpl]; rfl

/-- **C200.** Opening a meshtal file and exporting a rectangular tally of it as point clouds: for every time and energy bin there is a file with the
values and one with the errors, named after the bin; it has one line for each voxel, the first axis fastest, with the middle of the boundaries of the
voxel and the number the meshtal file shows, each within half a thousandth. Other files are as before. -/
theorem file_to_clouds_rect (cs sn : ℚ → ℚ) {num : ParseNum} (junk : Data) {pre post : List (Nat × TallyText)} {n : Nat} {t : TallyText} {file : List Str}
    (h : IsFile (pre ++ (n, t) :: post) file) (hn : ∀ x ∈ post, x.1 ≠ n) {b : Bounds} (hb : ShowsBounds num b t.bins) (hu : Usable b)
    {v : Nat → Nat → Nat → Nat → Nat → ℚ × ℚ} (hv : ShowsValues num b v t.data) (hc : b.cyl = false) (hnt : 0 < b.nt) (hne : 0 < b.ne)
    (vtk : FmeshW.Grid → Str) (files : Dict Str Str) :
    ∃ d r files', scan .outside file [] = .ok d ∧ getFMesh cs sn num junk d (natStr n) = .ok r ∧
      FmeshW.write vtk (exported n r.fm) none "point_cloud".toList none files = (files', none) ∧
      (∀ err t e, t < b.nt → e < b.ne → ∃ text rows,
        Dict.get? files' ("Tally_".toList ++ natStr n ++ "_point_cloud_".toList ++ arrayName err b.nt b.ne t e ++ ".txt".toList) = some text ∧
        IsCloud text rows ∧ rows.length = b.n3 * (b.n2 * b.n1) ∧
        ∀ k3 k2 k1 z0 z1 y0 y1 x0 x1, BinOf b.x3 k3 z0 z1 → BinOf b.x2 k2 y0 y1 → BinOf b.x1 k1 x0 x1 →
          ∃ row, rows[(k3 * b.n2 + k2) * b.n1 + k1]? = some row ∧
            CloudRow ((x0 + x1) / 2, (y0 + y1) / 2, (z0 + z1) / 2) (pick err (v t e k3 k2 k1)) row) ∧
      ∀ k, (∀ err t e, t < b.nt → e < b.ne →
          k ≠ "Tally_".toList ++ natStr n ++ "_point_cloud_".toList ++ arrayName err b.nt b.ne t e ++ ".txt".toList) →
        Dict.get? files' k = Dict.get? files k := by
  obtain ⟨d, r, h1, h2, ha, ent, ene, e1, e2, e3, hvox, -, -⟩ := read_rect cs sn junk h hn hb hu hv hc
  obtain ⟨w1, w2, w3⟩ := export_arrays ha (by omega) (by omega) vtk n files (fmt := "point_cloud".toList) (Or.inl rfl)
  have hname : ∀ err t e, "Tally_".toList ++ natStr n ++ '_' :: "point_cloud".toList ++ '_' :: arrayName err b.nt b.ne t e ++ ".txt".toList =
      "Tally_".toList ++ natStr n ++ "_point_cloud_".toList ++ arrayName err b.nt b.ne t e ++ ".txt".toList := by
    intro err t e
    simp
  simp only [ent, ene, hname] at w2 w3
  refine ⟨d, r, _, h1, h2, Prod.ext rfl w1, ?_, w3⟩
  intro err t e ht he
  obtain ⟨text, t1, t2⟩ := w2 err t e ht he
  obtain ⟨rows, c1, c2, c3⟩ := cloud_of (f := r.fm) (t := t) (e := e) (err := err) (text := text) t1
  rw [e1, e2, e3] at c2 c3
  refine ⟨text, rows, t2, c1, c2, ?_⟩
  intro k3 k2 k1 z0 z1 y0 y1 x0 x1 hz hy hx
  obtain ⟨l3, l2, l1, hcen, hval⟩ := hvox k3 k2 k1 z0 z1 y0 y1 x0 x1 hz hy hx
  obtain ⟨row, r1, r2⟩ := c3 k3 k2 k1 l3 l2 l1
  rw [hcen, hval t e ht he] at r2
  exact ⟨row, r1, r2⟩

/-- **C200** (fluent). The same for the fluent files: the coordinates of the points and the numbers are at the same place of four blocks. -/
theorem file_to_fluent_rect (cs sn : ℚ → ℚ) {num : ParseNum} (junk : Data) {pre post : List (Nat × TallyText)} {n : Nat} {t : TallyText} {file : List Str}
    (h : IsFile (pre ++ (n, t) :: post) file) (hn : ∀ x ∈ post, x.1 ≠ n) {b : Bounds} (hb : ShowsBounds num b t.bins) (hu : Usable b)
    {v : Nat → Nat → Nat → Nat → Nat → ℚ × ℚ} (hv : ShowsValues num b v t.data) (hc : b.cyl = false) (hnt : 0 < b.nt) (hne : 0 < b.ne)
    (vtk : FmeshW.Grid → Str) (files : Dict Str Str) :
    ∃ d r files', scan .outside file [] = .ok d ∧ getFMesh cs sn num junk d (natStr n) = .ok r ∧
      FmeshW.write vtk (exported n r.fm) none "ip_fluent".toList none files = (files', none) ∧
      (∀ err t e, t < b.nt → e < b.ne → ∃ text xs ys zs vs,
        Dict.get? files' ("Tally_".toList ++ natStr n ++ "_ip_fluent_".toList ++ arrayName err b.nt b.ne t e ++ ".txt".toList) = some text ∧
        IsFluent text (b.n3 * (b.n2 * b.n1)) xs ys zs vs ∧
        ∀ k3 k2 k1 z0 z1 y0 y1 x0 x1, BinOf b.x3 k3 z0 z1 → BinOf b.x2 k2 y0 y1 → BinOf b.x1 k1 x0 x1 →
          ∃ x y z w, xs[(k3 * b.n2 + k2) * b.n1 + k1]? = some x ∧ ys[(k3 * b.n2 + k2) * b.n1 + k1]? = some y ∧
            zs[(k3 * b.n2 + k2) * b.n1 + k1]? = some z ∧ vs[(k3 * b.n2 + k2) * b.n1 + k1]? = some w ∧
            CloudRow ((x0 + x1) / 2, (y0 + y1) / 2, (z0 + z1) / 2) (pick err (v t e k3 k2 k1)) [x, y, z, w]) ∧
      ∀ k, (∀ err t e, t < b.nt → e < b.ne →
          k ≠ "Tally_".toList ++ natStr n ++ "_ip_fluent_".toList ++ arrayName err b.nt b.ne t e ++ ".txt".toList) →
        Dict.get? files' k = Dict.get? files k := by
  obtain ⟨d, r, h1, h2, ha, ent, ene, e1, e2, e3, hvox, -, -⟩ := read_rect cs sn junk h hn hb hu hv hc
  obtain ⟨w1, w2, w3⟩ := export_arrays ha (by omega) (by omega) vtk n files (fmt := "ip_fluent".toList) (Or.inr rfl)
  have hname : ∀ err t e, "Tally_".toList ++ natStr n ++ '_' :: "ip_fluent".toList ++ '_' :: arrayName err b.nt b.ne t e ++ ".txt".toList =
      "Tally_".toList ++ natStr n ++ "_ip_fluent_".toList ++ arrayName err b.nt b.ne t e ++ ".txt".toList := by
    intro err t e
    simp
  simp only [ent, ene, hname] at w2 w3
  refine ⟨d, r, _, h1, h2, Prod.ext rfl w1, ?_, w3⟩
  intro err t e ht he
  obtain ⟨text, t1, t2⟩ := w2 err t e ht he
  obtain ⟨xs, ys, zs, vs, c1, c2⟩ := fluent_of (f := r.fm) (t := t) (e := e) (err := err) (text := text) t1
  rw [e1, e2, e3] at c1 c2
  refine ⟨text, xs, ys, zs, vs, t2, c1, ?_⟩
  intro k3 k2 k1 z0 z1 y0 y1 x0 x1 hz hy hx
  obtain ⟨l3, l2, l1, hcen, hval⟩ := hvox k3 k2 k1 z0 z1 y0 y1 x0 x1 hz hy hx
  obtain ⟨x, y, z, w, r1, r2, r3, r4, r5⟩ := c2 k3 k2 k1 l3 l2 l1
  rw [hcen, hval t e ht he] at r5
  exact ⟨x, y, z, w, r1, r2, r3, r4, r5⟩

/-- **C200** (vtk). The vtk file of a tally is written under the extension of its grid: `.vtr` for a rectangular tally of a file, `.vts` for a
cylindrical one. Other files are as before. -/
theorem file_to_vtk (cs sn : ℚ → ℚ) {num : ParseNum} (junk : Data) {pre post : List (Nat × TallyText)} {n : Nat} {t : TallyText} {file : List Str}
    (h : IsFile (pre ++ (n, t) :: post) file) (hn : ∀ x ∈ post, x.1 ≠ n) {b : Bounds} (hb : ShowsBounds num b t.bins) (hu : Usable b)
    {v : Nat → Nat → Nat → Nat → Nat → ℚ × ℚ} (hv : ShowsValues num b v t.data) (vtk : FmeshW.Grid → Str) (files : Dict Str Str) :
    ∃ d r, scan .outside file [] = .ok d ∧ getFMesh cs sn num junk d (natStr n) = .ok r ∧
      FmeshW.write vtk (exported n r.fm) none "vtk".toList none files =
        (Dict.set files ("Tally_".toList ++ natStr n ++ "_vtk".toList ++ if b.cyl then ".vts".toList else ".vtr".toList) (vtk (gridOf r.fm)), none) := by
  cases hc : b.cyl with
  | false =>
    obtain ⟨d, r, h1, h2, -, -, -, -, -, -, -, c1, c2⟩ := read_rect cs sn junk h hn hb hu hv hc
    refine ⟨d, r, h1, h2, ?_⟩
    have hk : kindOf r.fm = "RectilinearGrid".toList := if_pos ⟨c1, by rw [c2]; rfl⟩
    unfold FmeshW.write
    simp only
    rw [if_pos trivial]
    have he : FmeshW.vtkExt (exported n r.fm).kind = ".vtr".toList := by
      show FmeshW.vtkExt (kindOf r.fm) = _
      rw [hk]; decide
    rw [he]
    simp [exported]
  | true =>
    obtain ⟨d, r, h1, h2, h3⟩ := tally_exact cs sn junk h hn hb hu hv
    have hcyl : r.fm.mesh.cyl = true := by
      obtain ⟨m, hm, -⟩ := h3.mesh
      unfold Mesh.mkFmesh splitTheta at hm
      rw [if_pos (by simp [Bounds.mesh, hc])] at hm
      generalize hx : (b.mesh m).x3 = x3 at hm
      match x3, hm with
      | [], hm => cases hm
      | [_], hm => cases hm
      | a0 :: a1 :: as, hm =>
        simp only at hm
        split at hm
        · rename_i e; split at e <;> cases e
        · rename_i m' e
          rw [← Except.ok.inj hm]
          split at e <;> cases e <;> exact hc
    refine ⟨d, r, h1, h2, ?_⟩
    have hk : kindOf r.fm = "StructuredGrid".toList := if_neg (by rw [hcyl]; simp)
    unfold FmeshW.write
    simp only
    rw [if_pos trivial]
    have he : FmeshW.vtkExt (exported n r.fm).kind = ".vts".toList := by
      show FmeshW.vtkExt (kindOf r.fm) = _
      rw [hk]; decide
    rw [he]
    simp [exported]

/-! ### Concrete files -/

/-- tally 4 of the file of the examples of C196: the point cloud of the values -/
example (cs sn : ℚ → ℚ) (junk : Data) (vtk : FmeshW.Grid → Str) : ∃ d r files' text rows row,
    scan .outside (fileOf ["mcnp", ""] ++ allLines [(14, tally14), (4, tally4')]) [] = .ok d ∧ getFMesh cs sn digit junk d (natStr 4) = .ok r ∧
    FmeshW.write vtk (exported 4 r.fm) none "point_cloud".toList none [] = (files', none) ∧
    Dict.get? files' "Tally_4_point_cloud_Value - Total.txt".toList = some text ∧ IsCloud text rows ∧ rows.length = 2 ∧
    rows[1]? = some row ∧ CloudRow (3 / 2, 5 / 2, 3 / 2) 8 row := by
  obtain ⟨d, r, files', h1, h2, h3, h4, -⟩ := file_to_clouds_rect cs sn (num := digit) junk (pre := [(14, tally14)]) (post := []) (n := 4) (t := tally4')
    (file := fileOf ["mcnp", ""] ++ allLines [(14, tally14), (4, tally4')])
    ⟨by
      intro x hx
      simp only [List.cons_append, List.nil_append, List.mem_cons, List.not_mem_nil, or_false] at hx
      rcases hx with rfl | rfl
      · exact isTally14
      · exact isTally4', _, rfl, by decide +kernel⟩ (by simp) (b := theBounds) showsBounds4 usableBounds showsValues4 rfl (by decide) (by decide) vtk []
  obtain ⟨text, rows, t1, t2, t3, t4⟩ := h4 false 0 0 (by decide) (by decide)
  obtain ⟨row, r1, r2⟩ := t4 0 0 1 0 3 0 5 1 2 ⟨rfl, rfl⟩ ⟨rfl, rfl⟩ ⟨rfl, rfl⟩
  have e : (((1 : ℚ) + 2) / 2, ((0 : ℚ) + 5) / 2, ((0 : ℚ) + 3) / 2) = (3 / 2, 5 / 2, 3 / 2) := by norm_num
  rw [e] at r2
  have en : "Tally_".toList ++ natStr 4 ++ "_point_cloud_".toList ++ arrayName false theBounds.nt theBounds.ne 0 0 ++ ".txt".toList =
      "Tally_4_point_cloud_Value - Total.txt".toList := by decide +kernel
  rw [en] at t1
  exact ⟨d, r, files', text, rows, row, h1, h2, h3, t1, t2, t3, r1, r2⟩

/-- the files of that tally -/
example : (getFMesh id id digit (fun _ => (0, 0)) (catalog [(4, tally4')] []) "4".toList).toOption.map
    (fun r => FmeshW.write (fun _ => []) (exported 4 r.fm) none "ip_fluent".toList none []) =
  some ([("Tally_4_ip_fluent_Value - Total.txt".toList, "3\n3\n2\n1\nuds-0\n(0.500\n1.500\n)\n(2.500\n2.500\n)\n(1.500\n1.500\n)\n(7.000\n8.000\n)\n".toList),
    ("Tally_4_ip_fluent_Error - Total.txt".toList, "3\n3\n2\n1\nuds-0\n(0.500\n1.500\n)\n(2.500\n2.500\n)\n(1.500\n1.500\n)\n(1.000\n2.000\n)\n".toList)], none) := by
  decide +kernel

/-- a tally with a transformation, or a cylindrical one, is no rectilinear grid; a rectangular one without is -/
example (f : FMesh) : kindOf f = "RectilinearGrid".toList ↔ f.mesh.cyl = false ∧ f.trsf = none := by
  unfold kindOf
  constructor
  · intro h
    split at h
    · rename_i hc; exact ⟨hc.1, Option.isNone_iff_eq_none.1 hc.2⟩
    · exact absurd h (by decide)
  · rintro ⟨h1, h2⟩; rw [if_pos ⟨h1, by rw [h2]; rfl⟩]

end F4Enix.MeshFile
