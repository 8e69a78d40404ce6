import Verif.Out.FmeshWriteProps
/-!
# Theorems about point clouds, fluent files (C153), whole meshtal files (C154) and transformations from the input (C155)
-/
namespace F4Enix.FmeshW
open F4Enix

/-! ### one file for each array (C153) -/

theorem cloudLines_ok (vals : List ℚ) (pts : List Pt) (i : ℕ) (h : i + pts.length ≤ vals.length) :
    ∃ lines : List (List Str), cloudLines vals i pts = ((lines.map (fun r => commas r ++ ['\n'])).flatten, none) ∧ lines.length = pts.length ∧
      ∀ (k : ℕ) p, pts[k]? = some p → ∃ x, vals[i + k]? = some x ∧ lines[k]? = some [fmt3 p.1, fmt3 p.2.1, fmt3 p.2.2, fmt3 x] := by
  induction pts generalizing i with
  | nil => exact ⟨[], rfl, rfl, by simp⟩
  | cons p ps ih =>
    rw [List.length_cons] at h
    obtain ⟨lines, h1, h2, h3⟩ := ih (i + 1) (by omega)
    have hx : vals[i]? = some (vals[i]'(by omega)) := List.getElem?_eq_getElem _
    refine ⟨[fmt3 p.1, fmt3 p.2.1, fmt3 p.2.2, fmt3 (vals[i]'(by omega))] :: lines, ?_, by simp [h2], ?_⟩
    · rw [cloudLines]
      simp only [hx, h1, List.map_cons, List.flatten_cons, commas, List.append_assoc, List.cons_append, List.nil_append]
    · intro k q hk
      cases k with
      | zero =>
        simp only [List.getElem?_cons_zero, Option.some.injEq] at hk
        subst hk
        exact ⟨_, hx, rfl⟩
      | succ k =>
        obtain ⟨x, x1, x2⟩ := h3 k q hk
        exact ⟨x, by rwa [show i + 1 + k = i + (k + 1) by omega] at x1, x2⟩

/-- the text of a point cloud: a title, then a line for each point with its coordinates and its value -/
theorem cloudText_ok (vals : List ℚ) (pts : List Pt) (h : pts.length ≤ vals.length) :
    ∃ lines : List (List Str), cloudText vals pts = ("x, y, z, value\n".toList ++ (lines.map (fun r => commas r ++ ['\n'])).flatten, none) ∧
      lines.length = pts.length ∧
      ∀ (k : ℕ) p, pts[k]? = some p → ∃ x, vals[k]? = some x ∧ lines[k]? = some [fmt3 p.1, fmt3 p.2.1, fmt3 p.2.2, fmt3 x] := by
  obtain ⟨lines, h1, h2, h3⟩ := cloudLines_ok vals pts 0 (by omega)
  refine ⟨lines, ?_, h2, fun k p hk => by simpa using h3 k p hk⟩
  unfold cloudText
  rw [h1]

/-- the text for fluent: three blocks with the coordinates and one with the values, in the same order -/
theorem fluentText_ok (vals : List ℚ) (pts : List Pt) (h : pts.length = vals.length) :
    fluentText vals pts = ("3\n3\n".toList ++ natStr pts.length ++ "\n1\nuds-0\n".toList ++ block (pts.map (fun p => p.1)) ++
      block (pts.map (fun p => p.2.1)) ++ block (pts.map (fun p => p.2.2)) ++ block vals, none) := by
  unfold fluentText
  simp only
  rw [if_pos (by omega), h, List.take_length]

/-- the name of the file of an array (specification) -/
def arrayFile (path n : Str) : Str := path ++ '_' :: cleanPath n ++ ".txt".toList

theorem writeEach_ok (text : List ℚ → List Pt → Str × Option PyErr) (g : Grid) (path : Str) (pts : List Pt) (names : List Str)
    (files : Dict Str Str) (h : ∀ n ∈ names, ∃ a t, g.array n = .ok a ∧ text a pts = (t, none)) :
    ∃ out : List (Str × Str), out.length = names.length ∧
      (∀ (k : ℕ) n, names[k]? = some n → ∃ a t, g.array n = .ok a ∧ text a pts = (t, none) ∧ out[k]? = some (arrayFile path n, t)) ∧
      writeEach text g path pts names files = (out.foldl (fun d p => Dict.set d p.1 p.2) files, none) := by
  induction names generalizing files with
  | nil => exact ⟨[], rfl, by simp, rfl⟩
  | cons n ns ih =>
    obtain ⟨a, t, ha, ht⟩ := h n (by simp)
    obtain ⟨out, h1, h2, h3⟩ := ih (Dict.set files (arrayFile path n) t) (fun m hm => h m (List.mem_cons_of_mem _ hm))
    refine ⟨(arrayFile path n, t) :: out, by simp [h1], ?_, ?_⟩
    · intro k m hk
      cases k with
      | zero =>
        simp only [List.getElem?_cons_zero, Option.some.injEq] at hk
        subst hk
        exact ⟨a, t, ha, ht, rfl⟩
      | succ k => exact h2 k m hk
    · rw [writeEach]
      simp only [ha, ht]
      exact h3

theorem foldl_set_get (out : List (Str × Str)) (files : Dict Str Str) (n : Str) :
    Dict.get? (out.foldl (fun d p => Dict.set d p.1 p.2) files) n =
      (((out.reverse.find? (fun p => decide (p.1 = n))).map Prod.snd).or (Dict.get? files n)) := by
  induction out using List.reverseRec with
  | nil => simp
  | append_singleton out p ih =>
    rw [List.foldl_append, List.reverse_append]
    simp only [List.foldl_cons, List.foldl_nil, List.reverse_cons, List.reverse_nil, List.nil_append, List.singleton_append]
    rw [Dict.get?_set]
    by_cases h : p.1 = n
    · rw [List.find?_cons_of_pos (by simpa using h), if_pos (by simpa using h)]; rfl
    · rw [List.find?_cons_of_neg (by simpa using h), if_neg (by simpa using h), ih]

theorem arrayFile_inj {path a b : Str} (h : arrayFile path a = arrayFile path b) : cleanPath a = cleanPath b := by
  unfold arrayFile at h
  rw [List.append_assoc, List.append_assoc] at h
  have := List.append_cancel_left h
  simp only [List.cons_append, List.cons.injEq, true_and] at this
  exact List.append_cancel_right this

/-- the text of an array in a format (specification) -/
def textOf (fmt : Str) : List ℚ → List Pt → Str × Option PyErr := if fmt = "point_cloud".toList then cloudText else fluentText

theorem write_each_eq (vtk : Grid → Str) (m : Mesh) (names : Option (List Str)) (fmt : Str) (hf : fmt = "point_cloud".toList ∨ fmt = "ip_fluent".toList)
    (outfile : Option Str) (files : Dict Str Str) (hg : CellGrid m.grid) :
    write vtk m names fmt outfile files =
      writeEach (textOf fmt) m.grid (baseName m fmt outfile) m.grid.centres (names.getD m.grid.names) files := by
  have hl : 0 < m.grid.cellData.length := List.length_pos_iff.2 hg.2.2
  have hp : m.grid.pointData.length = 0 := by rw [hg.2.1]; rfl
  unfold write textOf
  simp only
  rcases hf with rfl | rfl
  · rw [if_neg (by decide), if_pos ⟨hl, hp⟩]
    simp only
    rw [if_neg (by decide), if_pos trivial, if_pos trivial]
    rfl
  · rw [if_neg (by decide), if_pos ⟨hl, hp⟩]
    simp only
    rw [if_neg (by decide), if_neg (by decide), if_pos trivial, if_neg (by decide)]
    rfl

/-- **C153.** For a mesh with arrays on its cells and arrays whose names stay different without brackets and slashes, the formats
`point_cloud` and `ip_fluent` write one file for each array, with the text of its values at the centres of the cells; all other files are
as before. Partial: Arrays whose names differ only in brackets and slashes share one file (array_collide). -/
theorem array_files_partial (vtk : Grid → Str) (m : Mesh) (names : Option (List Str)) (fmt : Str)
    (hf : fmt = "point_cloud".toList ∨ fmt = "ip_fluent".toList) (outfile : Option Str) (files : Dict Str Str) (hg : CellGrid m.grid)
    (hn : ∀ n ∈ names.getD m.grid.names, Dict.has m.grid.cellData n = true) (hd : ((names.getD m.grid.names).map cleanPath).Nodup) :
    (write vtk m names fmt outfile files).2 = none ∧
    (∀ n ∈ names.getD m.grid.names, ∃ a t, m.grid.array n = .ok a ∧ a.length = m.grid.centres.length ∧ textOf fmt a m.grid.centres = (t, none) ∧
      Dict.get? (write vtk m names fmt outfile files).1 (arrayFile (baseName m fmt outfile) n) = some t) ∧
    (∀ k, (∀ n ∈ names.getD m.grid.names, k ≠ arrayFile (baseName m fmt outfile) n) →
      Dict.get? (write vtk m names fmt outfile files).1 k = Dict.get? files k) := by
  have harr : ∀ n ∈ names.getD m.grid.names, ∃ a t, m.grid.array n = .ok a ∧ a.length = m.grid.centres.length ∧
      textOf fmt a m.grid.centres = (t, none) := by
    intro n hnn
    have := hn n hnn
    unfold Dict.has at this
    obtain ⟨a, ha⟩ := Option.isSome_iff_exists.1 this
    have hl := hg.1.1 n a ha
    have e : m.grid.array n = .ok a := by unfold Grid.array; rw [ha]
    unfold textOf
    rcases hf with rfl | rfl
    · obtain ⟨lines, h1, -⟩ := cloudText_ok a m.grid.centres (by omega)
      exact ⟨a, _, e, hl, by rw [if_pos rfl]; exact h1⟩
    · exact ⟨a, _, e, hl, by rw [if_neg (by decide)]; exact fluentText_ok a m.grid.centres hl.symm⟩
  rw [write_each_eq vtk m names fmt hf outfile files hg]
  obtain ⟨out, h1, h2, h3⟩ := writeEach_ok (textOf fmt) m.grid (baseName m fmt outfile) m.grid.centres (names.getD m.grid.names) files
    (fun n hnn => by obtain ⟨a, t, x, -, y⟩ := harr n hnn; exact ⟨a, t, x, y⟩)
  rw [h3]
  generalize names.getD m.grid.names = ns at *
  have hfst : ∀ p ∈ out, ∃ n ∈ ns, p.1 = arrayFile (baseName m fmt outfile) n := by
    intro p hp
    obtain ⟨k, hk, rfl⟩ := List.getElem_of_mem hp
    have hkn : ns[k]? = some (ns[k]'(by omega)) := List.getElem?_eq_getElem _
    obtain ⟨a, t, -, -, h4⟩ := h2 k _ hkn
    rw [List.getElem?_eq_getElem hk, Option.some.injEq] at h4
    exact ⟨_, List.getElem_mem _, by rw [h4]⟩
  refine ⟨rfl, ?_, ?_⟩
  · intro n hnn
    obtain ⟨k, hk, rfl⟩ := List.getElem_of_mem hnn
    have hkn : ns[k]? = some ns[k] := List.getElem?_eq_getElem _
    obtain ⟨a, t, ha, ht, hout⟩ := h2 k _ hkn
    obtain ⟨a', t', ha', hl', -⟩ := harr _ hnn
    rw [ha, Except.ok.injEq] at ha'
    subst ha'
    refine ⟨a, t, ha, hl', ht, ?_⟩
    simp only
    rw [foldl_set_get]
    have : out.reverse.find? (fun p => decide (p.1 = arrayFile (baseName m fmt outfile) ns[k])) = some (arrayFile (baseName m fmt outfile) ns[k], t) := by
      cases hq : out.reverse.find? (fun p => decide (p.1 = arrayFile (baseName m fmt outfile) ns[k])) with
      | none =>
        rw [List.find?_eq_none] at hq
        exact (hq _ (List.mem_reverse.2 (List.mem_of_getElem? hout)) (by simp)).elim
      | some q =>
        have e1 := List.find?_some hq
        have e2 := List.mem_reverse.1 (List.mem_of_find?_eq_some hq)
        simp only [decide_eq_true_eq] at e1
        obtain ⟨j, hj, rfl⟩ := List.getElem_of_mem e2
        have hjn : ns[j]? = some (ns[j]'(by omega)) := List.getElem?_eq_getElem _
        obtain ⟨a2, t2, -, -, hout2⟩ := h2 j _ hjn
        rw [List.getElem?_eq_getElem hj, Option.some.injEq] at hout2
        rw [hout2] at e1
        have hc := arrayFile_inj e1
        have hjk : j = k := by
          refine (List.Nodup.getElem_inj_iff hd (hi := by simp; omega) (hj := by simpa using hk)).1 ?_
          simpa using hc
        subst hjk
        rw [List.getElem?_eq_getElem hj] at hout
        rw [hout]
    rw [this]; rfl
  · intro k hk
    simp only
    rw [foldl_set_get]
    have : out.reverse.find? (fun p => decide (p.1 = k)) = none := by
      rw [List.find?_eq_none]
      intro p hp
      obtain ⟨n, hnn, e⟩ := hfst p (List.mem_reverse.1 hp)
      simp only [decide_eq_true_eq]
      intro he
      exact hk n hnn (he.symm.trans e)
    rw [this]; rfl

/-- **C153, what is lost**: two arrays whose names differ only in brackets and slashes are written to the same file; the second stays. -/
theorem array_collide (text : List ℚ → List Pt → Str × Option PyErr) (g : Grid) (path : Str) (pts : List Pt) (a b : Str) (files : Dict Str Str)
    (hc : cleanPath a = cleanPath b) {va vb : List ℚ} {ta tb : Str} (ha : g.array a = .ok va) (hb : g.array b = .ok vb)
    (hta : text va pts = (ta, none)) (htb : text vb pts = (tb, none)) :
    Dict.get? (writeEach text g path pts [a, b] files).1 (arrayFile path a) = some tb := by
  have e : arrayFile path b = arrayFile path a := by unfold arrayFile; rw [hc]
  simp only [writeEach, ha, hb, hta, htb]
  change Dict.get? (Dict.set (Dict.set files (arrayFile path a) ta) (arrayFile path b) tb) _ = _
  rw [e, Dict.get?_set, if_pos (by simp)]

/-- **C152, C153 (unknown formats).** Another format is refused with a `KeyError` and no file is written. -/
theorem format_refused (vtk : Grid → Str) (m : Mesh) (names : Option (List Str)) (fmt : Str) (outfile : Option Str) (files : Dict Str Str)
    (hg : CellGrid m.grid) (hf : fmt ∉ ["vtk".toList, "csv".toList, "point_cloud".toList, "ip_fluent".toList]) :
    write vtk m names fmt outfile files = (files, some .keyError) := by
  have hl : 0 < m.grid.cellData.length := List.length_pos_iff.2 hg.2.2
  have hp : m.grid.pointData.length = 0 := by rw [hg.2.1]; rfl
  simp only [List.mem_cons, List.not_mem_nil, or_false, not_or] at hf
  unfold write
  simp only
  rw [if_neg hf.1, if_pos ⟨hl, hp⟩]
  simp only
  rw [if_neg hf.2.1, if_neg hf.2.2.1, if_neg hf.2.2.2]

/-- **C152 (limit).** With arrays both on cells and on points, an array of the cells, which are fewer than the points, ends the csv export with an
`IndexError`, and the file begun is left in the folder. -/
theorem mixed_fails (vtk : Grid → Str) (m : Mesh) (n : Str) (outfile : Option Str) (files : Dict Str Str) (hs : Sound m.grid)
    (hp : m.grid.pointData ≠ []) {a : List ℚ} (ha : Dict.get? m.grid.cellData n = some a) (hfew : m.grid.centres.length < m.grid.points.length) :
    ∃ t, write vtk m (some [n]) "csv".toList outfile files =
      (Dict.set files (baseName m "csv".toList outfile ++ ".csv".toList) t, some .indexError) := by
  have hp' : 0 < m.grid.pointData.length := List.length_pos_iff.2 hp
  have harr : m.grid.array n = .ok a := by unfold Grid.array; rw [ha]
  have hl := hs.1 n a ha
  have main : ∀ (pts : List Pt) (i : ℕ), i ≤ a.length → a.length < i + pts.length → (csvRows m.grid [n] i pts).2 = some .indexError := by
    intro pts
    induction pts with
    | nil => intro i h1 h2; simp at h2; omega
    | cons p ps ih =>
      intro i h1 h2
      rw [csvRows, rowValues]
      simp only [harr]
      by_cases hi : i < a.length
      · have hx : a[i]? = some (a[i]'hi) := List.getElem?_eq_getElem _
        simp only [hx, rowValues]
        exact ih (i + 1) (by omega) (by rw [List.length_cons] at h2; omega)
      · have hx : a[i]? = none := List.getElem?_eq_none (by omega)
        simp only [hx]
  refine ⟨(csvRows m.grid [n] 0 m.grid.points).1, ?_⟩
  unfold write
  simp only
  rw [if_neg (by decide), if_neg (fun h => by omega), if_pos hp']
  simp only
  rw [if_pos trivial]
  unfold writeCsv
  simp only [Option.getD_some]
  have := main m.grid.points 0 (by omega) (by omega)
  rw [this]
  rfl

/-! ### all meshes (C154) -/

/-- the file belongs to mesh number `k`: its name begins with `Tally_k_` (specification) -/
def Belongs (k : ℕ) (file : Str) : Prop := ∃ s, file = "Tally_".toList ++ natStr k ++ '_' :: s

/-- a file belongs to one mesh at most -/
theorem belongs_one {a b : ℕ} {f : Str} (ha : Belongs a f) (hb : Belongs b f) : a = b := by
  obtain ⟨s, rfl⟩ := ha
  obtain ⟨s', h⟩ := hb
  rw [List.append_assoc, List.append_assoc] at h
  have h := List.append_cancel_left h
  have hu : isDigit '_' = false := by decide
  have h1 : ∀ (n : ℕ) (t : Str), (natStr n ++ '_' :: t).takeWhile isDigit = natStr n := fun n t =>
    takeWhile_all_append (natStr_all_digit n) (by intro c hc; simp only [List.head?_cons, Option.some.injEq] at hc; rw [← hc]; exact hu)
  have h2 := h1 a s
  rw [h, h1 b s'] at h2
  have := congrArg digitsVal h2
  rw [digitsVal_natStr, digitsVal_natStr] at this
  exact this.symm

/-- what `write` does to a file depends on that file only -/
theorem writeEach_local (text : List ℚ → List Pt → Str × Option PyErr) (g : Grid) (path : Str) (pts : List Pt) (names : List Str)
    (f f' : Dict Str Str) (k : Str) (h : Dict.get? f k = Dict.get? f' k) :
    Dict.get? (writeEach text g path pts names f).1 k = Dict.get? (writeEach text g path pts names f').1 k ∧
    (writeEach text g path pts names f).2 = (writeEach text g path pts names f').2 := by
  induction names generalizing f f' with
  | nil => exact ⟨h, rfl⟩
  | cons n ns ih =>
    rw [writeEach, writeEach]
    cases g.array n with
    | error e => exact ⟨h, rfl⟩
    | ok a =>
      simp only
      have hset : ∀ t : Str, Dict.get? (Dict.set f (path ++ '_' :: cleanPath n ++ ".txt".toList) t) k =
          Dict.get? (Dict.set f' (path ++ '_' :: cleanPath n ++ ".txt".toList) t) k := by
        intro t; rw [Dict.get?_set, Dict.get?_set, h]
      obtain ⟨t, e⟩ := text a pts
      cases e with
      | none => exact ih _ _ (hset t)
      | some e => exact ⟨hset t, rfl⟩

theorem write_local (vtk : Grid → Str) (m : Mesh) (fmt : Str) (f f' : Dict Str Str) (k : Str) (h : Dict.get? f k = Dict.get? f' k) :
    Dict.get? (write vtk m none fmt none f).1 k = Dict.get? (write vtk m none fmt none f').1 k ∧
    (write vtk m none fmt none f).2 = (write vtk m none fmt none f').2 := by
  unfold write
  simp only
  split
  · exact ⟨by rw [Dict.get?_set, Dict.get?_set, h], rfl⟩
  · split
    · exact ⟨h, rfl⟩
    · rename_i pts _
      split
      · unfold writeCsv
        exact ⟨by simp only; rw [Dict.get?_set, Dict.get?_set, h], rfl⟩
      · split
        · exact writeEach_local _ _ _ _ _ _ _ _ h
        · split
          · exact writeEach_local _ _ _ _ _ _ _ _ h
          · exact ⟨h, rfl⟩

theorem writeEach_keeps (text : List ℚ → List Pt → Str × Option PyErr) (g : Grid) (path : Str) (pts : List Pt) (names : List Str)
    (f : Dict Str Str) (k : Str) (h : ∀ n, k ≠ path ++ '_' :: cleanPath n ++ ".txt".toList) :
    Dict.get? (writeEach text g path pts names f).1 k = Dict.get? f k := by
  induction names generalizing f with
  | nil => rfl
  | cons n ns ih =>
    rw [writeEach]
    have hset : ∀ t : Str, Dict.get? (Dict.set f (path ++ '_' :: cleanPath n ++ ".txt".toList) t) k = Dict.get? f k := fun t =>
      Dict.get?_set_ne _ _ (fun e => h n e.symm)
    cases g.array n with
    | error e => rfl
    | ok a =>
      simp only
      obtain ⟨t, e⟩ := text a pts
      cases e with
      | none => exact (ih _).trans (hset t)
      | some e => exact hset t

/-- `write` without a name changes only files that belong to the mesh -/
theorem write_keeps (vtk : Grid → Str) (m : Mesh) (fmt : Str) (f : Dict Str Str) (k : Str) (h : ¬ Belongs m.tally k) :
    Dict.get? (write vtk m none fmt none f).1 k = Dict.get? f k := by
  have hne : ∀ s : Str, "Tally_".toList ++ natStr m.tally ++ '_' :: s ≠ k := fun s e => h ⟨s, e.symm⟩
  have hne' : ∀ s : Str, ("Tally_".toList ++ natStr m.tally ++ '_' :: fmt) ++ s ≠ k := by
    intro s
    have := hne (fmt ++ s)
    rwa [List.append_assoc ("Tally_".toList ++ natStr m.tally), List.cons_append]
  unfold write
  simp only [Option.getD_none]
  split
  · exact Dict.get?_set_ne _ _ (hne' _)
  · split
    · rfl
    · split
      · unfold writeCsv
        exact Dict.get?_set_ne _ _ (hne' _)
      · have he : ∀ n : Str, k ≠ ("Tally_".toList ++ natStr m.tally ++ '_' :: fmt) ++ '_' :: cleanPath n ++ ".txt".toList := by
          intro n e
          rw [List.append_assoc _ ('_' :: cleanPath n)] at e
          exact hne' _ e.symm
        split
        · exact writeEach_keeps _ _ _ _ _ _ _ he
        · split
          · exact writeEach_keeps _ _ _ _ _ _ _ he
          · rfl

/-- **C154.** When all meshes of a file (whose numbers are different) are exported, the files of each mesh are exactly those its own export
gives, and files that belong to no mesh are as before. -/
theorem write_all_exact (vtk : Grid → Str) (fmt : Str) (ms : List Mesh) (files : Dict Str Str) (hd : (ms.map Mesh.tally).Nodup)
    (h : (writeAll vtk fmt ms files).2 = none) :
    (∀ m ∈ ms, (write vtk m none fmt none files).2 = none ∧
      ∀ k, Belongs m.tally k → Dict.get? (writeAll vtk fmt ms files).1 k = Dict.get? (write vtk m none fmt none files).1 k) ∧
    ∀ k, (∀ m ∈ ms, ¬ Belongs m.tally k) → Dict.get? (writeAll vtk fmt ms files).1 k = Dict.get? files k := by
  induction ms generalizing files with
  | nil => exact ⟨by simp, fun k _ => rfl⟩
  | cons m ms ih =>
    rw [writeAll] at h ⊢
    cases hw : write vtk m none fmt none files with
    | mk f' e =>
    cases e with
    | some e => rw [hw] at h; simp at h
    | none =>
      rw [hw] at h
      simp only at h ⊢
      rw [List.map_cons, List.nodup_cons] at hd
      obtain ⟨h1, h2⟩ := ih f' hd.2 h
      have hf' : ∀ k, ¬ Belongs m.tally k → Dict.get? f' k = Dict.get? files k := by
        intro k hk
        have := write_keeps vtk m fmt files k hk
        rwa [hw] at this
      constructor
      · intro m' hm'
        rcases List.mem_cons.1 hm' with rfl | hm'
        · rw [hw]
          refine ⟨rfl, fun k hk => h2 k ?_⟩
          intro m2 hm2 hb
          have := belongs_one hk hb
          exact hd.1 (by rw [this]; exact List.mem_map_of_mem hm2)
        · obtain ⟨h3, h4⟩ := h1 m' hm'
          have hne : m'.tally ≠ m.tally := fun e => hd.1 (by rw [← e]; exact List.mem_map_of_mem hm')
          refine ⟨?_, fun k hk => ?_⟩
          · rw [← h3]
            exact (write_local vtk m' fmt files files [] rfl).2.trans
              (by
                have : ∃ k : Str, ¬ Belongs m.tally k := ⟨[], by rintro ⟨s, hs⟩; simp at hs⟩
                obtain ⟨k, hk⟩ := this
                exact (write_local vtk m' fmt files f' k (hf' k hk).symm).2)
          · rw [h4 k hk]
            exact (write_local vtk m' fmt f' files k (hf' k (fun hb => hne (belongs_one hk hb)))).1
      · intro k hk
        rw [h2 k (fun m2 hm2 => hk m2 (List.mem_cons_of_mem _ hm2)), hf' k (hk m (by simp))]

example : writeAll (fun _ => "vtk".toList) "vtk".toList [exMesh, { exMesh with tally := 14, kind := "StructuredGrid".toList }] [("x".toList, [])] =
    ([("x".toList, []), ("Tally_4_vtk.vtr".toList, "vtk".toList), ("Tally_14_vtk.vts".toList, "vtk".toList)], none) := by decide +kernel

example : (write (fun _ => []) exMesh (some ["Value - Total".toList]) "point_cloud".toList none []).1 =
    [("Tally_4_point_cloud_Value - Total.txt".toList, "x, y, z, value\n0.500,0.000,0.000,5.000\n1.500,0.000,-1.000,0.000\n".toList)] := by decide +kernel

end F4Enix.FmeshW
