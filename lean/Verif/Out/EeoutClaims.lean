import Verif.Out.EeoutFile
/-!
# What a user relies on when reading an eeout file (C124-C128)
-/
namespace F4Enix.Eeout
open F4Enix

variable {K : Type}

/-- C124: points, elements (nodes counted from 0, behind their number) and names of the materials are those of the file. -/
theorem read_mesh {pf : Str → Option K} {t : Text} {m : Data K} {n : ℕ} {nums : List (Str × ℕ)} (h : Layout pf t m n nums) :
    ∃ g, readFile pf t.lines = .ok g ∧ g.points = m.points ∧
      (∀ i : ℕ, g.cells[i]? = m.elements[i]?.map (fun x : List ℕ => (n : ℤ) :: x.map (fun k : ℕ => (k : ℤ) - 1))) ∧
      ∀ i k : ℕ, m.elemMats[i]? = some (k + 1) → g.material.1[i]? = some m.materials[k]? := by
  refine ⟨_, read_file h, rfl, fun i => by simp [Data.grid], ?_⟩
  intro i k hk
  simp [Data.grid, hk]

theorem get?_append_fresh {κ ν : Type} [DecidableEq κ] {a b : Dict κ ν} {k : κ} (h : k ∉ a.map Prod.fst) : Dict.get? (a ++ b) k = Dict.get? b k := by
  induction a with
  | nil => rfl
  | cons x a ih =>
    obtain ⟨k', v⟩ := x
    rw [List.map_cons, List.mem_cons, not_or] at h
    rw [List.cons_append, Dict.get?, if_neg (fun e => h.1 e.symm), ih h.2]

theorem arrays_get {m : Data K} {n : ℕ} (hn : (m.edits.map Edit.name).Nodup) {e : Edit K} (he : e ∈ m.edits) :
    Dict.get? (m.grid n).arrays (e.name ++ " - value".toList) = some ((lastOf .values e.blocks).getD [], m.loc) ∧
    Dict.get? (m.grid n).arrays (e.name ++ " - error".toList) = some ((lastOf .errors e.blocks).getD [], m.loc) := by
  have hnd := (array_names hn m.loc).1
  have hT : ∀ s : Str, e.name ++ s ∉ [("density".toList, (m.density, m.loc)), ("volume".toList, (m.volume, m.loc))].map Prod.fst := by
    intro s hs
    have ht : (e.name ++ s).head? = some 'T' := rfl
    simp only [List.map_cons, List.map_nil, List.mem_cons, List.not_mem_nil, or_false] at hs
    rcases hs with hs | hs <;> rw [hs] at ht <;> revert ht <;> decide
  have hm : ∀ x ∈ e.arrays m.loc, x ∈ m.edits.flatMap (fun e => e.arrays m.loc) := fun x hx => List.mem_flatMap.2 ⟨e, he, hx⟩
  have ha : (m.grid n).arrays = [("density".toList, (m.density, m.loc)), ("volume".toList, (m.volume, m.loc))] ++ m.edits.flatMap (fun e => e.arrays m.loc) := by
    unfold Data.grid
    rfl
  rw [ha, get?_append_fresh (hT _), get?_append_fresh (hT _)]
  constructor
  · exact Dict.get?_of_mem hnd (hm _ (by simp [Edit.arrays]))
  · exact Dict.get?_of_mem hnd (hm _ (by simp [Edit.arrays]))

/-- C125, for edits with one block of values and one of errors: both are found under the name of the edit; densities and volumes under theirs. -/
theorem read_results_partial {pf : Str → Option K} {t : Text} {m : Data K} {n : ℕ} {nums : List (Str × ℕ)} (h : Layout pf t m n nums) :
    ∃ g, readFile pf t.lines = .ok g ∧ (∀ e ∈ m.edits, ∀ v w, e.blocks = [(.values, v), (.errors, w)] →
        (Dict.get? g.arrays (e.name ++ " - value".toList)).map Prod.fst = some v ∧
        (Dict.get? g.arrays (e.name ++ " - error".toList)).map Prod.fst = some w) ∧
      (Dict.get? g.arrays "density".toList).map Prod.fst = some m.density ∧ (Dict.get? g.arrays "volume".toList).map Prod.fst = some m.volume := by
  refine ⟨_, read_file h, ?_, ?_, ?_⟩
  · intro e he v w hb
    obtain ⟨h1, h2⟩ := arrays_get (n := n) h.names he
    rw [h1, h2, hb]
    exact ⟨rfl, rfl⟩
  · unfold Data.grid
    simp [Dict.get?]
  · have hne : "density".toList ≠ "volume".toList := by decide
    unfold Data.grid
    simp only [Dict.get?, if_neg hne, if_true]
    rfl

/-- the same data with the earlier blocks of an edit left out (specification) -/
def Data.dropBlocks (m : Data K) (k : ℕ) : Data K :=
  { m with edits := m.edits.map (fun e => { e with blocks := e.blocks.drop k }) }

/-- C125 is false for edits with several blocks (energy or time bins): whatever the first `k` blocks of an edit say, the grid is the same as without
them, as long as a block of each kind follows. -/
theorem bins_lost {m : Data K} {n k : ℕ} (h : ∀ e ∈ m.edits, ∀ w, ∃ b ∈ e.blocks.drop k, b.1 = w) : m.grid n = (m.dropBlocks k).grid n := by
  have key : ∀ w (bs : List (Which × List K)), (∃ b ∈ bs.drop k, b.1 = w) → lastOf w bs = lastOf w (bs.drop k) := by
    intro w bs hb
    have e : bs = bs.take k ++ bs.drop k := (List.take_append_drop k bs).symm
    obtain ⟨b, hb1, hb2⟩ := hb
    have hne : (bs.drop k).filter (fun b => decide (b.1 = w)) ≠ [] := by
      intro h0
      have : b ∈ (bs.drop k).filter (fun b => decide (b.1 = w)) := List.mem_filter.2 ⟨hb1, decide_eq_true hb2⟩
      rw [h0] at this; cases this
    conv_lhs => rw [e]
    unfold lastOf
    rw [List.filter_append, List.getLast?_append_of_ne_nil _ hne]
  have ha : m.edits.flatMap (fun e => e.arrays m.loc) = (m.dropBlocks k).edits.flatMap (fun e => e.arrays m.loc) := by
    rw [Data.dropBlocks, List.flatMap_map]
    apply List.flatMap_congr
    intro e he
    rw [Edit.arrays, Edit.arrays, key .values e.blocks (h e he .values), key .errors e.blocks (h e he .errors)]
    rfl
  have hl : (m.dropBlocks k).loc = m.loc := rfl
  unfold Data.grid
  rw [hl, ha]
  rfl

/-- C126, if there are not as many points as elements: every array is attached to the cells. -/
theorem read_places_partial {pf : Str → Option K} {t : Text} {m : Data K} {n : ℕ} {nums : List (Str × ℕ)} (h : Layout pf t m n nums)
    (hne : m.elements.length ≠ m.points.length) :
    ∃ g, readFile pf t.lines = .ok g ∧ g.material.2 = .cells ∧ ∀ x ∈ g.arrays, x.2.2 = .cells := by
  have hl : m.loc = .cells := by simp [Data.loc, hne]
  refine ⟨_, read_file h, hl, ?_⟩
  intro x hx
  unfold Data.grid at hx
  simp only [List.mem_cons, List.mem_flatMap, Edit.arrays, List.not_mem_nil, or_false] at hx
  rcases hx with rfl | rfl | ⟨e, _, rfl | rfl⟩ <;> exact hl

/-- C126 is false if there are as many points as elements: the values of the elements are attached to the points. -/
theorem read_on_points {pf : Str → Option K} {t : Text} {m : Data K} {n : ℕ} {nums : List (Str × ℕ)} (h : Layout pf t m n nums)
    (he : m.elements.length = m.points.length) :
    ∃ g, readFile pf t.lines = .ok g ∧ g.material.2 = .points ∧ ∀ x ∈ g.arrays, x.2.2 = .points := by
  have hl : m.loc = .points := by simp [Data.loc, he]
  refine ⟨_, read_file h, hl, ?_⟩
  intro x hx
  unfold Data.grid at hx
  simp only [List.mem_cons, List.mem_flatMap, Edit.arrays, List.not_mem_nil, or_false] at hx
  rcases hx with rfl | rfl | ⟨e, _, rfl | rfl⟩ <;> exact hl

/-- the number of nodes of a cell of this VTK type, for the two types of tetrahedra (specification) -/
def vtkNodes : ℕ → Option ℕ
  | 10 => some 4    -- VTK_TETRA
  | 24 => some 10   -- VTK_QUADRATIC_TETRA
  | _ => none

/-- C127, for tetrahedra of first order: the type of the cells is the one that has as many nodes. -/
theorem read_type_partial {pf : Str → Option K} {t : Text} {m : Data K} {nums : List (Str × ℕ)} (h : Layout pf t m 4 nums) :
    ∃ g, readFile pf t.lines = .ok g ∧ ∀ c ∈ g.cells, vtkNodes g.cellType = some (c.length - 1) := by
  refine ⟨_, read_file h, ?_⟩
  intro c hc
  unfold Data.grid at hc ⊢
  obtain ⟨x, hx, rfl⟩ := List.mem_map.1 hc
  simp [h.elements x hx, vtkNodes]

/-- C127 is false for tetrahedra of second order: their ten nodes are given to a cell of the type with four. -/
theorem quadratic_type {pf : Str → Option K} {t : Text} {m : Data K} {nums : List (Str × ℕ)} (h : Layout pf t m 10 nums) :
    ∃ g, readFile pf t.lines = .ok g ∧ vtkNodes g.cellType = some 4 ∧ ∀ c ∈ g.cells, c.length - 1 = 10 := by
  refine ⟨_, read_file h, rfl, ?_⟩
  intro c hc
  unfold Data.grid at hc
  obtain ⟨x, hx, rfl⟩ := List.mem_map.1 hc
  simp [h.elements x hx]

/-! ### refused files -/

/-- C128: both orders together, or none, are refused. -/
theorem mixed_refused (t1 t2 : ℕ) : elements t1 t2 = .error .notImplemented ↔ ¬ (0 < t1 ∧ t2 = 0) ∧ ¬ (0 < t2 ∧ t1 = 0) := by
  unfold elements
  by_cases h1 : 0 < t1 ∧ t2 = 0
  · simp [h1]
  · by_cases h2 : 0 < t2 ∧ t1 = 0
    · simp [h2]
    · simp [h1, h2]

/-- C128: a file whose connectivity is ordered by nodes is refused. -/
theorem node_ordered (n : ℕ) {ch : Str} (h : "CONNECTIVITY DATA".toList <:+: ch ∧ "NODE ORDERED".toList <:+: ch) (rest : List Str) :
    connectivity n (ch :: rest) = .error .notImplemented := by
  have : connLines false [] (ch :: rest) = .error .notImplemented := by
    cases rest with
    | nil => rw [connLines, (has_iff _ _).2 h.1, (has_iff _ _).2 h.2]; simp
    | cons r R =>
      rw [connLines, (has_iff _ _).2 h.1, (has_iff _ _).2 h.2]
      · simp
      · simp
  unfold connectivity
  rw [this]

/-- C128: a file without the line `NUMBER OF EDITS` is refused (unless a line of the head is malformed). -/
theorem info_end {ls : List Str} (h : ∀ l ∈ ls, ¬ "NUMBER OF EDITS".toList <:+: l) (f : Bool) (d : Dict Str ℕ) : ∃ e, infoLoop f d ls = .error e := by
  induction ls generalizing f d with
  | nil => exact ⟨_, rfl⟩
  | cons l ls ih =>
    rw [infoLoop, has_false (h l (by simp))]
    simp only [Bool.false_eq_true, if_false]
    split
    · cases infoLine l with
      | error e => exact ⟨e, rfl⟩
      | ok x => exact ih (fun x hx => h x (by simp [hx])) true _
    · exact ih (fun x hx => h x (by simp [hx])) false d

/-- C128: a file that ends before the element types is refused. -/
theorem nodes_end {pf : Str → Option K} {ls : List Str} (h : ∀ l ∈ ls, ¬ " ELEMENT TYPE".toList <+: l) (fx fy fz : Bool) (xs ys zs : List K) :
    ∃ e, nodesLoop pf fx fy fz xs ys zs ls = .error e := by
  induction ls generalizing fx fy fz xs ys zs with
  | nil => exact ⟨_, rfl⟩
  | cons l ls ih =>
    rw [nodesLoop, isPrefixOf_false (h l (by simp))]
    cases take pf fx l xs with
    | error e => exact ⟨e, rfl⟩
    | ok a =>
      cases take pf fy l ys with
      | error e => exact ⟨e, rfl⟩
      | ok b =>
        cases take pf fz l zs with
        | error e => exact ⟨e, rfl⟩
        | ok c => exact ih (fun x hx => h x (by simp [hx])) _ _ _ _ _ _

/-- C128: a file that ends before the connectivity is refused. -/
theorem material_end {ls : List Str} (h : ∀ l ∈ ls, ¬ "CONNECTIVITY DATA".toList <:+: l) (f : Bool) (acc : List ℤ) :
    ∃ e, materialLoop f acc ls = .error e := by
  induction ls generalizing f acc with
  | nil => exact ⟨_, rfl⟩
  | cons l ls ih =>
    rw [materialLoop, has_false (h l (by simp))]
    simp only [Bool.false_eq_true, if_false]
    generalize (if f = true then ints (words l) else .ok [] : Except PyErr (List ℤ)) = r
    cases r with
    | error e => exact ⟨e, rfl⟩
    | ok vs => exact ih (fun x hx => h x (by simp [hx])) _ _

/-- C128: a file that ends before the centroids is refused. -/
theorem edits_end {pf : Str → Option K} {ls : List Str} (h : ∀ l ∈ ls, ¬ "CENTROIDS X".toList <:+: l) (s : State K) : ∃ e, editsLoop pf s ls = .error e := by
  induction ls generalizing s with
  | nil => exact ⟨_, rfl⟩
  | cons l ls ih =>
    rw [editsLoop, has_false (h l (by simp))]
    cases editStep pf s l with
    | error e => exact ⟨e, rfl⟩
    | ok s' => exact ih (fun x hx => h x (by simp [hx])) s'

theorem rest_of_nodes {pf : Str → Option K} {ls : List Str} {fx fy fz : Bool} {xs ys zs : List K} {r : List (K × K × K) × List Str}
    (h : nodesLoop pf fx fy fz xs ys zs ls = .ok r) : r.2 <:+ ls := by
  induction ls generalizing fx fy fz xs ys zs with
  | nil => cases h
  | cons l ls ih =>
    rw [nodesLoop] at h
    revert h
    cases take pf fx l xs with
    | error e => intro h; cases h
    | ok a =>
      cases take pf fy l ys with
      | error e => intro h; cases h
      | ok b =>
        cases take pf fz l zs with
        | error e => intro h; cases h
        | ok c =>
          simp only
          split
          · cases columns a b c with
            | error e => intro h; cases h
            | ok ps => intro h; cases h; exact List.suffix_refl _
          · intro h
            exact (ih h).trans (List.suffix_cons _ _)

theorem rest_of_material {ls : List Str} {f : Bool} {acc : List ℤ} {r : List ℤ × List Str} (h : materialLoop f acc ls = .ok r) : r.2 <:+ ls := by
  induction ls generalizing f acc with
  | nil => cases h
  | cons l ls ih =>
    rw [materialLoop] at h
    revert h
    split
    · intro h; cases h; exact List.suffix_refl _
    · generalize (if f = true then ints (words l) else .ok [] : Except PyErr (List ℤ)) = x
      cases x with
      | error e => intro h; cases h
      | ok vs => intro h; exact (ih h).trans (List.suffix_cons _ _)

theorem rest_of_conn {ls : List Str} {f : Bool} {acc : List Str} {r : List Str × List Str} (h : connLines f acc ls = .ok r) : r.2 <:+ ls := by
  induction ls generalizing f acc with
  | nil => cases h; exact List.suffix_refl _
  | cons l ls ih =>
    rw [connLines.eq_def] at h
    simp only at h
    revert h
    split
    · intro h; cases h
    · split
      · intro h; cases h; exact List.suffix_refl _
      · cases ls with
        | nil => intro h; cases h; exact List.suffix_refl _
        | cons y ys => intro h; exact (ih h).trans (List.suffix_cons _ _)

/-- C128: a file that lacks one of the lines that end a section (`NUMBER OF EDITS`, `PARTICLE LIST`, `ELEMENT TYPE`, `CONNECTIVITY DATA`,
`CENTROIDS X`) is refused: no grid is made of a truncated file. -/
theorem truncated (pf : Str → Option K) (ls : List Str)
    (h : (∀ l ∈ ls, ¬ "NUMBER OF EDITS".toList <:+: l) ∨ (∀ l ∈ ls, ¬ "PARTICLE LIST".toList <:+: l) ∨ (∀ l ∈ ls, ¬ " ELEMENT TYPE".toList <+: l) ∨
      (∀ l ∈ ls, ¬ "CONNECTIVITY DATA".toList <:+: l) ∨ (∀ l ∈ ls, ¬ "CENTROIDS X".toList <:+: l)) :
    ∃ e, readFile pf ls = .error e := by
  cases hr : readFile pf ls with
  | error e => exact ⟨e, rfl⟩
  | ok g =>
    exfalso
    unfold readFile at hr
    simp only [bind, Except.bind] at hr
    cases h1 : infoLoop false [] ls with
    | error e => rw [h1] at hr; cases hr
    | ok info =>
      rw [h1] at hr; simp only at hr
      cases h2 : getInfo info "NUMBER OF MATERIALS" with
      | error e => rw [h2] at hr; cases hr
      | ok nm =>
        rw [h2] at hr; simp only at hr
        cases h3 : matNames nm 0 [] (behindMats ls) with
        | error e => rw [h3] at hr; cases hr
        | ok names =>
          rw [h3] at hr; simp only at hr
          cases h4 : getInfo info "NUMBER OF 1st TETS" with
          | error e => rw [h4] at hr; cases hr
          | ok t1 =>
            rw [h4] at hr; simp only at hr
            cases h5 : getInfo info "NUMBER OF 2nd TETS" with
            | error e => rw [h5] at hr; cases hr
            | ok t2 =>
              rw [h5] at hr; simp only at hr
              cases h6 : getInfo info "NUMBER OF NODES" with
              | error e => rw [h6] at hr; cases hr
              | ok nn =>
                rw [h6] at hr; simp only at hr
                cases h7 : elements t1 t2 with
                | error e => rw [h7] at hr; cases hr
                | ok el =>
                  rw [h7] at hr; simp only at hr
                  cases h8 : particleList ls with
                  | error e => rw [h8] at hr; cases hr
                  | ok pl =>
                    rw [h8] at hr; simp only at hr
                    cases h9 : getInfo info "NUMBER OF PARTICLES" with
                    | error e => rw [h9] at hr; cases hr
                    | ok np =>
                      rw [h9] at hr; simp only at hr
                      by_cases h10 : pl.length ≠ np
                      · rw [if_pos h10] at hr; cases hr
                      · rw [if_neg h10] at hr
                        cases h11 : nodesLoop pf false false false [] [] [] ls with
                        | error e => rw [h11] at hr; cases hr
                        | ok x =>
                          rw [h11] at hr; simp only at hr
                          cases h12 : materialLoop false [] x.2 with
                          | error e => rw [h12] at hr; cases hr
                          | ok y =>
                            rw [h12] at hr; simp only at hr
                            cases h13 : connectivity el.2 y.2 with
                            | error e => rw [h13] at hr; cases hr
                            | ok z =>
                              rw [h13] at hr; simp only at hr
                              cases h14 : editsLoop pf {} z.2 with
                              | error e => rw [h14] at hr; cases hr
                              | ok w =>
                                have hx : x.2 <:+ ls := rest_of_nodes h11
                                have hy : y.2 <:+ ls := (rest_of_material h12).trans hx
                                have hz : z.2 <:+ ls := by
                                  unfold connectivity at h13
                                  cases hc : connLines false [] y.2 with
                                  | error e => rw [hc] at h13; cases h13
                                  | ok cd =>
                                    rw [hc] at h13
                                    have hs := (rest_of_conn hc).trans hy
                                    obtain ⟨data, rest⟩ := cd
                                    simp only at h13
                                    split at h13
                                    · cases h13
                                    · cases hi : nodeIdLines (data.take (data.length - 2)) with
                                      | error e => rw [hi] at h13; cases h13
                                      | ok ids =>
                                        rw [hi] at h13
                                        simp only at h13
                                        split at h13
                                        · cases h13; exact hs
                                        · cases h13
                                rcases h with h | h | h | h | h
                                · obtain ⟨e, he⟩ := info_end h false []
                                  rw [h1] at he; cases he
                                · have : particleList ls = .error .runtimeError := by
                                    clear hr h1 h8 h11 h12 h13 h14 hx hy hz h3
                                    induction ls with
                                    | nil => rfl
                                    | cons l ls ih =>
                                      rw [particleList.eq_def]
                                      simp only [has_false (h l (by simp)), Bool.false_eq_true, if_false]
                                      exact ih (fun x hx => h x (by simp [hx]))
                                  rw [h8] at this; cases this
                                · obtain ⟨e, he⟩ := nodes_end (pf := pf) h false false false [] [] []
                                  rw [h11] at he; cases he
                                · obtain ⟨e, he⟩ := material_end (fun l hl => h l (hx.subset hl)) false []
                                  rw [h12] at he; cases he
                                · obtain ⟨e, he⟩ := edits_end (pf := pf) (fun l hl => h l (hz.subset hl)) {}
                                  rw [h14] at he; cases he

end F4Enix.Eeout
