import Verif.Out.Meshinfo
import Verif.Out.MeshtalRead
/-!
# Theorems about meshinfo files (C41, C77, C78)
-/
namespace F4Enix.MInfo
open F4Enix F4Enix.Mesh

/-! ### filters -/

theorem zip_mask (df : List Row) (p q : Row → Bool) :
    List.zipWith (fun m r => m && q r) (df.map p) df = df.map (fun r => p r && q r) := by
  induction df with
  | nil => rfl
  | cons r df ih => simp [ih]

theorem zip_filter (df : List Row) (p : Row → Bool) :
    ((List.zip (df.map p) df).filter Prod.fst).map Prod.snd = df.filter p := by
  induction df with
  | nil => rfl
  | cons r df ih =>
    simp only [List.map_cons, List.zip_cons_cons, List.filter_cons]
    cases h : p r <;> simp [ih]

/-- a filter that is not given lets everything through (specification) -/
def Passes (f : Option (List ℤ)) (x : ℤ) : Prop := ∀ l, f = some l → x ∈ l

instance (f : Option (List ℤ)) (x : ℤ) : Decidable (Passes f x) :=
  match f with
  | none => isTrue (by intro l h; cases h)
  | some l => if h : x ∈ l then isTrue (by rintro _ ⟨⟩; exact h) else isFalse (fun g => h (g l rfl))

theorem passes_none (x : ℤ) : Passes none x := by intro l h; cases h
theorem passes_some (l : List ℤ) (x : ℤ) : Passes (some l) x ↔ x ∈ l :=
  ⟨fun h => h l rfl, by rintro h _ ⟨⟩; exact h⟩

/-- **C41 (filters).** The filtered frame consists of the rows that pass all the given filters, in their order and
with their multiplicity. -/
theorem filtered_exact (df : List Row) (voxels materials cells : Option (List ℤ)) :
    filtered df voxels materials cells =
      df.filter (fun r => decide (Passes voxels r.voxel ∧ Passes materials r.mat ∧ Passes cells r.cell)) := by
  have e : filtered df voxels materials cells = df.filter (fun r =>
      decide (Passes voxels r.voxel) && decide (Passes materials r.mat) && decide (Passes cells r.cell)) := by
    unfold filtered
    cases voxels <;> cases materials <;> cases cells <;>
      simp only [zip_mask, zip_filter] <;>
      refine List.filter_congr (fun r _ => ?_) <;> simp [passes_none, passes_some]
  rw [e]
  refine List.filter_congr (fun r _ => ?_)
  simp [Bool.and_assoc]

theorem mem_unique {l : List ℤ} {x : ℤ} : x ∈ unique l ↔ x ∈ l := by
  induction l with
  | nil => rfl
  | cons y l ih =>
    simp only [unique, List.mem_cons, List.mem_filter, ih, decide_eq_true_eq]
    by_cases h : x = y <;> simp [h]

theorem unique_nodup (l : List ℤ) : (unique l).Nodup := by
  induction l with
  | nil => exact List.nodup_nil
  | cons y l ih =>
    simp only [unique]
    refine List.nodup_cons.2 ⟨by simp, ih.filter _⟩

/-- **C41 (cells).** The cells of the given materials: every cell with a row of one of them, each once. -/
theorem cells_exact (df : List Row) (materials : Option (List ℤ)) :
    (cellsOf df materials).Nodup ∧
    ∀ c, c ∈ cellsOf df materials ↔ ∃ r ∈ df, r.cell = c ∧ Passes materials r.mat := by
  refine ⟨unique_nodup _, fun c => ?_⟩
  unfold cellsOf
  rw [mem_unique, List.mem_map, filtered_exact]
  constructor
  · rintro ⟨r, hr, rfl⟩
    obtain ⟨h1, h2⟩ := List.mem_filter.1 hr
    exact ⟨r, h1, rfl, (of_decide_eq_true h2).2.1⟩
  · rintro ⟨r, hr, rfl, hp⟩
    exact ⟨r, List.mem_filter.2 ⟨hr, decide_eq_true ⟨passes_none _, hp, passes_none _⟩⟩, rfl⟩

/-- **C41 (materials).** The materials of the frame, ascending, each once. -/
theorem materials_exact (df : List Row) :
    (materialsOf df).Pairwise (· < ·) ∧ ∀ m, m ∈ materialsOf df ↔ ∃ r ∈ df, r.mat = m := by
  have hp : (materialsOf df).Perm (unique (df.map Row.mat)) := List.perm_insertionSort _ _
  constructor
  · have hs : (materialsOf df).Pairwise (· ≤ ·) := List.pairwise_insertionSort _ _
    have hn : (materialsOf df).Nodup := hp.nodup_iff.2 (unique_nodup _)
    exact (hs.and hn).imp (fun h => by
      have h1 := h.1
      have h2 := h.2
      omega)
  · intro m
    rw [hp.mem_iff, mem_unique, List.mem_map]

/-! ### order of the frame -/

theorem rowLe_trans (a b c : Row) (h1 : rowLe a b = true) (h2 : rowLe b c = true) : rowLe a c = true := by
  simp only [rowLe, Bool.or_eq_true, Bool.and_eq_true, decide_eq_true_eq] at *
  omega

theorem rowLe_total (a b : Row) : (rowLe a b || rowLe b a) = true := by
  simp only [rowLe, Bool.or_eq_true, Bool.and_eq_true, decide_eq_true_eq]
  omega

/-- the frame has the given rows, sorted by voxel, then material, then cell (specification) -/
def Sorted (rows : List Row) : Prop :=
  rows.Pairwise (fun a b => a.voxel < b.voxel ∨ (a.voxel = b.voxel ∧ (a.mat < b.mat ∨ (a.mat = b.mat ∧ a.cell ≤ b.cell))))

theorem sorted_iff (rows : List Row) : Sorted rows ↔ rows.Pairwise (fun a b => rowLe a b = true) := by
  unfold Sorted
  refine ⟨fun h => h.imp ?_, fun h => h.imp ?_⟩ <;>
    simp [rowLe, Bool.or_eq_true, Bool.and_eq_true]

instance : IsTrans Row (fun a b => rowLe a b = true) := ⟨rowLe_trans⟩
instance : Std.Total (fun a b : Row => rowLe a b = true) :=
  ⟨fun a b => by simpa [Bool.or_eq_true] using rowLe_total a b⟩

theorem dataMass_sorted (rows : List Row) : (dataMass rows).Perm rows ∧ Sorted (dataMass rows) :=
  ⟨List.perm_insertionSort _ _, (sorted_iff _).2 (List.pairwise_insertionSort _ _)⟩

theorem dataMass_of_sorted {rows : List Row} (h : Sorted rows) : dataMass rows = rows :=
  List.Pairwise.insertionSort_eq ((sorted_iff _).1 h)

/-! ### what is in the file -/

/-- a cell in a voxel (specification) -/
structure CellRec where
  id : ℤ
  density : ℚ
  mat : ℤ
  frac : ℚ

/-- a voxel and its cells (specification) -/
structure VoxelRec where
  id : ℤ
  volume : ℚ
  cells : List CellRec

/-- a mesh; `pos` is origin, axis and vec of a cylindrical one, whose third axis is in revolutions here (specification) -/
structure MeshRec where
  vi : List ℚ
  vj : List ℚ
  vk : List ℚ
  pos : Option (List ℚ × List ℚ × List ℚ)
  voxels : List VoxelRec

/-- mass of a cell in a voxel: density times the part of the volume that it fills (specification) -/
def massOf (v : VoxelRec) (c : CellRec) : ℚ := c.density * (c.frac * v.volume)

/-- the rows the frame should have; the volumes of cylindrical meshes are too large by `2π` in the file (specification) -/
def massRows (unit : ℚ) (vs : List VoxelRec) : List Row :=
  vs.flatMap (fun v => v.cells.map (fun c => ⟨v.id, c.mat, c.id, massOf v c / unit⟩))

/-- the line of a cell: number, density, material, fraction (specification) -/
def IsCellLine (num : ParseNum) (l : Str) (c : CellRec) : Prop :=
  ∃ a b d e, tokens l = [a, b, d, e] ∧ parseInt a = some c.id ∧ num b = some c.density ∧ parseInt d = some c.mat ∧
    num e = some c.frac

/-- a voxel: number, volume, number of cells, and then the cells (specification) -/
def IsVoxel (num : ParseNum) (v : VoxelRec) (ls : List Str) : Prop :=
  ∃ h cs, ls = h :: cs ∧ (∃ a b n, tokens h = [a, b, n] ∧ parseInt a = some v.id ∧ num b = some v.volume ∧
    parseInt n = some (v.cells.length : ℤ)) ∧ List.Forall₂ (IsCellLine num) cs v.cells

/-- the boundaries of an axis after two words (specification) -/
def IsAxis (num : ParseNum) (l : Str) (qs : List ℚ) : Prop :=
  ∃ a b ws, tokens l = a :: b :: ws ∧ ws.map num = qs.map some

/-- an angle as printed: one digit, a point, eight digits (specification) -/
def IsAngle (w : Str) : Prop :=
  ∃ d ds, w = d :: '.' :: ds ∧ isDigit d = true ∧ ds.length = 8 ∧ ∀ c ∈ ds, isDigit c = true

/-- the line of the angles: text without digits, then the angles, with or without text (no digits) between them (specification) -/
inductive IsAngles (num : ParseNum) : List ℚ → Str → Prop
  | last (t : Str) (h : ∀ c ∈ t, isDigit c = false) : IsAngles num [] t
  | angle (t w s : Str) (q : ℚ) (qs : List ℚ) (h : ∀ c ∈ t, isDigit c = false) (hw : IsAngle w) (hq : num w = some q)
      (hs : IsAngles num qs s) : IsAngles num (q :: qs) (t ++ w ++ s)

/-- three header lines, the geometry, the voxels (specification) -/
def IsMesh (num : ParseNum) (tau : ℚ) (m : MeshRec) (ls : List Str) : Prop :=
  ∃ (t g : List Str) (parts : List (List Str)), ls = t ++ g ++ parts.flatten ∧ t.length = 3 ∧
    List.Forall₂ (IsVoxel num) m.voxels parts ∧
    m.vi ≠ [] ∧ m.vj ≠ [] ∧ m.vk ≠ [] ∧
    m.voxels.length = (m.vi.length - 1) * (m.vj.length - 1) * (m.vk.length - 1) ∧
    match m.pos with
    | none => ∃ x y z, g = [x, y, z] ∧ IsAxis num x m.vi ∧ IsAxis num y m.vj ∧ IsAxis num z m.vk ∧
        (tokens x).head? ≠ some "origin".toList
    | some (o, a, v) => ∃ p x y z at_ axis in_ dir1 vec dir2 ws1 ws2 ws3 more angles, g = [p, x, y, z] ∧
        tokens p = ["origin".toList, at_] ++ ws1 ++ [axis, in_] ++ ws2 ++ [dir1, vec, dir2] ++ ws3 ++ more ∧
        ws1.length = 3 ∧ ws2.length = 3 ∧ ws3.length = 3 ∧
        ws1.map num = o.map some ∧ ws2.map num = a.map some ∧ ws3.map num = v.map some ∧
        IsAxis num x m.vi ∧ IsAxis num y m.vj ∧ IsAngles num angles z ∧ m.vk = angles.map (· / tau)

/-- the information about a mesh is right (specification) -/
def InfoOf (tau : ℚ) (m : MeshRec) (i : Info) : Prop :=
  i.vi = m.vi ∧ i.vj = m.vj ∧ i.vk = m.vk ∧ i.pos = m.pos ∧ i.cyl = m.pos.isSome ∧
  ∃ rows, i.mass = some rows ∧ Sorted rows ∧ rows.Perm (massRows (if m.pos.isSome then tau else 1) m.voxels)

/-! ### reading it -/

theorem readCell_ok {num : ParseNum} {l : Str} {c : CellRec} (vol : ℚ) (h : IsCellLine num l c) :
    readCell num vol l = .ok (c.id, c.mat, vol * c.frac * c.density) := by
  obtain ⟨a, b, d, e, ht, h1, h2, h3, h4⟩ := h
  unfold readCell toInt toNum
  rw [ht]
  simp only [bind, Except.bind, pure, Except.pure]
  rw [h1]
  simp only
  rw [h2]
  simp only
  rw [h3]
  simp only
  rw [h4]

theorem readCells_ok {num : ParseNum} {cs : List Str} {cells : List CellRec} (v : ℤ) (vol : ℚ) (rest : List Str)
    (h : List.Forall₂ (IsCellLine num) cs cells) :
    readCells num v vol cells.length (cs ++ rest) =
      .ok (cells.map (fun c => ⟨v, c.mat, c.id, vol * c.frac * c.density⟩), rest) := by
  induction h with
  | nil => rfl
  | cons h _ ih =>
    simp only [List.length_cons, readCells, List.cons_append, List.headD_cons, List.tail_cons]
    rw [readCell_ok vol h]
    simp only
    rw [ih]
    rfl

theorem readVoxels_ok {num : ParseNum} {vs : List VoxelRec} {parts : List (List Str)} (rest : List Str)
    (h : List.Forall₂ (IsVoxel num) vs parts) :
    readVoxels num vs.length (parts.flatten ++ rest) = .ok (massRows 1 vs, rest) := by
  induction h with
  | nil => rfl
  | cons h _ ih =>
    obtain ⟨hd, cs, rfl, ⟨a, b, n, ht, h1, h2, h3⟩, hc⟩ := h
    rename_i v p vs parts
    simp only [List.length_cons, readVoxels, List.flatten_cons, List.cons_append, List.headD_cons, List.tail_cons,
      List.append_assoc]
    have hh : readHead num hd = .ok (v.id, v.volume, (v.cells.length : ℤ)) := by
      unfold readHead toInt toNum
      rw [ht]
      simp only [bind, Except.bind, pure, Except.pure]
      rw [h1]
      simp only
      rw [h2]
      simp only
      rw [h3]
    rw [hh]
    simp only [Int.toNat_natCast]
    rw [readCells_ok v.id v.volume _ hc]
    simp only
    rw [ih]
    simp only [massRows, List.flatMap_cons, massOf, div_one]
    congr 2
    congr 1
    refine List.map_congr_left (fun c _ => ?_)
    congr 1
    ring

theorem rowNums_map {num : ParseNum} {ws : List Str} {qs : List ℚ} (h : ws.map num = qs.map some) :
    rowNums num ws = .ok qs := rowNums_ok h

theorem axis_ok {num : ParseNum} {l : Str} {qs : List ℚ} (h : IsAxis num l qs) :
    rowNums num ((tokens l).drop 2) = .ok qs := by
  obtain ⟨a, b, ws, ht, hw⟩ := h
  rw [ht]
  exact rowNums_map hw

theorem findAngles_skip (t s : Str) (n : Nat) : findAngles (t.length + n) (t ++ s) = findAngles n s := by
  induction t with
  | nil => simp
  | cons c t ih =>
    rw [List.length_cons, Nat.add_right_comm, List.cons_append, findAngles, ih]

theorem findAngles_quiet {t : Str} (s : Str) (h : ∀ c ∈ t, isDigit c = false) : findAngles 0 (t ++ s) = findAngles 0 s := by
  induction t with
  | nil => rfl
  | cons c t ih =>
    have hc := h c (by simp)
    simp only [List.cons_append, findAngles]
    have : angleHere (c :: (t ++ s)) = false := by
      unfold angleHere
      split
      · rename_i heq
        simp only [List.cons.injEq] at heq
        rw [← heq.1, hc]; rfl
      · rfl
    rw [this]
    simp only [Bool.false_eq_true, if_false]
    exact ih (fun d hd => h d (by simp [hd]))

theorem findAngles_angle {w : Str} (s : Str) (h : IsAngle w) : findAngles 0 (w ++ s) = w :: findAngles 0 s := by
  obtain ⟨d, ds, rfl, h1, h2, h3⟩ := h
  simp only [List.cons_append, findAngles]
  have : angleHere (d :: '.' :: (ds ++ s)) = true := by
    simp only [angleHere, h1, decide_true, Bool.true_and, Bool.and_eq_true, decide_eq_true_eq, List.length_append]
    refine ⟨by omega, ?_⟩
    rw [List.take_append_of_le_length (by omega), List.take_of_length_le (by omega), List.all_eq_true]
    exact h3
  rw [this]
  simp only [if_true]
  have e1 : (d :: '.' :: (ds ++ s)).take 10 = d :: '.' :: ds := by
    rw [List.take_succ_cons, List.take_succ_cons, List.take_append_of_le_length (by omega), List.take_of_length_le (by omega)]
  have e2 : findAngles 8 (ds ++ s) = findAngles 0 s := by
    have := findAngles_skip ds s 0
    rw [h2] at this
    exact this
  rw [e1, e2]

theorem angles_ok {num : ParseNum} {qs : List ℚ} {l : Str} (h : IsAngles num qs l) :
    (findAngles 0 l).map num = qs.map some := by
  induction h with
  | last t h =>
    have := findAngles_quiet [] h
    rw [List.append_nil] at this
    rw [this]; rfl
  | angle t w s q qs h hw hq _ ih =>
    rw [List.append_assoc, findAngles_quiet _ h, findAngles_angle _ hw, List.map_cons, hq, ih]
    rfl

theorem massRows_unit (unit : ℚ) (vs : List VoxelRec) :
    (massRows 1 vs).map (fun r => { r with mass := r.mass / unit }) = massRows unit vs := by
  unfold massRows
  rw [List.map_flatMap]
  congr 1
  funext v
  rw [List.map_map]
  refine List.map_congr_left (fun c _ => ?_)
  simp

theorem count_ok {m : MeshRec} {i : Info} (h1 : i.vi = m.vi) (h2 : i.vj = m.vj) (h3 : i.vk = m.vk) (n1 : m.vi ≠ [])
    (n2 : m.vj ≠ []) (n3 : m.vk ≠ []) :
    voxelCount i = (m.vi.length - 1) * (m.vj.length - 1) * (m.vk.length - 1) := by
  unfold voxelCount
  rw [h1, h2, h3]
  have a := List.length_pos_iff.2 n1
  have b := List.length_pos_iff.2 n2
  have c := List.length_pos_iff.2 n3
  obtain ⟨x, hx⟩ : ∃ x, m.vi.length = x + 1 := ⟨m.vi.length - 1, by omega⟩
  obtain ⟨y, hy⟩ : ∃ x, m.vj.length = x + 1 := ⟨m.vj.length - 1, by omega⟩
  obtain ⟨z, hz⟩ : ∃ x, m.vk.length = x + 1 := ⟨m.vk.length - 1, by omega⟩
  rw [hx, hy, hz]
  simp only [Nat.cast_add, Nat.cast_one, add_sub_cancel_right, Nat.add_sub_cancel]
  have : ((x : ℤ) * y * z) = ((x * y * z : Nat) : ℤ) := by push_cast; ring
  rw [this, Int.toNat_natCast]

/-- **C41 (one mesh).** Reading a mesh gives its axes and position and, per voxel and cell, the mass of the cell in
the voxel; nothing of what follows in the file is used up. -/
theorem readMesh_ok {num : ParseNum} {tau : ℚ} {m : MeshRec} {ls : List Str} (rest : List Str)
    (h : IsMesh num tau m ls) : ∃ i, readMesh num tau (ls ++ rest) = .ok (i, rest) ∧ InfoOf tau m i := by
  obtain ⟨t, g, parts, rfl, ht, hv, n1, n2, n3, hl, hg⟩ := h
  have hdrop : (t ++ g ++ parts.flatten ++ rest).drop 3 = g ++ (parts.flatten ++ rest) := by
    rw [← ht, List.append_assoc, List.append_assoc, List.drop_left]
  unfold readMesh
  simp only
  rw [hdrop]
  have hmass : ∀ i : Info, i.vi = m.vi → i.vj = m.vj → i.vk = m.vk →
      readMass num tau i (parts.flatten ++ rest) =
        .ok (dataMass (massRows (if i.cyl then tau else 1) m.voxels), rest) := by
    intro i e1 e2 e3
    unfold readMass
    rw [count_ok e1 e2 e3 n1 n2 n3, ← hl, readVoxels_ok rest hv]
    simp only
    cases i.cyl
    · simp
    · simp only [if_true]
      rw [massRows_unit]
  cases hp : m.pos with
  | none =>
    rw [hp] at hg
    obtain ⟨x, y, z, rfl, hx, hy, hz, hne⟩ := hg
    simp only [List.cons_append, List.nil_append, List.headD_cons, List.tail_cons]
    obtain ⟨a, b, ws, htx, hws⟩ := id hx
    rw [htx] at hne ⊢
    simp only [List.head?_cons, ne_eq, Option.some.injEq] at hne
    simp only
    rw [if_neg hne]
    have hh : headerCart num (a :: b :: ws) (y :: z :: (parts.flatten ++ rest)) =
        .ok (⟨false, none, m.vi, m.vj, m.vk, none⟩, parts.flatten ++ rest) := by
      unfold headerCart
      simp only [bind, Except.bind, pure, Except.pure, List.headD_cons, List.tail_cons]
      rw [← htx, axis_ok hx]
      simp only
      rw [axis_ok hy]
      simp only
      rw [axis_ok hz]
    rw [hh]
    simp only
    rw [hmass _ rfl rfl rfl]
    refine ⟨_, rfl, rfl, rfl, rfl, by rw [hp], by rw [hp]; rfl, _, rfl, (dataMass_sorted _).2, ?_⟩
    rw [hp]
    exact (dataMass_sorted _).1
  | some pos =>
    obtain ⟨o, ax, ve⟩ := pos
    rw [hp] at hg
    obtain ⟨p, x, y, z, at_, axis, in_, dir1, vec, dir2, ws1, ws2, ws3, more, angles, rfl, hpt, l1, l2, l3, m1, m2, m3,
      hx, hy, hz, hk⟩ := hg
    simp only [List.cons_append, List.nil_append, List.headD_cons, List.tail_cons]
    obtain ⟨a1, a2, a3, rfl⟩ := List.length_eq_three.1 l1
    obtain ⟨b1, b2, b3, rfl⟩ := List.length_eq_three.1 l2
    obtain ⟨c1, c2, c3, rfl⟩ := List.length_eq_three.1 l3
    simp only [List.cons_append, List.nil_append] at hpt
    rw [hpt]
    simp only
    rw [if_pos trivial]
    have hh : headerCyl num tau ("origin".toList :: at_ :: a1 :: a2 :: a3 :: axis :: in_ :: b1 :: b2 :: b3 :: dir1 :: vec ::
        dir2 :: c1 :: c2 :: c3 :: more) (x :: y :: z :: (parts.flatten ++ rest)) =
        .ok (⟨true, none, m.vi, m.vj, m.vk, some (o, ax, ve)⟩, parts.flatten ++ rest) := by
      unfold headerCyl
      simp only [bind, Except.bind, pure, Except.pure, List.headD_cons, List.tail_cons, List.drop_succ_cons, List.drop_zero,
        List.take_succ_cons, List.take_zero]
      rw [rowNums_map m1]
      simp only
      rw [rowNums_map m2]
      simp only
      rw [rowNums_map m3]
      simp only
      rw [axis_ok hx]
      simp only
      rw [axis_ok hy]
      simp only
      rw [rowNums_map (angles_ok hz)]
      simp only
      rw [← hk]
    rw [hh]
    simp only
    rw [hmass _ rfl rfl rfl]
    refine ⟨_, rfl, rfl, rfl, rfl, by rw [hp], by rw [hp]; rfl, _, rfl, (dataMass_sorted _).2, ?_⟩
    rw [hp]
    exact (dataMass_sorted _).1

/-- a file: lines without the mark, and meshes announced by it (specification) -/
inductive IsFile (num : ParseNum) (tau : ℚ) : List (ℤ × MeshRec) → List Str → Prop
  | done : IsFile num tau [] []
  | other (l : Str) (ms : List (ℤ × MeshRec)) (ls : List Str) (h : ¬ "Mesh tally number:".toList <:+: l)
      (t : IsFile num tau ms ls) : IsFile num tau ms (l :: ls)
  | mesh (l w : Str) (ws : List Str) (i : ℤ) (m : MeshRec) (ms : List (ℤ × MeshRec)) (a ls : List Str)
      (h : "Mesh tally number:".toList <:+: l) (hw : tokens l = ws ++ [w]) (hi : parseInt w = some i)
      (hm : IsMesh num tau m a) (t : IsFile num tau ms ls) : IsFile num tau ((i, m) :: ms) (l :: (a ++ ls))

theorem contains_iff (sub l : Str) : contains sub l = true ↔ sub <:+: l := by
  induction l with
  | nil => simp [contains]
  | cons b bs ih => simp [contains, ih, List.infix_cons_iff]

theorem fileLoop_ok {num : ParseNum} {tau : ℚ} {ms : List (ℤ × MeshRec)} {ls : List Str} (h : IsFile num tau ms ls) :
    ∀ (fuel : Nat) (d : Dict ℤ Info), ls.length ≤ fuel → (ms.map Prod.fst).Nodup → (∀ x ∈ ms, x.1 ∉ Dict.keys d) →
    ∃ d', fileLoop num tau fuel ls d = .ok d' ∧ (∀ x ∈ ms, ∃ i, Dict.get? d' x.1 = some i ∧ InfoOf tau x.2 i) ∧
      Dict.keys d' = Dict.keys d ++ ms.map Prod.fst ∧ ∀ k, k ∉ ms.map Prod.fst → Dict.get? d' k = Dict.get? d k := by
  induction h with
  | done =>
    intro fuel d _ _ _
    refine ⟨d, by cases fuel <;> rfl, by simp, by simp, by simp⟩
  | other l ms ls h _ ih =>
    intro fuel d hf hn hk
    cases fuel with
    | zero => simp at hf
    | succ fuel =>
      simp only [fileLoop]
      rw [if_neg (fun hc => h ((contains_iff _ _).1 hc))]
      exact ih fuel d (by simpa using hf) hn hk
  | mesh l w ws i m ms a ls h hw hi hm _ ih =>
    intro fuel d hf hn hk
    cases fuel with
    | zero => simp at hf
    | succ fuel =>
      simp only [fileLoop]
      rw [if_pos ((contains_iff _ _).2 h), hw]
      simp only [List.getLast?_append, List.getLast?_singleton, Option.some_or]
      unfold toInt
      rw [hi]
      simp only
      obtain ⟨inf, r1, r2⟩ := readMesh_ok ls hm
      rw [r1]
      simp only [List.map_cons, List.nodup_cons] at hn
      have hki := hk (i, m) (by simp)
      have hks : Dict.keys (Dict.set d i inf) = Dict.keys d ++ [i] := by
        rw [Dict.keys_set]; simp [hki]
      obtain ⟨d', e1, e2, e3, e4⟩ := ih fuel (Dict.set d i inf)
        (by simp only [List.length_cons, List.length_append] at hf; omega) hn.2 (by
          intro x hx
          rw [hks]
          simp only [List.mem_append, List.mem_singleton, not_or]
          refine ⟨hk x (by simp [hx]), ?_⟩
          intro he
          exact hn.1 (he ▸ List.mem_map_of_mem hx))
      refine ⟨d', e1, ?_, by rw [e3, hks]; simp, ?_⟩
      · intro x hx
        rcases List.mem_cons.1 hx with rfl | hx
        · refine ⟨inf, ?_, r2⟩
          rw [e4 i hn.1, Dict.get?_set_self]
        · exact e2 x hx
      · intro k hk'
        simp only [List.map_cons, List.mem_cons, not_or] at hk'
        rw [e4 k hk'.2, Dict.get?_set_ne _ _ (Ne.symm hk'.1)]

/-- **C41.** A meshinfo file gives, under the number of every mesh in it and under no other number, the axes of
the mesh and the masses in its voxels. -/
theorem file_exact {num : ParseNum} {tau : ℚ} {ms : List (ℤ × MeshRec)} {ls : List Str} (h : IsFile num tau ms ls)
    (hn : (ms.map Prod.fst).Nodup) :
    ∃ d, fromFile num tau ls = .ok d ∧ Dict.keys d = ms.map Prod.fst ∧
      ∀ x ∈ ms, ∃ i, Dict.get? d x.1 = some i ∧ InfoOf tau x.2 i := by
  obtain ⟨d, h1, h2, h3, _⟩ := fileLoop_ok h ls.length [] (le_refl _) hn (by simp [Dict.keys])
  exact ⟨d, h1, by rw [h3]; rfl, h2⟩

/-! ### comparison (C77) -/

theorem allEq_true_iff {a b : List ℚ} (h : a.length = b.length) : allEq a b = .ok (decide (a = b)) := by
  unfold allEq
  rw [if_pos h]
  congr 1
  induction a generalizing b with
  | nil => cases b with
    | nil => rfl
    | cons => simp at h
  | cons x a ih => cases b with
    | nil => simp at h
    | cons y b =>
      simp only [List.zipWith_cons_cons, List.all_cons, id_eq, List.cons.injEq]
      rw [ih (by simpa using h)]
      simp

/-- two meshes of the same kind have as many boundaries on every axis, positions of three coordinates, and masses (specification) -/
def SameSize (a b : Info) : Prop :=
  a.vi.length = b.vi.length ∧ a.vj.length = b.vj.length ∧ a.vk.length = b.vk.length ∧
  a.mass.isSome ∧ b.mass.isSome ∧ a.pos.isSome = a.cyl ∧ b.pos.isSome = b.cyl ∧
  (∀ p, a.pos = some p → p.1.length = 3 ∧ p.2.1.length = 3 ∧ p.2.2.length = 3) ∧
  (∀ p, b.pos = some p → p.1.length = 3 ∧ p.2.1.length = 3 ∧ p.2.2.length = 3)

theorem andThen_decide (p : Prop) [Decidable p] (q : Prop) [Decidable q] :
    andThen (.ok (decide p)) (.ok (decide q)) = .ok (decide (p ∧ q)) := by
  unfold andThen
  by_cases h : p
  · rw [decide_eq_true h]; simp [h]
  · rw [decide_eq_false h]; simp [h]

/-- **C77 (same sizes).** Two meshes with as many bins compare equal exactly if everything about them is equal. -/
theorem eq_iff_partial {a b : Info} (h : SameSize a b) : eqInfo a b = .ok (decide (a = b)) := by
  obtain ⟨h1, h2, h3, h4, h5, h6, h7, h8, h9⟩ := h
  obtain ⟨ac, am, ai, aj, ak, ap⟩ := a
  obtain ⟨bc, bm, bi, bj, bk, bp⟩ := b
  simp only at *
  obtain ⟨am, rfl⟩ := Option.isSome_iff_exists.1 h4
  obtain ⟨bm, rfl⟩ := Option.isSome_iff_exists.1 h5
  unfold eqInfo
  simp only
  rw [allEq_true_iff h1, allEq_true_iff h2, allEq_true_iff h3]
  by_cases hc : ac = bc
  · subst hc
    have hp : eqPos ap bp =
        .ok (decide (ap = bp)) := by
      cases ap with
      | none =>
        cases bp with
        | none => rfl
        | some q => rw [← h7] at h6; simp at h6
      | some p =>
        cases bp with
        | none => rw [← h7] at h6; simp at h6
        | some q =>
          obtain ⟨p1, p2, p3⟩ := h8 p rfl
          obtain ⟨q1, q2, q3⟩ := h9 q rfl
          obtain ⟨o, ax, v⟩ := p
          obtain ⟨o', ax', v'⟩ := q
          simp only [eqPos] at *
          rw [allEq_true_iff (p1.trans q1.symm), allEq_true_iff (p2.trans q2.symm), allEq_true_iff (p3.trans q3.symm)]
          rw [show (Except.ok true : Except PyErr Bool) = .ok (decide True) from rfl]
          rw [andThen_decide, andThen_decide, andThen_decide]
          congr 1
          simp
    rw [hp]
    simp only
    rw [andThen_decide, andThen_decide, andThen_decide, andThen_decide, andThen_decide]
    congr 1
    simp only [decide_eq_decide, Info.mk.injEq, Option.some.injEq, true_and]
    tauto
  · rw [decide_eq_false hc]
    unfold andThen
    simp [hc]

/-- **C77 fails**: two meshes of the same kind that have different numbers of boundaries on the first axis (more
than one) cannot be compared: `==` raises instead of answering `False`. -/
theorem eq_raises {a b : Info} (hc : a.cyl = b.cyl) (h : a.vi.length ≠ b.vi.length) (h1 : a.vi.length ≠ 1)
    (h2 : b.vi.length ≠ 1) : eqInfo a b = .error .valueError := by
  unfold eqInfo
  have : allEq a.vi b.vi = .error .valueError := by
    unfold allEq
    rw [if_neg h, if_neg h1, if_neg h2]
  rw [this, hc]
  simp [andThen]

/-! ### saving and loading (C78) -/

/-- what `load` can give back: masses present and sorted, a position exactly for cylindrical meshes (specification) -/
def Complete (m : Info) : Prop := (∃ rows, m.mass = some rows ∧ Sorted rows) ∧ m.pos.isSome = m.cyl

/-- **C78.** A mesh that is saved, whatever the folder held before, is loaded back as it was. -/
theorem save_load_partial {m : Info} (h : Complete m) (f : Folder) : load (save m f) = .ok m := by
  obtain ⟨⟨rows, hm, hs⟩, hp⟩ := h
  obtain ⟨c, mass, vi, vj, vk, pos⟩ := m
  simp only at hm hp
  subst hm
  unfold save load
  simp only
  rw [dataMass_of_sorted hs]
  cases pos with
  | none =>
    simp only [Option.isSome_none] at hp
    subst hp; rfl
  | some p =>
    simp only [Option.isSome_some] at hp
    subst hp; rfl

/-- meshes that come from a file are complete -/
theorem complete_of_file {tau : ℚ} {m : MeshRec} {i : Info} (h : InfoOf tau m i) : Complete i := by
  obtain ⟨_, _, _, h4, h5, rows, hm, hs, _⟩ := h
  exact ⟨⟨rows, hm, hs⟩, by rw [h4, h5]⟩

/-- **C78 fails without masses**: a mesh without masses, saved over an older one, is loaded with the masses of the
older one; in a new folder it cannot be loaded. -/
theorem stale_mass (m old : Info) (rows : List Row) (hm : m.mass = none) (ho : old.mass = some rows)
    (hp : m.pos.isSome = m.cyl) (f : Folder) :
    load (save m (save old f)) = .ok { m with mass := some (dataMass rows) } ∧ load (save m {}) = .error .ioError := by
  obtain ⟨c, mass, vi, vj, vk, pos⟩ := m
  obtain ⟨c', mass', vi', vj', vk', pos'⟩ := old
  simp only at hm ho hp
  subst hm; subst ho
  refine ⟨?_, rfl⟩
  unfold save load
  simp only
  cases pos with
  | none =>
    simp only [Option.isSome_none] at hp
    subst hp; rfl
  | some p =>
    simp only [Option.isSome_some] at hp
    subst hp; rfl

/-! ### concrete cases -/

/-- digits only, enough for the examples -/
def exNum : ParseNum := fun w => if w = "2.0".toList then some 2 else if w = "0.5".toList then some (1 / 2) else
  if w = "0.00000000".toList then some 0 else if w = "6.28318531".toList then some 7 else (parseInt w).map (fun i => (i : ℚ))

/-- a file with a rectangular and a cylindrical mesh, the angles of which are merged in the line (example) -/
def exFile : List Str := (["title", " Mesh tally number:        44", "avg", "", "bounds", "X direction: 0 5 9", "Y direction: 0 1",
  "Z direction: 0 1", " 1 10 2", " 7 2.0 3 0.5", " 6 4 2 0.5", " 2 10 1", " 6 4 2 1", "",
  " Mesh tally number: 4", "avg", "", "bounds",
  "origin at 0 0 0 axis in 0 0 1 direction, VEC direction 1 0 0", "R direction: 0 5", "Z direction: 0 1",
  "Theta direction (revolutions):0.000000006.28318531", "1 14 1", "5 3 1 1"].map String.toList)

example : (fromFile exNum 7 exFile).toOption =
    some [(44, ⟨false, some [⟨1, 2, 6, 20⟩, ⟨1, 3, 7, 10⟩, ⟨2, 2, 6, 40⟩], [0, 5, 9], [0, 1], [0, 1], none⟩),
      (4, ⟨true, some [⟨1, 1, 5, 6⟩], [0, 5], [0, 1], [0, 1], some ([0, 0, 0], [0, 0, 1], [1, 0, 0])⟩)] := by
  decide +kernel

example : filtered [⟨1, 2, 6, 20⟩, ⟨1, 3, 7, 10⟩, ⟨2, 2, 6, 40⟩] (some [1]) (some [2, 9]) none = [⟨1, 2, 6, 20⟩] ∧
    cellsOf [⟨1, 2, 6, 20⟩, ⟨1, 3, 7, 10⟩, ⟨2, 2, 6, 40⟩] (some [2, 3]) = [6, 7] ∧
    materialsOf [⟨1, 3, 7, 10⟩, ⟨2, 2, 6, 40⟩] = [2, 3] := by
  decide +kernel

/-- the hypotheses of `file_exact` are met by a file with a mesh of two cells -/
example : ∃ ms, ms ≠ [] ∧ IsFile exNum 7 ms ((["Mesh tally number: 4", "avg", "", "bounds", "X direction: 0 5", "Y direction: 0 1",
    "Z direction: 0 1", "1 10 2", "7 2.0 3 0.5", "6 4 2 0.5", "end"].map String.toList)) := by
  refine ⟨[(4, ⟨[0, 5], [0, 1], [0, 1], none, [⟨1, 10, [⟨7, 2, 3, 1 / 2⟩, ⟨6, 4, 2, 1 / 2⟩]⟩]⟩)], by simp, ?_⟩
  refine IsFile.mesh _ "4".toList ["Mesh".toList, "tally".toList, "number:".toList] 4 _ [] ((["avg", "", "bounds", "X direction: 0 5",
    "Y direction: 0 1", "Z direction: 0 1", "1 10 2", "7 2.0 3 0.5", "6 4 2 0.5"].map String.toList)) _ (by decide +kernel)
    (by decide +kernel) (by decide +kernel) ?_ (IsFile.other _ _ _ (by decide +kernel) .done)
  refine ⟨["avg", "", "bounds"].map String.toList, ["X direction: 0 5", "Y direction: 0 1", "Z direction: 0 1"].map String.toList,
    [["1 10 2", "7 2.0 3 0.5", "6 4 2 0.5"].map String.toList], rfl, rfl, ?_, by simp, by simp, by simp, rfl, ?_⟩
  · refine .cons ⟨_, _, rfl, ⟨"1".toList, "10".toList, "2".toList, by decide +kernel⟩, ?_⟩ .nil
    refine .cons ⟨"7".toList, "2.0".toList, "3".toList, "0.5".toList, by decide +kernel⟩
      (.cons ⟨"6".toList, "4".toList, "2".toList, "0.5".toList, by decide +kernel⟩ .nil)
  · refine ⟨_, _, _, rfl, ?_, ?_, ?_, by decide +kernel⟩
    · exact ⟨"X".toList, "direction:".toList, ["0".toList, "5".toList], by decide +kernel⟩
    · exact ⟨"Y".toList, "direction:".toList, ["0".toList, "1".toList], by decide +kernel⟩
    · exact ⟨"Z".toList, "direction:".toList, ["0".toList, "1".toList], by decide +kernel⟩

/-- meshes that differ in the number of bins: the comparison raises -/
example : eqInfo ⟨false, some [], [0, 1], [0, 1], [0, 1], none⟩ ⟨false, some [], [0, 1, 2], [0, 1], [0, 1], none⟩ =
    .error .valueError := by decide +kernel

end F4Enix.MInfo
