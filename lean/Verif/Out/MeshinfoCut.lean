import Verif.Out.MeshinfoProps
import Verif.Out.OutpTableCut
/-!
# Mesh information files that were cut off (meshinfo.py:433-575)

The file is written mesh by mesh, voxel by voxel. What is read of a file whose end is missing, compared with the
whole file.
-/
namespace F4Enix.MInfo
open F4Enix F4Enix.Mesh
open F4Enix.Outp (CutOf)

theorem cutOf_nil {b : List Str} (h : CutOf b []) : b = [] := by
  rcases h with h | ⟨pre, l, post, part, e, _⟩
  · exact h
  · simp at e

theorem cutOf_cons {b ls : List Str} {l : Str} (h : CutOf b (l :: ls)) :
    b = [] ∨ (∃ c, b = l :: c ∧ CutOf c ls) ∨ ∃ part, part <+: l ∧ part ≠ l ∧ part ≠ [] ∧ b = [part] := by
  rcases h with rfl | ⟨pre, l', post, part, e, h1, h2, rfl⟩
  · exact .inr (.inl ⟨ls, rfl, .inl rfl⟩)
  · cases pre with
    | nil =>
      simp only [List.nil_append, List.cons.injEq] at e
      obtain ⟨rfl, rfl⟩ := e
      by_cases hp : part = []
      · exact .inl (by simp [hp])
      · exact .inr (.inr ⟨part, h1, h2, hp, by simp [hp]⟩)
    | cons c cs =>
      simp only [List.cons_append, List.cons.injEq] at e
      obtain ⟨rfl, rfl⟩ := e
      exact .inr (.inl ⟨_, rfl, .inr ⟨cs, l', post, part, rfl, h1, h2, rfl⟩⟩)

/-- one line on: it is the same line, or nothing follows -/
theorem cutOf_step {b ls : List Str} (h : CutOf b ls) : (b.headD [] = ls.headD [] ∧ CutOf b.tail ls.tail) ∨ b.tail = [] := by
  cases ls with
  | nil => rw [cutOf_nil h]; exact .inr rfl
  | cons l ls =>
    rcases cutOf_cons h with rfl | ⟨c, rfl, hc⟩ | ⟨part, _, _, _, rfl⟩
    · exact .inr rfl
    · exact .inl ⟨rfl, hc⟩
    · exact .inr rfl

theorem cutOf_drop {b ls : List Str} (n : ℕ) (h : CutOf b ls) : CutOf (b.drop n) (ls.drop n) ∨ b.drop n = [] := by
  induction n generalizing b ls with
  | zero => exact .inl (by simpa using h)
  | succ n ih =>
    have e : ∀ x : List Str, x.drop (n + 1) = x.tail.drop n := fun x => by simp
    rw [e, e]
    rcases cutOf_step h with ⟨_, h2⟩ | h2
    · exact ih h2
    · exact .inr (by rw [h2]; simp)

theorem prefix_same {a b c d a' b' c' d' : Str} {l part : Str} (hp : part <+: l)
    (h1 : tokens part = [a', b', c', d']) (h2 : tokens l = [a, b, c, d]) : a' = a ∧ b' = b ∧ c' = c := by
  have g : ∀ i, i < 3 → (tokens part)[i]? = (tokens l)[i]? := fun i hi =>
    tokens_prefix_get hp (by rw [h1]; simp only [List.length_cons, List.length_nil]; omega)
  rw [h1, h2] at g
  exact ⟨by simpa using g 0 (by omega), by simpa using g 1 (by omega), by simpa using g 2 (by omega)⟩

theorem readCell_nil (num : ParseNum) (vol : ℚ) : readCell num vol [] = .error .valueError := by
  unfold readCell; rw [tokens_nil]

theorem readHead_nil (num : ParseNum) : readHead num [] = .error .valueError := by
  unfold readHead; rw [tokens_nil]

/-- a line of a cell that is cut off, if it can be read: only the mass is different -/
theorem readCell_cut {num : ParseNum} {vol : ℚ} {l part : Str} {c m c' m' : ℤ} {q q' : ℚ} (hp : part <+: l)
    (h1 : readCell num vol l = .ok (c, m, q)) (h2 : readCell num vol part = .ok (c', m', q')) : c' = c ∧ m' = m := by
  unfold readCell at h1 h2
  split at h1
  · rename_i c1 d1 m1 f1 t1
    split at h2
    · rename_i c2 d2 m2 f2 t2
      obtain ⟨rfl, rfl, rfl⟩ := prefix_same hp t2 t1
      unfold toInt toNum at h1 h2
      cases e1 : parseInt c2 <;> rw [e1] at h1 h2 <;> simp only [bind, Except.bind, pure, Except.pure, reduceCtorEq] at h1 h2
      cases e2 : num d2 <;> rw [e2] at h1 h2 <;> simp only [reduceCtorEq] at h1 h2
      cases e3 : parseInt m2 <;> rw [e3] at h1 h2 <;> simp only [reduceCtorEq] at h1 h2
      cases e4 : num f1 <;> rw [e4] at h1 <;> simp only [reduceCtorEq] at h1
      cases e5 : num f2 <;> rw [e5] at h2 <;> simp only [reduceCtorEq] at h2
      simp only [Except.ok.injEq, Prod.mk.injEq] at h1 h2
      exact ⟨h2.1.symm.trans h1.1, h2.2.1.symm.trans h1.2.1⟩
    · cases h2
  · cases h1

/-- the same rows, but for the mass in the last of them (specification) -/
def LastMass (R R' : List Row) : Prop :=
  ∃ init x q, R = init ++ [x] ∧ R' = init ++ [{ x with mass := q }]

theorem readCells_cut {num : ParseNum} {v : ℤ} {vol : ℚ} : ∀ (n : ℕ) {b L : List Str}, CutOf b L →
    ∀ {R R' : List Row} {r r' : List Str}, readCells num v vol n L = .ok (R, r) → readCells num v vol n b = .ok (R', r') →
    (R' = R ∧ CutOf r' r) ∨ (r' = [] ∧ LastMass R R')
  | 0, b, L, h => by
    intro h1 h2
    simp only [readCells, Except.ok.injEq, Prod.mk.injEq] at h1 h2
    exact .inl ⟨h2.1.symm.trans h1.1, by rw [← h2.2, ← h1.2]; exact h⟩
  | n + 1, b, L, h => by
    intro h1 h2
    simp only [readCells] at h1 h2
    cases L with
    | nil => rw [List.headD_nil, readCell_nil] at h1; cases h1
    | cons l ls =>
    rcases cutOf_cons h with rfl | ⟨c, rfl, hc⟩ | ⟨part, hp, _, _, rfl⟩
    · rw [List.headD_nil, readCell_nil] at h2; cases h2
    · simp only [List.headD_cons, List.tail_cons] at h1 h2
      cases e : readCell num vol l with
      | error x => rw [e] at h1; cases h1
      | ok x =>
        obtain ⟨c1, m1, q1⟩ := x
        rw [e] at h1 h2
        simp only at h1 h2
        cases e1 : readCells num v vol n ls with
        | error x => rw [e1] at h1; cases h1
        | ok x =>
          cases e2 : readCells num v vol n c with
          | error x => rw [e2] at h2; cases h2
          | ok y =>
            obtain ⟨R1, r1⟩ := x
            obtain ⟨R2, r2⟩ := y
            rw [e1] at h1
            rw [e2] at h2
            simp only [Except.ok.injEq, Prod.mk.injEq] at h1 h2
            obtain ⟨rfl, rfl⟩ := h1
            obtain ⟨rfl, rfl⟩ := h2
            rcases readCells_cut n hc e1 e2 with ⟨rfl, h3⟩ | ⟨rfl, init, x, q, rfl, rfl⟩
            · exact .inl ⟨rfl, h3⟩
            · exact .inr ⟨rfl, _ :: init, x, q, rfl, rfl⟩
    · simp only [List.headD_cons, List.tail_cons] at h1 h2
      cases e : readCell num vol l with
      | error x => rw [e] at h1; cases h1
      | ok x =>
        obtain ⟨c1, m1, q1⟩ := x
        rw [e] at h1
        simp only at h1
        cases e' : readCell num vol part with
        | error x => rw [e'] at h2; cases h2
        | ok x =>
          obtain ⟨c2, m2, q2⟩ := x
          rw [e'] at h2
          simp only at h2
          obtain ⟨rfl, rfl⟩ := readCell_cut hp e e'
          cases n with
          | zero =>
            simp only [readCells, Except.ok.injEq, Prod.mk.injEq] at h1 h2
            obtain ⟨rfl, rfl⟩ := h1
            obtain ⟨rfl, rfl⟩ := h2
            exact .inr ⟨rfl, [], ⟨v, m2, c2, q1⟩, q2, rfl, rfl⟩
          | succ n =>
            simp only [readCells, List.headD_nil, readCell_nil] at h2
            cases h2

/-- the same rows, but for those of the last voxel, which are missing (specification) -/
def LastVoxel (R R' : List Row) : Prop :=
  ∃ v rest, R = R' ++ rest ∧ ∀ x ∈ rest, x.voxel = v

theorem readCells_voxel {num : ParseNum} {v : ℤ} {vol : ℚ} : ∀ (n : ℕ) {L : List Str} {R : List Row} {r : List Str},
    readCells num v vol n L = .ok (R, r) → ∀ x ∈ R, x.voxel = v
  | 0, L, R, r, h => by
    simp only [readCells, Except.ok.injEq, Prod.mk.injEq] at h
    rw [← h.1]; simp
  | n + 1, L, R, r, h => by
    simp only [readCells] at h
    split at h
    · cases h
    · split at h
      · cases h
      · rename_i e
        simp only [Except.ok.injEq, Prod.mk.injEq] at h
        rw [← h.1]
        intro x hx
        rcases List.mem_cons.1 hx with rfl | hx
        · rfl
        · exact readCells_voxel n e x hx

theorem readVoxels_nil {num : ParseNum} {k : ℕ} {R : List Row} {r : List Str} (h : readVoxels num k [] = .ok (R, r)) :
    k = 0 ∧ R = [] ∧ r = [] := by
  cases k with
  | zero =>
    simp only [readVoxels, Except.ok.injEq, Prod.mk.injEq] at h
    exact ⟨rfl, h.1.symm, h.2.symm⟩
  | succ k => simp only [readVoxels, List.headD_nil, readHead_nil] at h; cases h

/-- **The voxels of a mesh, cut off.** If they can be read at all, they are what they are in the whole file, or the
file ends there and only the mass in the last row is different or the rows of the last voxel are missing. -/
theorem readVoxels_cut {num : ParseNum} : ∀ (k : ℕ) {b L : List Str}, CutOf b L →
    ∀ {R R' : List Row} {r r' : List Str}, readVoxels num k L = .ok (R, r) → readVoxels num k b = .ok (R', r') →
    (R' = R ∧ CutOf r' r) ∨ (r' = [] ∧ (LastMass R R' ∨ LastVoxel R R'))
  | 0, b, L, h => by
    intro h1 h2
    simp only [readVoxels, Except.ok.injEq, Prod.mk.injEq] at h1 h2
    exact .inl ⟨h2.1.symm.trans h1.1, by rw [← h2.2, ← h1.2]; exact h⟩
  | k + 1, b, L, h => by
    intro h1 h2
    simp only [readVoxels] at h1 h2
    cases L with
    | nil => rw [List.headD_nil, readHead_nil] at h1; cases h1
    | cons l ls =>
    rcases cutOf_cons h with rfl | ⟨c, rfl, hc⟩ | ⟨part, hp, _, _, rfl⟩
    · rw [List.headD_nil, readHead_nil] at h2; cases h2
    · simp only [List.headD_cons, List.tail_cons] at h1 h2
      cases e : readHead num l with
      | error x => rw [e] at h1; cases h1
      | ok x =>
        obtain ⟨v, vol, n⟩ := x
        rw [e] at h1 h2
        simp only at h1 h2
        cases e1 : readCells num v vol n.toNat ls with
        | error x => rw [e1] at h1; cases h1
        | ok x =>
        cases e2 : readCells num v vol n.toNat c with
        | error x => rw [e2] at h2; cases h2
        | ok y =>
        obtain ⟨R1, r1⟩ := x
        obtain ⟨R2, r2⟩ := y
        rw [e1] at h1
        rw [e2] at h2
        simp only at h1 h2
        cases e3 : readVoxels num k r1 with
        | error x => rw [e3] at h1; cases h1
        | ok x =>
        cases e4 : readVoxels num k r2 with
        | error x => rw [e4] at h2; cases h2
        | ok y =>
        obtain ⟨R3, r3⟩ := x
        obtain ⟨R4, r4⟩ := y
        rw [e3] at h1
        rw [e4] at h2
        simp only [Except.ok.injEq, Prod.mk.injEq] at h1 h2
        obtain ⟨rfl, rfl⟩ := h1
        obtain ⟨rfl, rfl⟩ := h2
        rcases readCells_cut _ hc e1 e2 with ⟨rfl, h3⟩ | ⟨rfl, init, x, q, rfl, rfl⟩
        · rcases readVoxels_cut k h3 e3 e4 with ⟨rfl, h5⟩ | ⟨rfl, ⟨init, x, q, rfl, rfl⟩ | ⟨w, rest, rfl, h5⟩⟩
          · exact .inl ⟨rfl, h5⟩
          · exact .inr ⟨rfl, .inl ⟨R2 ++ init, x, q, by simp, by simp⟩⟩
          · exact .inr ⟨rfl, .inr ⟨w, rest, by simp, h5⟩⟩
        · obtain ⟨rfl, rfl, rfl⟩ := readVoxels_nil e4
          simp only [readVoxels, Except.ok.injEq, Prod.mk.injEq] at e3
          obtain ⟨rfl, rfl⟩ := e3
          exact .inr ⟨rfl, .inl ⟨init, x, q, by simp, by simp⟩⟩
    · simp only [List.headD_cons, List.tail_cons] at h2
      cases e : readHead num part with
      | error x => rw [e] at h2; cases h2
      | ok x =>
        obtain ⟨v, vol, n⟩ := x
        rw [e] at h2
        simp only at h2
        cases hn : n.toNat with
        | succ j => rw [hn] at h2; simp only [readCells, List.headD_nil, readCell_nil] at h2; cases h2
        | zero =>
          rw [hn] at h2
          simp only [readCells] at h2
          cases e4 : readVoxels num k [] with
          | error x => rw [e4] at h2; cases h2
          | ok y =>
            obtain ⟨R4, r4⟩ := y
            obtain ⟨rfl, rfl, rfl⟩ := readVoxels_nil e4
            rw [e4] at h2
            simp only [Except.ok.injEq, Prod.mk.injEq] at h2
            obtain ⟨rfl, rfl⟩ := h2
            simp only [readVoxels, List.headD_cons, List.tail_cons] at h1
            cases f1 : readHead num l with
            | error x => rw [f1] at h1; cases h1
            | ok x =>
              obtain ⟨v1, vol1, n1⟩ := x
              rw [f1] at h1
              simp only at h1
              cases f2 : readCells num v1 vol1 n1.toNat ls with
              | error x => rw [f2] at h1; cases h1
              | ok x =>
                obtain ⟨R1, r1⟩ := x
                rw [f2] at h1
                simp only [List.append_nil, Except.ok.injEq, Prod.mk.injEq] at h1
                obtain ⟨rfl, rfl⟩ := h1
                exact .inr ⟨rfl, .inr ⟨v1, R1, by simp, readCells_voxel _ f2⟩⟩

/-! ### one mesh -/

/-- the axes and the position are the same; the rows as well, but for the mass in one of them or for those of one
voxel, which are missing (specification) -/
def Broken (m m' : Info) : Prop :=
  ∃ R R', m.mass = some R ∧ m' = { m with mass := some R' } ∧ Sorted R' ∧
    ((∃ good x q, R.Perm (good ++ [x]) ∧ R'.Perm (good ++ [{ x with mass := q }])) ∨
     ∃ v rest, R.Perm (R' ++ rest) ∧ ∀ x ∈ rest, x.voxel = v)

theorem headerCart_mass {num : ParseNum} {words : List Str} {ls r : List Str} {m : Info} (h : headerCart num words ls = .ok (m, r)) :
    r = ls.tail.tail := by
  unfold headerCart at h
  simp only [bind, Except.bind, pure, Except.pure] at h
  split at h
  · cases h
  · split at h
    · cases h
    · split at h
      · cases h
      · simp only [Except.ok.injEq, Prod.mk.injEq] at h
        exact h.2.symm

theorem headerCyl_mass {num : ParseNum} {tau : ℚ} {words : List Str} {ls r : List Str} {m : Info}
    (h : headerCyl num tau words ls = .ok (m, r)) : r = ls.tail.tail.tail := by
  unfold headerCyl at h
  simp only [bind, Except.bind, pure, Except.pure] at h
  repeat' (split at h; · cases h)
  simp only [Except.ok.injEq, Prod.mk.injEq] at h
  exact h.2.symm

theorem headerCart_cut {num : ParseNum} {words : List Str} {b ls r r' : List Str} {m m' : Info} (hc : CutOf b ls)
    (h : headerCart num words ls = .ok (m, r)) (h' : headerCart num words b = .ok (m', r')) :
    (m' = m ∧ CutOf r' r) ∨ r' = [] := by
  have e := headerCart_mass h
  have e' := headerCart_mass h'
  rcases cutOf_step hc with ⟨s1, c1⟩ | c1
  · rcases cutOf_step c1 with ⟨s2, c2⟩ | c2
    · left
      have : headerCart num words b = headerCart num words ls >>= fun x => .ok (x.1, b.tail.tail) := by
        unfold headerCart
        rw [s1, s2]
        simp only [bind, Except.bind, pure, Except.pure]
        split
        · rfl
        · split
          · rfl
          · split <;> rfl
      rw [this, h] at h'
      simp only [bind, Except.bind, Except.ok.injEq, Prod.mk.injEq] at h'
      exact ⟨h'.1.symm, by rw [← h'.2, e]; exact c2⟩
    · exact .inr (e'.trans c2)
  · right
    rw [e', c1]; rfl

theorem headerCyl_cut {num : ParseNum} {tau : ℚ} {words : List Str} {b ls r r' : List Str} {m m' : Info} (hc : CutOf b ls)
    (h : headerCyl num tau words ls = .ok (m, r)) (h' : headerCyl num tau words b = .ok (m', r')) :
    (m' = m ∧ CutOf r' r) ∨ r' = [] := by
  have e := headerCyl_mass h
  have e' := headerCyl_mass h'
  rcases cutOf_step hc with ⟨s1, c1⟩ | c1
  · rcases cutOf_step c1 with ⟨s2, c2⟩ | c2
    · rcases cutOf_step c2 with ⟨s3, c3⟩ | c3
      · left
        have : headerCyl num tau words b = headerCyl num tau words ls >>= fun x => .ok (x.1, b.tail.tail.tail) := by
          unfold headerCyl
          rw [s1, s2, s3]
          simp only [bind, Except.bind, pure, Except.pure]
          repeat' (split; · rfl)
          rfl
        rw [this, h] at h'
        simp only [bind, Except.bind, Except.ok.injEq, Prod.mk.injEq] at h'
        exact ⟨h'.1.symm, by rw [← h'.2, e]; exact c3⟩
      · exact .inr (e'.trans c3)
    · right
      rw [e', c2]; rfl
  · right
    rw [e', c1]; rfl

theorem readMass_nil {num : ParseNum} {tau : ℚ} {m : Info} {R : List Row} {r : List Str}
    (h : readMass num tau m [] = .ok (R, r)) : R = [] ∧ r = [] := by
  unfold readMass at h
  cases e : readVoxels num (voxelCount m) [] with
  | error x => rw [e] at h; cases h
  | ok x =>
    obtain ⟨R1, r1⟩ := x
    obtain ⟨_, rfl, rfl⟩ := readVoxels_nil e
    rw [e] at h
    simp only [List.map_nil, ite_self, Except.ok.injEq, Prod.mk.injEq] at h
    exact ⟨h.1.symm, h.2.symm⟩

theorem readMass_cut {num : ParseNum} {tau : ℚ} {m : Info} {b L : List Str} (hc : CutOf b L) {R R' : List Row} {r r' : List Str}
    (h : readMass num tau m L = .ok (R, r)) (h' : readMass num tau m b = .ok (R', r')) :
    (R' = R ∧ CutOf r' r) ∨ (r' = [] ∧ Sorted R' ∧
      ((∃ good x q, R.Perm (good ++ [x]) ∧ R'.Perm (good ++ [{ x with mass := q }])) ∨
       ∃ v rest, R.Perm (R' ++ rest) ∧ ∀ x ∈ rest, x.voxel = v)) := by
  unfold readMass at h h'
  cases e : readVoxels num (voxelCount m) L with
  | error x => rw [e] at h; cases h
  | ok x =>
  cases e' : readVoxels num (voxelCount m) b with
  | error x => rw [e'] at h'; cases h'
  | ok y =>
  obtain ⟨R1, r1⟩ := x
  obtain ⟨R2, r2⟩ := y
  rw [e] at h
  rw [e'] at h'
  simp only [Except.ok.injEq, Prod.mk.injEq] at h h'
  obtain ⟨rfl, rfl⟩ := h
  obtain ⟨rfl, rfl⟩ := h'
  rcases readVoxels_cut _ hc e e' with ⟨rfl, h3⟩ | ⟨rfl, h3⟩
  · exact .inl ⟨rfl, h3⟩
  · refine .inr ⟨rfl, (dataMass_sorted _).2, ?_⟩
    cases m.cyl
    · simp only [Bool.false_eq_true, if_false]
      rcases h3 with ⟨init, x, q, rfl, rfl⟩ | ⟨v, rest, rfl, h4⟩
      · exact .inl ⟨init, x, q, (dataMass_sorted _).1, (dataMass_sorted _).1⟩
      · exact .inr ⟨v, rest, (dataMass_sorted _).1.trans ((dataMass_sorted R2).1.symm.append_right _), h4⟩
    · simp only [if_true]
      rcases h3 with ⟨init, x, q, rfl, rfl⟩ | ⟨v, rest, rfl, h4⟩
      · refine .inl ⟨init.map (fun r => { r with mass := r.mass / tau }), { x with mass := x.mass / tau }, q / tau, ?_, ?_⟩
        · exact (dataMass_sorted _).1.trans (by simp)
        · exact (dataMass_sorted _).1.trans (by simp)
      · refine .inr ⟨v, rest.map (fun r => { r with mass := r.mass / tau }), ?_, ?_⟩
        · refine (dataMass_sorted _).1.trans ?_
          rw [List.map_append]
          exact ((dataMass_sorted _).1.symm.append_right _)
        · intro x hx
          obtain ⟨y, hy, rfl⟩ := List.mem_map.1 hx
          exact h4 y hy

/-- **C226 (one mesh).** If a mesh whose lines are cut off can be read, it is as in the whole file; or the file ends
in it and it has no masses at all, or only one mass is different, or only the rows of one voxel are missing. -/
theorem readMesh_cut {num : ParseNum} {tau : ℚ} {b L : List Str} (hc : CutOf b L) {m m' : Info} {r r' : List Str}
    (h : readMesh num tau L = .ok (m, r)) (h' : readMesh num tau b = .ok (m', r')) :
    (m' = m ∧ CutOf r' r) ∨ (r' = [] ∧ (m'.mass = some [] ∨ Broken m m')) := by
  unfold readMesh at h h'
  simp only at h h'
  rcases cutOf_drop 3 hc with hd | hd
  swap
  · rw [hd] at h'
    simp only [List.headD_nil, tokens_nil] at h'
    cases h'
  generalize b.drop 3 = b3 at hd h'
  generalize L.drop 3 = l3 at hd h
  rcases cutOf_step hd with ⟨s1, c1⟩ | c1
  · rw [s1] at h'
    cases hw : tokens (l3.headD []) with
    | nil => rw [hw] at h; cases h
    | cons w ws =>
    rw [hw] at h h'
    simp only at h h'
    have key : ∀ {hL hb : Except PyErr (Info × List Str)},
        (∀ {m m' : Info} {r r' : List Str}, hL = .ok (m, r) → hb = .ok (m', r') → (m' = m ∧ CutOf r' r) ∨ r' = []) →
        (match hL with
          | .error e => .error e
          | .ok (m, ls) =>
            match readMass num tau m ls with
            | .error e => .error e
            | .ok (rows, ls) => .ok ({ m with mass := some rows }, ls) : Except PyErr (Info × List Str)) = .ok (m, r) →
        (match hb with
          | .error e => .error e
          | .ok (m, ls) =>
            match readMass num tau m ls with
            | .error e => .error e
            | .ok (rows, ls) => .ok ({ m with mass := some rows }, ls) : Except PyErr (Info × List Str)) = .ok (m', r') →
        (m' = m ∧ CutOf r' r) ∨ (r' = [] ∧ (m'.mass = some [] ∨ Broken m m')) := by
      intro hL hb hh g g'
      cases hL with
      | error e => cases g
      | ok x =>
      cases hb with
      | error e => cases g'
      | ok y =>
      obtain ⟨m1, r1⟩ := x
      obtain ⟨m2, r2⟩ := y
      simp only at g g'
      cases e : readMass num tau m1 r1 with
      | error x => rw [e] at g; cases g
      | ok x =>
      cases e' : readMass num tau m2 r2 with
      | error x => rw [e'] at g'; cases g'
      | ok y =>
      obtain ⟨R1, q1⟩ := x
      obtain ⟨R2, q2⟩ := y
      rw [e] at g
      rw [e'] at g'
      simp only [Except.ok.injEq, Prod.mk.injEq] at g g'
      obtain ⟨rfl, rfl⟩ := g
      obtain ⟨rfl, rfl⟩ := g'
      rcases hh rfl rfl with ⟨rfl, c3⟩ | rfl
      · rcases readMass_cut c3 e e' with ⟨rfl, c4⟩ | ⟨rfl, c4, c5⟩
        · exact .inl ⟨rfl, c4⟩
        · exact .inr ⟨rfl, .inr ⟨R1, R2, rfl, rfl, c4, c5⟩⟩
      · obtain ⟨rfl, rfl⟩ := readMass_nil e'
        exact .inr ⟨rfl, .inl rfl⟩
    refine key ?_ h h'
    intro m m' r r' g g'
    by_cases ho : w = "origin".toList
    · rw [if_pos ho] at g g'
      exact headerCyl_cut c1 g g'
    · rw [if_neg ho] at g g'
      exact headerCart_cut c1 g g'
  · right
    rw [c1] at h'
    cases hw : tokens (b3.headD []) with
    | nil => rw [hw] at h'; cases h'
    | cons w ws =>
    rw [hw] at h'
    simp only at h'
    have hr : ∀ {m : Info} {r : List Str}, (if w = "origin".toList then headerCyl num tau (w :: ws) [] else headerCart num (w :: ws) []) =
        .ok (m, r) → r = [] := by
      intro m r g
      by_cases ho : w = "origin".toList
      · rw [if_pos ho] at g
        exact headerCyl_mass g
      · rw [if_neg ho] at g
        exact headerCart_mass g
    cases g : (if w = "origin".toList then headerCyl num tau (w :: ws) [] else headerCart num (w :: ws) []) with
    | error e => rw [g] at h'; cases h'
    | ok x =>
      obtain ⟨m1, r1⟩ := x
      have := hr g
      subst this
      rw [g] at h'
      simp only at h'
      cases e' : readMass num tau m1 [] with
      | error x => rw [e'] at h'; cases h'
      | ok y =>
        obtain ⟨R2, q2⟩ := y
        obtain ⟨rfl, rfl⟩ := readMass_nil e'
        rw [e'] at h'
        simp only [Except.ok.injEq, Prod.mk.injEq] at h'
        obtain ⟨rfl, rfl⟩ := h'
        exact ⟨rfl, .inl rfl⟩

/-! ### the file -/

theorem readCells_length {num : ParseNum} {v : ℤ} {vol : ℚ} : ∀ (n : ℕ) {L : List Str} {R : List Row} {r : List Str},
    readCells num v vol n L = .ok (R, r) → r.length ≤ L.length
  | 0, L, R, r, h => by
    simp only [readCells, Except.ok.injEq, Prod.mk.injEq] at h
    rw [h.2]
  | n + 1, L, R, r, h => by
    simp only [readCells] at h
    split at h
    · cases h
    · split at h
      · cases h
      · rename_i e
        simp only [Except.ok.injEq, Prod.mk.injEq] at h
        have := readCells_length n e
        rw [← h.2]
        rw [List.length_tail] at this
        omega

theorem readVoxels_length {num : ParseNum} : ∀ (k : ℕ) {L : List Str} {R : List Row} {r : List Str},
    readVoxels num k L = .ok (R, r) → r.length ≤ L.length
  | 0, L, R, r, h => by
    simp only [readVoxels, Except.ok.injEq, Prod.mk.injEq] at h
    rw [h.2]
  | k + 1, L, R, r, h => by
    simp only [readVoxels] at h
    split at h
    · cases h
    · split at h
      · cases h
      · rename_i e
        split at h
        · cases h
        · rename_i e2
          simp only [Except.ok.injEq, Prod.mk.injEq] at h
          have h1 := readCells_length _ e
          have h2 := readVoxels_length k e2
          rw [← h.2]
          rw [List.length_tail] at h1
          omega

theorem readMesh_length {num : ParseNum} {tau : ℚ} {L r : List Str} {m : Info} (h : readMesh num tau L = .ok (m, r)) :
    r.length ≤ L.length := by
  unfold readMesh at h
  simp only at h
  cases hw : tokens ((L.drop 3).headD []) with
  | nil => rw [hw] at h; cases h
  | cons w ws =>
    rw [hw] at h
    simp only at h
    have hr : ∀ {m : Info} {r : List Str}, (if w = "origin".toList then headerCyl num tau (w :: ws) (L.drop 3).tail
        else headerCart num (w :: ws) (L.drop 3).tail) = .ok (m, r) → r.length ≤ L.length := by
      intro m r g
      by_cases ho : w = "origin".toList
      · rw [if_pos ho] at g
        rw [headerCyl_mass g]
        simp only [List.length_tail, List.length_drop]
        omega
      · rw [if_neg ho] at g
        rw [headerCart_mass g]
        simp only [List.length_tail, List.length_drop]
        omega
    split at h
    · cases h
    · rename_i m1 r1 g
      have h1 := hr g
      cases e : readMass num tau m1 r1 with
      | error x => rw [e] at h; cases h
      | ok x =>
        obtain ⟨R, q⟩ := x
        rw [e] at h
        simp only [Except.ok.injEq, Prod.mk.injEq] at h
        unfold readMass at e
        split at e
        · cases e
        · rename_i e2
          simp only [Except.ok.injEq, Prod.mk.injEq] at e
          have h2 := readVoxels_length _ e2
          rw [← h.2, ← e.2]
          omega


theorem infix_part {x part l : Str} (h : part <+: l) (hx : ¬ x <:+: l) : ¬ x <:+: part := fun g => hx (g.trans h.isInfix)

/-- what is read, by the number of the mesh, in the order of the file (specification) -/
def Got (d d' : Dict ℤ Info) (ms : List (ℤ × Info)) : Prop :=
  Dict.keys d' = Dict.keys d ++ ms.map Prod.fst ∧ (∀ x ∈ ms, Dict.get? d' x.1 = some x.2) ∧
  ∀ k, k ∉ ms.map Prod.fst → Dict.get? d' k = Dict.get? d k

theorem got_nil (d : Dict ℤ Info) : Got d d [] := ⟨by simp, by simp, by simp⟩

theorem got_cons {d d' : Dict ℤ Info} {i : ℤ} {inf : Info} {ms : List (ℤ × Info)} (hi : i ∉ Dict.keys d)
    (hn : i ∉ ms.map Prod.fst) (h : Got (Dict.set d i inf) d' ms) : Got d d' ((i, inf) :: ms) := by
  obtain ⟨h1, h2, h3⟩ := h
  have hks : Dict.keys (Dict.set d i inf) = Dict.keys d ++ [i] := by
    rw [Dict.keys_set]; simp [hi]
  refine ⟨by rw [h1, hks]; simp, ?_, ?_⟩
  · intro x hx
    rcases List.mem_cons.1 hx with rfl | hx
    · rw [h3 _ hn]; exact Dict.get?_set_self _ _ _
    · exact h2 x hx
  · intro k hk
    simp only [List.map_cons, List.mem_cons, not_or] at hk
    rw [h3 k hk.2, Dict.get?_set_ne _ _ (Ne.symm hk.1)]

/-- a mesh at the end of a file that was cut off: it has no masses, or only one mass is different, or only the rows
of one voxel are missing (specification) -/
def EndOf (m m' : Info) : Prop := m'.mass = some [] ∨ Broken m m'

theorem fileLoop_cut {num : ParseNum} {tau : ℚ} {ms : List (ℤ × MeshRec)} {ls : List Str} (h : IsFile num tau ms ls) :
    ∀ {b : List Str}, CutOf b ls → ∀ (fuel : Nat) (d d' : Dict ℤ Info), b.length ≤ fuel → (ms.map Prod.fst).Nodup →
    (∀ x ∈ ms, x.1 ∉ Dict.keys d) → fileLoop num tau fuel b d = .ok d' →
    ∃ infos : List (ℤ × Info), List.Forall₂ (fun x y => x.1 = y.1 ∧ InfoOf tau x.2 y.2) ms infos ∧
      ∃ whole, whole <+: infos ∧ (Got d d' whole ∨
        ∃ x m', whole ++ [x] <+: infos ∧ EndOf x.2 m' ∧ Got d d' (whole ++ [(x.1, m')])) := by
  have rest : ∀ {ms : List (ℤ × MeshRec)} {ls : List Str}, IsFile num tau ms ls →
      ∃ infos : List (ℤ × Info), List.Forall₂ (fun x y => x.1 = y.1 ∧ InfoOf tau x.2 y.2) ms infos := by
    intro ms ls h
    induction h with
    | done => exact ⟨[], .nil⟩
    | other _ _ _ _ _ ih => exact ih
    | mesh l w ws i m ms a ls h hw hi hm _ ih =>
      obtain ⟨infos, h1⟩ := ih
      obtain ⟨inf, _, h2⟩ := readMesh_ok ls hm
      exact ⟨(i, inf) :: infos, .cons ⟨rfl, h2⟩ h1⟩
  have stop : ∀ {ms : List (ℤ × MeshRec)} {ls : List Str}, IsFile num tau ms ls → ∀ (fuel : ℕ) (d d' : Dict ℤ Info),
      fileLoop num tau fuel [] d = .ok d' → ∃ infos : List (ℤ × Info),
      List.Forall₂ (fun x y => x.1 = y.1 ∧ InfoOf tau x.2 y.2) ms infos ∧
      ∃ whole, whole <+: infos ∧ (Got d d' whole ∨
        ∃ x m', whole ++ [x] <+: infos ∧ EndOf x.2 m' ∧ Got d d' (whole ++ [(x.1, m')])) := by
    intro ms ls h fuel d d' e
    obtain ⟨infos, h1⟩ := rest h
    have : d' = d := by cases fuel <;> simp only [fileLoop, Except.ok.injEq] at e <;> exact e.symm
    exact ⟨infos, h1, [], List.nil_prefix, .inl (this ▸ got_nil d)⟩
  induction h with
  | done =>
    intro b hc fuel d d' _ _ _ e
    rw [cutOf_nil hc] at e
    exact stop .done fuel d d' e
  | other l ms ls h ht ih =>
    intro b hc fuel d d' hf hn hk e
    rcases cutOf_cons hc with rfl | ⟨c, rfl, hc'⟩ | ⟨part, hp, _, _, rfl⟩
    · exact stop ht fuel d d' e
    · cases fuel with
      | zero => simp at hf
      | succ fuel =>
        simp only [fileLoop] at e
        rw [if_neg (fun hc => h ((contains_iff _ _).1 hc))] at e
        exact ih hc' fuel d d' (by simpa using hf) hn hk e
    · cases fuel with
      | zero => simp at hf
      | succ fuel =>
        simp only [fileLoop] at e
        rw [if_neg (fun hc => infix_part hp h ((contains_iff _ _).1 hc))] at e
        exact stop ht fuel d d' e
  | mesh l w ws i m ms a ls h hw hi hm ht ih =>
    intro b hc fuel d d' hf hn hk e
    rcases cutOf_cons hc with rfl | ⟨c, rfl, hc'⟩ | ⟨part, hp, _, _, rfl⟩
    · exact stop (.mesh l w ws i m ms a ls h hw hi hm ht) fuel d d' e
    · cases fuel with
      | zero => simp at hf
      | succ fuel =>
        simp only [fileLoop] at e
        rw [if_pos ((contains_iff _ _).2 h), hw] at e
        simp only [List.getLast?_append, List.getLast?_singleton, Option.some_or] at e
        unfold toInt at e
        rw [hi] at e
        simp only at e
        obtain ⟨inf, r1, r2⟩ := readMesh_ok ls hm
        cases e2 : readMesh num tau c with
        | error x => rw [e2] at e; cases e
        | ok x =>
        obtain ⟨m', r'⟩ := x
        rw [e2] at e
        simp only at e
        simp only [List.map_cons, List.nodup_cons] at hn
        have hki := hk (i, m) (by simp)
        have len : r'.length ≤ c.length := readMesh_length e2
        have fst : ∀ {xs : List (ℤ × MeshRec)} {ys : List (ℤ × Info)},
            List.Forall₂ (fun x y => x.1 = y.1 ∧ InfoOf tau x.2 y.2) xs ys → ys.map Prod.fst = xs.map Prod.fst := by
          intro xs ys hh
          induction hh with
          | nil => rfl
          | cons h _ ih => simp [ih, h.1]
        rcases readMesh_cut hc' r1 e2 with ⟨rfl, c3⟩ | ⟨rfl, c3⟩
        · have hks : Dict.keys (Dict.set d i m') = Dict.keys d ++ [i] := by
            rw [Dict.keys_set]; simp [hki]
          obtain ⟨infos, f1, whole, f2, f3⟩ := ih c3 fuel (Dict.set d i m') d'
            (by simp only [List.length_cons] at hf; omega) hn.2 (by
              intro x hx
              rw [hks]
              simp only [List.mem_append, List.mem_singleton, not_or]
              exact ⟨hk x (by simp [hx]), fun he => hn.1 (he ▸ List.mem_map_of_mem hx)⟩) e
          refine ⟨(i, m') :: infos, .cons ⟨rfl, r2⟩ f1, (i, m') :: whole, by simpa using f2, ?_⟩
          have hin : i ∉ infos.map Prod.fst := by rw [fst f1]; exact hn.1
          rcases f3 with f3 | ⟨x, m2, f3, f4, f5⟩
          · exact .inl (got_cons hki (fun hx => hin ((f2.map Prod.fst).subset hx)) f3)
          · refine .inr ⟨x, m2, by simpa using f3, f4, got_cons hki (fun hx => hin ?_) f5⟩
            refine (f3.map Prod.fst).subset ?_
            simpa using hx
        · obtain ⟨infos, f1⟩ := rest ht
          refine ⟨(i, inf) :: infos, .cons ⟨rfl, r2⟩ f1, [], List.nil_prefix, .inr ⟨(i, inf), m', by simp, c3, ?_⟩⟩
          have : d' = Dict.set d i m' := by cases fuel <;> simp only [fileLoop, Except.ok.injEq] at e <;> exact e.symm
          rw [this]
          exact got_cons hki (by simp) (got_nil _)
    · cases fuel with
      | zero => simp at hf
      | succ fuel =>
        simp only [fileLoop] at e
        have nilE : readMesh num tau [] = .error .indexError := by
          unfold readMesh
          simp [tokens_nil]
        rw [nilE] at e
        by_cases hx : contains "Mesh tally number:".toList part = true
        · rw [if_pos hx] at e
          split at e
          · cases e
          · split at e <;> cases e
        · rw [if_neg hx] at e
          exact stop (.mesh l w ws i m ms a ls h hw hi hm ht) fuel d d' e

/-- **C226.** A mesh information file that was cut off anywhere, if it can be read at all, gives the first meshes of
the whole file as they are there, and nothing else but perhaps the next mesh, which may then have no masses, one wrong
mass, or no masses in one voxel. -/
theorem file_cut {num : ParseNum} {tau : ℚ} {ms : List (ℤ × MeshRec)} {ls b : List Str} (h : IsFile num tau ms ls)
    (hn : (ms.map Prod.fst).Nodup) (hc : CutOf b ls) {d' : Dict ℤ Info} (e : fromFile num tau b = .ok d') :
    ∃ infos : List (ℤ × Info), List.Forall₂ (fun x y => x.1 = y.1 ∧ InfoOf tau x.2 y.2) ms infos ∧
      ∃ whole, whole <+: infos ∧
        ((Dict.keys d' = whole.map Prod.fst ∧ ∀ x ∈ whole, Dict.get? d' x.1 = some x.2) ∨
         ∃ x m', whole ++ [x] <+: infos ∧ EndOf x.2 m' ∧ Dict.keys d' = (whole ++ [x]).map Prod.fst ∧
           (∀ x ∈ whole, Dict.get? d' x.1 = some x.2) ∧ Dict.get? d' x.1 = some m') := by
  obtain ⟨infos, h1, whole, h2, h3⟩ := fileLoop_cut h hc b.length [] d' (le_refl _) hn (by simp [Dict.keys]) e
  refine ⟨infos, h1, whole, h2, ?_⟩
  rcases h3 with ⟨g1, g2, _⟩ | ⟨x, m', g0, g, g1, g2, _⟩
  · exact .inl ⟨by rw [g1]; rfl, g2⟩
  · exact .inr ⟨x, m', g0, g, by rw [g1]; simp [Dict.keys], fun y hy => g2 y (by simp [hy]), g2 (x.1, m') (by simp)⟩

/-- the same of the text of the file -/
theorem text_cut {num : ParseNum} {tau : ℚ} {ms : List (ℤ × MeshRec)} {text cut : Str}
    (h : IsFile num tau ms (fileLines text)) (hn : (ms.map Prod.fst).Nodup) (hc : cut <+: text) {d' : Dict ℤ Info}
    (e : fromFile num tau (fileLines cut) = .ok d') :
    ∃ infos : List (ℤ × Info), List.Forall₂ (fun x y => x.1 = y.1 ∧ InfoOf tau x.2 y.2) ms infos ∧
      ∃ whole, whole <+: infos ∧
        ((Dict.keys d' = whole.map Prod.fst ∧ ∀ x ∈ whole, Dict.get? d' x.1 = some x.2) ∨
         ∃ x m', whole ++ [x] <+: infos ∧ EndOf x.2 m' ∧ Dict.keys d' = (whole ++ [x]).map Prod.fst ∧
           (∀ x ∈ whole, Dict.get? d' x.1 = some x.2) ∧ Dict.get? d' x.1 = some m') :=
  file_cut h hn (Outp.cutOf_text hc) e

/-- a mesh the number of which is not an integer: the file is refused -/
theorem number_refused {num : ParseNum} {tau : ℚ} {l w : Str} {ws rest : List Str} (h : "Mesh tally number:".toList <:+: l)
    (hw : tokens l = ws ++ [w]) (hi : parseInt w = none) : fromFile num tau (l :: rest) = .error .valueError := by
  unfold fromFile
  simp only [List.length_cons, fileLoop]
  rw [if_pos ((contains_iff _ _).2 h), hw]
  simp only [List.getLast?_append, List.getLast?_singleton, Option.some_or]
  unfold toInt
  rw [hi]

/-! ### concrete cases -/

/-- the hypotheses of `number_refused` are met -/
example : "Mesh tally number:".toList <:+: "Mesh tally number: x4".toList ∧
    tokens "Mesh tally number: x4".toList = ["Mesh".toList, "tally".toList, "number:".toList] ++ ["x4".toList] ∧
    parseInt "x4".toList = none := by decide +kernel

/-- the lines of a mesh of two cells (example) -/
def exCut (z : String) (vox : List String) : List Str :=
  (["Mesh tally number: 4", "avg", "", "bounds", "X direction: 0 5", "Y direction: 0 1", z] ++ vox).map String.toList

/-- **Cut off in a mass, or in an axis, the file is read all the same**: the mass is wrong, or the mesh has no masses.
Without a line of a cell it is not read. -/
theorem cut_accepted :
    CutOf (exCut "Z direction: 0 1" ["1 10 1", "6 4 2 1"]) (exCut "Z direction: 0 1" ["1 10 1", "6 4 2 12"]) ∧
    (fromFile exNum 7 (exCut "Z direction: 0 1" ["1 10 1", "6 4 2 12"])).toOption =
      some [(4, ⟨false, some [⟨1, 2, 6, 480⟩], [0, 5], [0, 1], [0, 1], none⟩)] ∧
    (fromFile exNum 7 (exCut "Z direction: 0 1" ["1 10 1", "6 4 2 1"])).toOption =
      some [(4, ⟨false, some [⟨1, 2, 6, 40⟩], [0, 5], [0, 1], [0, 1], none⟩)] ∧
    CutOf (exCut "Z direction: 0" []) (exCut "Z direction: 0 1" ["1 10 1", "6 4 2 12"]) ∧
    (fromFile exNum 7 (exCut "Z direction: 0" [])).toOption = some [(4, ⟨false, some [], [0, 5], [0, 1], [0], none⟩)] ∧
    fromFile exNum 7 (exCut "Z direction: 0 1" ["1 10 1"]) = .error .valueError := by
  refine ⟨.inr ⟨exCut "Z direction: 0 1" ["1 10 1"], "6 4 2 12".toList, [], "6 4 2 1".toList, ?_, ?_, ?_, ?_⟩, ?_, ?_,
    .inr ⟨(["Mesh tally number: 4", "avg", "", "bounds", "X direction: 0 5", "Y direction: 0 1"].map String.toList),
      "Z direction: 0 1".toList, ["1 10 1", "6 4 2 12"].map String.toList, "Z direction: 0".toList, ?_, ?_, ?_, ?_⟩, ?_, ?_⟩ <;>
    decide +kernel

end F4Enix.MInfo
