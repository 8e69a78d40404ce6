import Verif.Inp.EliteWholeMain
import Mathlib.Tactic.LinearCombination
/-!
# Extraction of sectors: files that lack a plane, histories, refusals, planes with a transformation (C160-C162)
-/
namespace F4Enix.EliteX
open F4Enix F4Enix.Inp F4Enix.Elite

variable {K : Type} [Field K] [LinearOrder K]

/-! ### is the file complete? -/

theorem star_ne_intStr (v w : ℤ) : '*' :: intStr v ≠ intStr w := by
  intro h
  have h1 := intStr_isWord w
  have hd : ∀ c, (intStr w).head? = some c → c = '-' ∨ isDigit c = true := by
    intro c hc
    unfold intStr at hc
    split at hc
    · rename_i n
      have hall := natStr_all_digit n
      right
      exact hall c (List.mem_of_mem_head? hc)
    · simp only [List.head?_cons, Option.some.injEq] at hc
      exact Or.inl hc.symm
  have := hd '*' (by rw [← h]; rfl)
  revert this
  decide

theorem surfCard_unique {surfs : Dict Str Card} {v w : ℤ} {key : Str} {c c' : Card} (h1 : SurfCard surfs v key c) (h2 : SurfCard surfs w key c') : v = w := by
  rcases h1 with ⟨rfl, -⟩ | ⟨rfl, -, -⟩
  · rcases h2 with ⟨e, -⟩ | ⟨e, -, -⟩
    · exact intStr_inj e
    · exact absurd e.symm (star_ne_intStr w v)
  · rcases h2 with ⟨e, -⟩ | ⟨e, -, -⟩
    · exact absurd e (star_ne_intStr v w)
    · exact intStr_inj (List.cons.inj e).2

/-- **C160 (complete).** If the two planes of the cut stand on needed cells of the model, every surface of every cell of the file is in the file. Partial: Proved: cells, surfaces, materials and cards exactly; complete if the planes of the cut stand on needed cells. False otherwise: the planes are referred to and missing (plane_missing). -/
theorem file_complete_partial {m : Deck} {rows : Str → List CellText.Row} {shape : Str → Surf K} {e : Env K} {tol : K} {fuel : ℕ}
    {sectors : List Sector} {x : Excel} {check : Bool} {st : Option (Sector → List ℤ)} {out : Out K}
    (h : extractSector m rows shape e tol fuel none (sectors.map some) x check = (st, .ok out))
    (hp : ∀ v, CutPlane sectors v → NeededSurf m x sectors v) :
    ∀ k c v, out.cells.get? k = some c → HasSurf c v → ∃ key card s, SurfCard m.surfs v key card ∧ (key, card, s) ∈ out.surfs := by
  obtain ⟨s1, e1, a1, a2⟩ := sector_cells h
  obtain ⟨s2, e2, b1, b2⟩ := sector_surfs h
  have hs1 : s1 = sectors := (List.map_injective_iff.2 (Option.some_injective _) e1).symm
  have hs2 : s2 = sectors := (List.map_injective_iff.2 (Option.some_injective _) e2).symm
  subst hs1
  subst hs2
  intro k c v hg hv
  apply b1
  have big : ∀ n, n = 800 ∨ n = 801 → ∀ c, Dict.get? m.cells (intStr n) = some c → ∀ c', (∀ v k', (v, k') ∈ c'.values ↔ (v, k') ∈ c.values ∨ (k' = Kind.sur ∧ CutPlane s2 v)) →
      HasSurf c' v → NeededSurf m x s2 v := by
    intro n hn c hc c' hvals hv
    rcases (hvals v Kind.sur).1 hv with h1 | ⟨-, h1⟩
    · refine ⟨n, c, ⟨n, ?_, .refl⟩, hc, h1⟩
      unfold Wanted
      tauto
    · exact hp v h1
  by_cases k8 : k = "800".toList
  · obtain ⟨c0, c', g1, g2, -, -, g3⟩ := a2 k (Or.inl k8)
    rw [hg] at g2
    simp only [Option.some.injEq] at g2
    subst g2
    exact big 800 (Or.inl rfl) c0 (by rw [str800, ← k8]; exact g1) c g3 hv
  · by_cases k9 : k = "801".toList
    · obtain ⟨c0, c', g1, g2, -, -, g3⟩ := a2 k (Or.inr k9)
      rw [hg] at g2
      simp only [Option.some.injEq] at g2
      subst g2
      exact big 801 (Or.inr rfl) c0 (by rw [str801, ← k9]; exact g1) c g3 hv
    · obtain ⟨n, c0, rfl, g1, g2, g3, g4⟩ := (a1 k c k8 k9).1 hg
      refine ⟨n, c0, g1, g2, ?_⟩
      by_cases hw : ∃ w, Wanted x s2 w ∧ c0.num = .ok w
      · rw [g3 hw] at hv
        have : ∀ (l : List (ℤ × Kind)) (y : ℤ × Kind), y ∈ eraseFirst l Kind.u → y ∈ l := by
          intro l
          induction l with
          | nil => intro y hy; exact hy
          | cons z l ih =>
            obtain ⟨z1, z2⟩ := z
            intro y hy
            unfold eraseFirst at hy
            split at hy
            · exact List.mem_cons_of_mem _ hy
            · rcases List.mem_cons.1 hy with rfl | hy
              · exact List.mem_cons_self
              · exact List.mem_cons_of_mem _ (ih y hy)
        exact this _ _ hv
      · rw [g4 hw] at hv
        exact hv

/-- **C160 is false of the code (missing planes)**: if a plane of the cut stands on no needed cell of the model, the outer cell and the graveyard of the
file refer to it, but it is not in the file: the surfaces are collected before the two cells are cut. -/
theorem plane_missing {m : Deck} {rows : Str → List CellText.Row} {shape : Str → Surf K} {e : Env K} {tol : K} {fuel : ℕ}
    {sectors : List Sector} {x : Excel} {check : Bool} {st : Option (Sector → List ℤ)} {out : Out K}
    (h : extractSector m rows shape e tol fuel none (sectors.map some) x check = (st, .ok out)) {v : ℤ} (hv : CutPlane sectors v)
    (hn : ¬ NeededSurf m x sectors v) :
    (∀ k, k = "800".toList ∨ k = "801".toList → ∃ c, out.cells.get? k = some c ∧ HasSurf c v) ∧
    ∀ key card card' s, SurfCard m.surfs v key card → (key, card', s) ∉ out.surfs := by
  obtain ⟨s1, e1, a1, a2⟩ := sector_cells h
  obtain ⟨s2, e2, b1, b2⟩ := sector_surfs h
  have hs1 : s1 = sectors := (List.map_injective_iff.2 (Option.some_injective _) e1).symm
  have hs2 : s2 = sectors := (List.map_injective_iff.2 (Option.some_injective _) e2).symm
  subst hs1
  subst hs2
  constructor
  · intro k hk
    obtain ⟨c0, c', g1, g2, -, -, g3⟩ := a2 k hk
    exact ⟨c', g2, (g3 v Kind.sur).2 (Or.inr ⟨rfl, hv⟩)⟩
  · intro key card card' s hs hm
    obtain ⟨⟨w, hw, hc⟩, -⟩ := b2 key card' s hm
    rw [surfCard_unique hs hc] at hn
    exact hn hw

/-! ### histories and refusals -/

/-- **C161 is false of the code (the second table)**: once a table was read, every later call uses it, whatever Excel file it is given and whether or not
the check is asked for. -/
theorem later_table_ignored (m : Deck) (rows : Str → List CellText.Row) (shape : Str → Surf K) (e : Env K) (tol : K) (fuel : ℕ)
    (names1 names2 : List (Option Sector)) (x1 x2 : Excel) (check1 check2 : Bool) {st : Option (Sector → List ℤ)} {r : Except PyErr (Out K)}
    (h : extractSector m rows shape e tol fuel none names1 x1 check1 = (st, r)) (hst : st ≠ none) :
    extractSector m rows shape e tol fuel st names2 x2 check2 = extractSector m rows shape e tol fuel none names2 x1 false := by
  unfold extractSector at h
  simp only at h
  cases hi : initElite m check1 x1 with
  | error er => rw [hi] at h; simp only [Prod.mk.injEq] at h; exact absurd h.1.symm hst
  | ok tab =>
    rw [hi] at h
    simp only [Prod.mk.injEq] at h
    rw [← h.1]
    have ht : tab = sectorCells x1 := by
      unfold initElite at hi
      split at hi
      · split at hi
        · simp at hi
        · split at hi
          · simp at hi
          · split at hi
            · simp only [Except.ok.injEq] at hi; exact hi.symm
            · simp at hi
      · simp only [Except.ok.injEq] at hi; exact hi.symm
    rw [ht]
    rfl

/-- the numbers of the cells without universe (specification) -/
def LevelZero (m : Deck) (n : ℤ) : Prop := ∃ k c, (k, c) ∈ m.cells ∧ parseInt k = some n ∧ c.univ = none

theorem levelZero_ok : ∀ {cells : Dict Str Card}, (∀ k c, (k, c) ∈ cells → ∃ n, parseInt k = some n) →
    ∃ ns, levelZero cells = .ok ns ∧ ∀ n, n ∈ ns ↔ ∃ k c, (k, c) ∈ cells ∧ parseInt k = some n ∧ c.univ = none := by
  intro cells
  induction cells with
  | nil => intro _; exact ⟨[], rfl, by simp⟩
  | cons p r ih =>
    obtain ⟨k, c⟩ := p
    intro h
    obtain ⟨n, hn⟩ := h k c (by simp)
    obtain ⟨ns, e, hm⟩ := ih (fun k' c' hm => h k' c' (by simp [hm]))
    refine ⟨if c.univ = none then n :: ns else ns, by rw [levelZero.eq_def]; simp only [hn, e], ?_⟩
    intro w
    constructor
    · intro hw
      by_cases hu : c.univ = none
      · rw [if_pos hu] at hw
        rcases List.mem_cons.1 hw with rfl | hw
        · exact ⟨k, c, by simp, hn, hu⟩
        · obtain ⟨k', c', h1, h2⟩ := (hm w).1 hw
          exact ⟨k', c', by simp [h1], h2⟩
      · rw [if_neg hu] at hw
        obtain ⟨k', c', h1, h2⟩ := (hm w).1 hw
        exact ⟨k', c', by simp [h1], h2⟩
    · rintro ⟨k', c', h1, h2, h3⟩
      rcases List.mem_cons.1 h1 with e1 | h1
      · simp only [Prod.mk.injEq] at e1
        obtain ⟨rfl, rfl⟩ := e1
        rw [if_pos h3]
        rw [hn] at h2
        simp only [Option.some.injEq] at h2
        simp [h2]
      · have hw := (hm w).2 ⟨k', c', h1, h2, h3⟩
        by_cases hu : c.univ = none
        · rw [if_pos hu]; exact List.mem_cons_of_mem _ hw
        · rw [if_neg hu]; exact hw

/-- **C161 (check).** With the check, the first call is refused with `RuntimeError`, and no table is kept, exactly if the table does not list exactly the
cells without a universe; a table that lists them is kept. Partial: False: once a table was read (even by a refused call), every later Excel file and check is ignored (later_table_ignored). -/
theorem check_exact_partial {m : Deck} (hk : ∀ k c, (k, c) ∈ m.cells → ∃ n, parseInt k = some n) (hne : m.cells ≠ []) (rows : Str → List CellText.Row)
    (shape : Str → Surf K) (e : Env K) (tol : K) (fuel : ℕ) (names : List (Option Sector)) (x : Excel) :
    ((∀ n, LevelZero m n ↔ n ∈ x.map Prod.fst) →
      extractSector m rows shape e tol fuel none names x true = extractSector m rows shape e tol fuel none names x false) ∧
    ((¬ ∀ n, LevelZero m n ↔ n ∈ x.map Prod.fst) → extractSector m rows shape e tol fuel none names x true = (none, .error .runtimeError)) := by
  obtain ⟨ns, hl, hm⟩ := levelZero_ok hk
  have hiff : (ns.all (fun n => n ∈ x.map Prod.fst) && (x.map Prod.fst).all (fun n => n ∈ ns)) = true ↔ ∀ n, LevelZero m n ↔ n ∈ x.map Prod.fst := by
    unfold LevelZero
    simp only [← hm, Bool.and_eq_true, List.all_eq_true, decide_eq_true_eq]
    constructor
    · rintro ⟨h1, h2⟩ n
      exact ⟨h1 n, h2 n⟩
    · intro h
      exact ⟨fun n hn => (h n).1 hn, fun n hn => (h n).2 hn⟩
  constructor
  · intro h
    have hi : initElite m true x = .ok (sectorCells x) := by
      unfold initElite
      rw [if_pos rfl, hl]
      simp only [if_neg hne]
      rw [if_pos (hiff.2 h)]
    have hi2 : initElite m false x = .ok (sectorCells x) := by
      unfold initElite
      rw [if_neg (by decide)]
    unfold extractSector
    simp only [hi, hi2]
  · intro h
    have hi : initElite m true x = .error .runtimeError := by
      unfold initElite
      rw [if_pos rfl, hl]
      simp only [if_neg hne]
      rw [if_neg (fun h' => h (hiff.1 h'))]
    unfold extractSector
    simp only [hi]

/-- **C161 (names).** A name that is no sector (such as 2 or 3) is refused with `KeyError`, without a file; the table is kept all the same. -/
theorem unknown_sector (m : Deck) (rows : Str → List CellText.Row) (shape : Str → Surf K) (e : Env K) (tol : K) (fuel : ℕ)
    {names : List (Option Sector)} (hn : none ∈ names) (x : Excel) :
    extractSector m rows shape e tol fuel none names x false = (some (sectorCells x), .error .keyError) := by
  unfold extractSector
  simp only [initElite, Bool.false_eq_true, if_false]
  unfold extractWith
  rw [collectCells_unknown hn]

/-! ### planes with a transformation -/

open Matrix in
/-- the matrix of a TR card: its rows are the axes of the other system (specification) -/
def trMatrix (cosd : K → K) (star : Bool) (vals : List K) : Matrix (Fin 3) (Fin 3) K :=
  let c := fun i => let v := vals.getD i 0; if star then cosd v else v
  !![c 4, c 5, c 6; c 7, c 8, c 9; c 10, c 11, c 12]

/-- the displacement of a TR card (specification) -/
def trShift (vals : List K) : Fin 3 → K := ![vals.getD 1 0, vals.getD 2 0, vals.getD 3 0]

/-- a vector as three numbers (specification) -/
def vec (u : K × K × K) : Fin 3 → K := ![u.1, u.2.1, u.2.2]

open Matrix in
/-- the plane with normal `u` and constant `d` in the system of a transformation, as a set of points of the main system: the coordinates of `p` in the
other system are `B (p - o)` (specification) -/
def TransPlane (cosd : K → K) (star : Bool) (vals : List K) (u : K × K × K) (d : K) (p : Fin 3 → K) : Prop :=
  vec u ⬝ᵥ (trMatrix cosd star vals *ᵥ (p - trShift vals)) = d

open Matrix in
/-- a rotation: the rows of the matrix are orthonormal (specification) -/
def Rotation (cosd : K → K) (star : Bool) (vals : List K) : Prop := trMatrix cosd star vals * (trMatrix cosd star vals)ᵀ = 1

omit [LinearOrder K] in
open Matrix in
/-- **C162 (rotation).** For a rotation, the normal that is computed is that of the plane in the main system, whose constant is the one of the card plus
the part of the displacement along the normal. Partial: Proved: the normal for rotations. False: displacements are ignored, planes with a pure translation are never boundaries. -/
theorem rotated_plane_partial {cosd : K → K} {star : Bool} {vals : List K} (hr : Rotation cosd star vals) (u : K × K × K) (d : K) (p : Fin 3 → K) :
    TransPlane cosd star vals u d p ↔
      vec (rotatePlane cosd star vals u) ⬝ᵥ p = d + vec (rotatePlane cosd star vals u) ⬝ᵥ trShift vals := by
  have hi : (trMatrix cosd star vals)⁻¹ = (trMatrix cosd star vals)ᵀ := Matrix.inv_eq_right_inv hr
  have hv : vec (rotatePlane cosd star vals u) = (trMatrix cosd star vals)ᵀ *ᵥ vec u := by
    rw [← hi]
    funext i
    fin_cases i <;> rfl
  have hd : ∀ q : Fin 3 → K, vec u ⬝ᵥ (trMatrix cosd star vals *ᵥ q) = vec (rotatePlane cosd star vals u) ⬝ᵥ q := by
    intro q
    rw [hv, Matrix.dotProduct_mulVec, Matrix.mulVec_transpose]
  unfold TransPlane
  rw [hd, dotProduct_sub, sub_eq_iff_eq_add]

/-- the environment with the transformations of the cards (specification) -/
noncomputable def withTrans (e : Env K) (cosd : K → K) (cards : ℕ → Option (Bool × List K)) : Env K := { e with trans := transOf cosd cards }

open Matrix in
/-- **C162 (no displacement).** A plane card with a rotation without displacement lies along an angle exactly if its constant is zero and the normal of
the plane in the main system is that of the boundary, both within the tolerance. -/
theorem rotated_along {e : Env K} {cosd : K → K} {cards : ℕ → Option (Bool × List K)} {tol : K} {angle : ℤ} {s : Surf K} {n : K × K × K} {d : K} {t : ℕ}
    {star : Bool} {vals : List K} (hp : planeOf s = some (.ok (n, d))) (ht : s.tr = some t) (hc : cards t = some (star, vals)) (hl : 12 ≤ vals.length) :
    Along (withTrans e cosd cards) tol s angle ↔ (0 - tol ≤ d ∧ d ≤ 0 + tol) ∧
      ∀ i, vec (boundaryNormal e angle) i - tol ≤ vec (rotatePlane cosd star vals (n.1 / e.nrm n, n.2.1 / e.nrm n, n.2.2 / e.nrm n)) i ∧
        vec (rotatePlane cosd star vals (n.1 / e.nrm n, n.2.1 / e.nrm n, n.2.2 / e.nrm n)) i ≤ vec (boundaryNormal e angle) i + tol := by
  unfold Along isBoundary
  rw [hp]
  simp only [ht]
  have htr : (withTrans e cosd cards).trans t = some (some (rotatePlane cosd star vals)) := by
    simp only [withTrans, transOf, hc, if_neg (not_lt.2 hl)]
  have hn : (withTrans e cosd cards).nrm = e.nrm := rfl
  have hb : boundaryNormal (withTrans e cosd cards) angle = boundaryNormal e angle := rfl
  rw [htr, hn, hb]
  simp only
  generalize rotatePlane cosd star vals (n.1 / e.nrm n, n.2.1 / e.nrm n, n.2.2 / e.nrm n) = r
  generalize boundaryNormal e angle = b
  obtain ⟨r1, r2, r3⟩ := r
  obtain ⟨b1, b2, b3⟩ := b
  have hall : (∀ i, vec (b1, b2, b3) i - tol ≤ vec (r1, r2, r3) i ∧ vec (r1, r2, r3) i ≤ vec (b1, b2, b3) i + tol) ↔
      checkTol tol (pairs (r1, r2, r3) (b1, b2, b3)) = true := by
    unfold checkTol pairs
    simp only [List.all_cons, List.all_nil, Bool.and_true, Bool.and_eq_true, decide_eq_true_eq]
    constructor
    · intro h
      exact ⟨h 0, h 1, h 2⟩
    · rintro ⟨h1, h2, h3⟩ i
      fin_cases i
      · exact h1
      · exact h2
      · exact h3
  rw [hall]
  by_cases hd : checkTol tol [(d, 0)] = true
  · rw [if_pos hd]
    simp only [Except.ok.injEq]
    unfold checkTol at hd
    simp only [List.all_cons, List.all_nil, Bool.and_true, decide_eq_true_eq] at hd
    exact ⟨fun h => ⟨hd, h⟩, fun h => h.2⟩
  · rw [if_neg hd]
    unfold checkTol at hd
    simp only [List.all_cons, List.all_nil, Bool.and_true, decide_eq_true_eq] at hd
    constructor
    · intro h; simp at h
    · intro h; exact absurd h.1 hd

/-- **C162 is false of the code (displacements)**: the displacement of a transformation plays no role, so a plane that was moved away from the boundary by
any distance is taken for the boundary, if the plane without displacement is. -/
theorem displacement_ignored {e : Env K} {cosd : K → K} {cards : ℕ → Option (Bool × List K)} {tol : K} {angle : ℤ} {s : Surf K} {t : ℕ} {star : Bool}
    {num o1 o2 o3 p1 p2 p3 : K} {rest : List K} (ht : s.tr = some t) (hc : cards t = some (star, num :: o1 :: o2 :: o3 :: rest))
    (h : Along (withTrans e cosd cards) tol s angle) :
    Along (withTrans e cosd (fun k => if k = t then some (star, num :: p1 :: p2 :: p3 :: rest) else cards k)) tol s angle := by
  unfold Along isBoundary at h ⊢
  have htr : (withTrans e cosd (fun k => if k = t then some (star, num :: p1 :: p2 :: p3 :: rest) else cards k)).trans t =
      (withTrans e cosd cards).trans t := by
    simp only [withTrans, transOf, if_true, hc, List.length_cons]
    split
    · rfl
    · congr 2
  rw [← h]
  cases planeOf s with
  | none => rfl
  | some q =>
    cases q with
    | error x => rfl
    | ok nd =>
      obtain ⟨n, d⟩ := nd
      simp only [ht, htr]
      rfl

/-- **C162 is false of the code (translations)**: a plane with a pure translation is never taken for the boundary, even if its translated plane is the
boundary plane. -/
theorem translation_skipped {e : Env K} {cosd : K → K} {cards : ℕ → Option (Bool × List K)} {tol : K} {angle : ℤ} {s : Surf K} {t : ℕ} {star : Bool}
    {vals : List K} (ht : s.tr = some t) (hc : cards t = some (star, vals)) (hl : vals.length < 12) :
    ¬ Along (withTrans e cosd cards) tol s angle := by
  unfold Along isBoundary
  have htr : (withTrans e cosd cards).trans t = some none := by
    simp only [withTrans, transOf, hc, if_pos hl]
  cases planeOf s with
  | none => simp
  | some q =>
    cases q with
    | error x => simp
    | ok nd =>
      obtain ⟨n, d⟩ := nd
      simp only [ht, htr]
      split <;> simp

end F4Enix.EliteX
