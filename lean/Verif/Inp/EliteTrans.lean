import Verif.Inp.EliteProps
import Verif.Inp.EliteWholeMore
/-!
# E-Lite sectors: planes with a transformation (C97)

`_modify_boundary` (elite.py:366-395) takes the sign of the y coefficient of the card, `_set_boundaries` (elite.py:221-279) compares the rotated
normal with the boundary: the two differ if the rotation turns the y component of the normal to the other side.
-/
namespace F4Enix.EliteX
open F4Enix F4Enix.CellText F4Enix.CellGeo F4Enix.Elite

variable {K : Type} [Field K] [LinearOrder K]

/-! ### specification -/

open Matrix in
/-- the coordinates of a point in the system of a TR card (specification) -/
def localPoint (cosd : K → K) (star : Bool) (vals : List K) (x : K × K × K) : K × K × K :=
  let y := trMatrix cosd star vals *ᵥ (vec x - trShift vals)
  (y 0, y 1, y 2)

/-- The y coefficient of the card and the y component of the normal in the main system have the same sign (zero counts as negative). (specification) -/
def SameSign (a b : K) : Prop := 0 < a ↔ 0 < b

/-- The card of a plane with a rotation: kind `P`, normal `n`, constant `d`, which is the last number of the card, transformation `t`. (specification) -/
structure RotCard (cards : ℕ → Option (Bool × List K)) (s : Surf K) (n : K × K × K) (d : K) (star : Bool) (vals : List K) : Prop where
  kind : s.stype = .p
  coefs : s.coefs = [n.1, n.2.1, n.2.2, d]
  last : s.last = d
  tr : ∃ t, s.tr = some t ∧ cards t = some (star, vals)
  long : 12 ≤ vals.length

/-! ### lemmas -/

omit [LinearOrder K] in
theorem mulVec_inv_scale (M : Matrix (Fin 3) (Fin 3) K) (a b c r : K) :
    (M⁻¹.mulVec ![a / r, b / r, c / r]) = fun i => (M⁻¹.mulVec ![a, b, c]) i / r := by
  have : (![a / r, b / r, c / r] : Fin 3 → K) = r⁻¹ • ![a, b, c] := by
    funext i
    fin_cases i <;> simp [div_eq_inv_mul]
  rw [this, Matrix.mulVec_smul]
  funext i
  simp [div_eq_inv_mul]

omit [LinearOrder K] in
/-- the rotated normal of length one is the rotated normal divided by the length -/
theorem rotatePlane_unit (cosd : K → K) (star : Bool) (vals : List K) (n : K × K × K) (r : K) :
    rotatePlane cosd star vals (n.1 / r, n.2.1 / r, n.2.2 / r) =
      ((rotatePlane cosd star vals n).1 / r, (rotatePlane cosd star vals n).2.1 / r, (rotatePlane cosd star vals n).2.2 / r) := by
  unfold rotatePlane
  simp only
  rw [mulVec_inv_scale]

section moved
variable [IsStrictOrderedRing K]

/-- the sign of the move of a plane with a rotation -/
theorem rotated_sign {e : Env K} (ht : Trig e) {cosd : K → K} {cards : ℕ → Option (Bool × List K)} {tol : K} {s : Surf K} {angle : ℤ}
    {n : K × K × K} {d : K} {star : Bool} {vals : List K} (hc : RotCard cards s n d star vals)
    (hal : Along (withTrans e cosd cards) tol s angle) (htol : tol < |e.cs angle|) (hang : -270 < angle ∧ angle ≤ 450) (l : Nat) :
    (SameSign n.2.1 (rotatePlane cosd star vals n).2.1 → moveSign l angle n.2.1 = (if 1 < l then (1 : K) else -1)) ∧
    (¬ SameSign n.2.1 (rotatePlane cosd star vals n).2.1 → moveSign l angle n.2.1 = -(if 1 < l then (1 : K) else -1)) := by
  obtain ⟨t, htr, hcard⟩ := hc.tr
  have hp : planeOf s = some (.ok (n, d)) := by
    unfold planeOf
    rw [hc.kind, hc.coefs]
  have hu := ((rotated_along (e := e) (cosd := cosd) (tol := tol) (angle := angle) hp htr hcard hc.long).1 hal).2 1
  rw [rotatePlane_unit] at hu
  have h1 : vec (boundaryNormal e angle) 1 = e.cs angle := rfl
  have h2 : ∀ a b c : K, vec (a, b, c) 1 = b := fun a b c => rfl
  rw [h1, h2] at hu
  generalize rotatePlane cosd star vals n = v at hu ⊢
  have hn := ht.nrm n
  unfold moveSign SameSign
  by_cases hq : (90 < angle ∧ angle < 270) ∨ (-270 < angle ∧ angle < -90)
  · have hcs := ht.neg angle hq
    have hb : ¬ 0 < v.2.1 := by
      intro hb
      have h1 : 0 ≤ v.2.1 / e.nrm n := div_nonneg hb.le hn
      rw [abs_of_neg hcs] at htol
      linarith [hu.2]
    by_cases hy : 0 < n.2.1
    · simp only [hq, hb, hy, tolSign]
      by_cases hl : 1 < l <;> simp [hl]
    · simp only [hq, hb, hy, tolSign]
      by_cases hl : 1 < l <;> simp [hl]
  · have hcs : 0 ≤ e.cs angle := ht.pos angle (by omega)
    have hb : 0 < v.2.1 := by
      by_contra hb
      push Not at hb
      have h1 : v.2.1 / e.nrm n ≤ 0 := div_nonpos_of_nonpos_of_nonneg hb hn
      rw [abs_of_nonneg hcs] at htol
      linarith [hu.1]
    by_cases hy : 0 < n.2.1
    · simp only [hq, hb, hy, tolSign]
      by_cases hl : 1 < l <;> simp [hl]
    · simp only [hq, hb, hy, tolSign]
      by_cases hl : 1 < l <;> simp [hl]

/-! ### C97: planes with a transformation -/

/-- **What is added to the constant of a plane with a rotation.** A plane of the universes with a rotation that lies along exactly one of the four
angles gets the change of a plane without transformation if the y coefficient of the card has the sign of the y component of the normal in the main
system, and the opposite change if not. -/
theorem rotated_moved {e : Env K} (ht : Trig e) {cosd : K → K} {cards : ℕ → Option (Bool × List K)} {tol : K} {l0 : ℤ → Bool} {lo hi : ℤ}
    {ss ss' : List (Surf K)} (h : setBoundaries (withTrans e cosd cards) [lo, hi] tol l0 ss = .ok ss')
    {s : Surf K} (hs : s ∈ ss) (h0 : l0 s.num = false) {n : K × K × K} {d : K} {star : Bool} {vals : List K} (hc : RotCard cards s n d star vals)
    {pre post : List ℤ} {angle : ℤ} (hw : withReverse [lo, hi] = pre ++ angle :: post)
    (hal : Along (withTrans e cosd cards) tol s angle) (hother : ∀ x ∈ pre ++ post, ¬ Along (withTrans e cosd cards) tol s x)
    (htol : tol < |e.cs angle|) (hang : -270 < angle ∧ angle ≤ 450) :
    (SameSign n.2.1 (rotatePlane cosd star vals n).2.1 →
      ({ s with last := e.rnd (d + (if 1 < pre.length then 2 * tol else - (2 * tol))) } : Surf K) ∈ ss') ∧
    (¬ SameSign n.2.1 (rotatePlane cosd star vals n).2.1 →
      ({ s with last := e.rnd (d + (if 1 < pre.length then - (2 * tol) else 2 * tol)) } : Surf K) ∈ ss') := by
  obtain ⟨s', hs', hl⟩ := forall₂_mem (angleLoop_get h) hs
  obtain ⟨t, htr, hcard⟩ := hc.tr
  have htrans : (withTrans e cosd cards).trans t = some (some (rotatePlane cosd star vals)) := by
    simp only [withTrans, transOf, hcard, if_neg (not_lt.2 hc.long)]
  have hfalse : ∀ x ∈ pre ++ post, isBoundary (withTrans e cosd cards) tol x s = .ok false := by
    intro x hx
    have := hother x hx
    unfold Along at this
    unfold isBoundary planeOf at this ⊢
    rw [hc.kind, hc.coefs, htr] at this ⊢
    simp only [htrans] at this ⊢
    split
    · rename_i hd0
      rw [if_pos hd0] at this
      simpa using this
    · rfl
  have key : ∀ q : K, moveSign pre.length angle n.2.1 * 2 * tol = q →
      ({ s with last := e.rnd (d + q) } : Surf K) ∈ ss' := by
    intro q hq
    have hstep : stepSurf (withTrans e cosd cards) tol l0 (0 + pre.length) angle s =
        .ok { s with last := e.rnd (d + q) } := by
      unfold stepSurf
      have hal' : isBoundary (withTrans e cosd cards) tol angle s = .ok true := hal
      rw [hal']
      simp only [modifyBoundary, h0, hc.coefs, Bool.false_eq_true, if_false, Except.ok.injEq]
      rw [hc.last, Nat.zero_add, hq]
      rfl
    have := surfLoop_one (post := post) (fun x hx => hfalse x (List.mem_append_left _ hx)) hstep
      (fun x hx => (isBoundary_congr (withTrans e cosd cards) tol x (s := s) rfl rfl rfl).trans
        (hfalse x (List.mem_append_right _ hx)))
    rw [← hw, hl] at this
    simp only [Except.ok.injEq] at this
    rw [← this]; exact hs'
  obtain ⟨ha, hb⟩ := rotated_sign ht hc hal htol hang pre.length
  constructor
  · intro hss
    refine key _ ?_
    rw [ha hss]
    split <;> ring
  · intro hss
    refine key _ ?_
    rw [hb hss]
    split <;> ring

/-- growing and shrinking of the side of the sector under a change by `±2·tol` -/
theorem side_down {rnd : K → K} {tol d : K} (hr : ∀ x, |rnd x - x| < 2 * tol) (n : K × K × K) {k : Nat} (hk : k = 0 ∨ k = 3) :
    (∀ x, SectorSide k n d x → SectorSide k n (rnd (d + - (2 * tol))) x) ∧ (∀ x, dot n x = d → SectorSide k n (rnd (d + - (2 * tol))) x) ∧
    (∀ x, SectorSide k n (rnd (d + 2 * tol)) x → SectorSide k n d x) ∧ (∀ x, dot n x = d → ¬ SectorSide k n (rnd (d + 2 * tol)) x) := by
  have h1 := abs_lt.mp (hr (d + - (2 * tol)))
  have h2 := abs_lt.mp (hr (d + 2 * tol))
  simp only [SectorSide, if_pos hk]
  exact ⟨fun x hx => by linarith, fun x hx => by linarith, fun x hx => by linarith, fun x hx => by linarith⟩

theorem side_up {rnd : K → K} {tol d : K} (hr : ∀ x, |rnd x - x| < 2 * tol) (n : K × K × K) {k : Nat} (hk : ¬ (k = 0 ∨ k = 3)) :
    (∀ x, SectorSide k n d x → SectorSide k n (rnd (d + 2 * tol)) x) ∧ (∀ x, dot n x = d → SectorSide k n (rnd (d + 2 * tol)) x) ∧
    (∀ x, SectorSide k n (rnd (d + - (2 * tol))) x → SectorSide k n d x) ∧ (∀ x, dot n x = d → ¬ SectorSide k n (rnd (d + - (2 * tol))) x) := by
  have h1 := abs_lt.mp (hr (d + - (2 * tol)))
  have h2 := abs_lt.mp (hr (d + 2 * tol))
  simp only [SectorSide, if_neg hk]
  exact ⟨fun x hx => by linarith, fun x hx => by linarith, fun x hx => by linarith, fun x hx => by linarith⟩

/-- **C97 (rotations), and false of the code.** A plane with a rotation moves outwards exactly as the two signs say: along a boundary angle
(positions 0 and 2) it moves outwards if the y coefficient of its card and the y component of its normal in the main system have the same sign,
and inwards if not; along the opposite angle (positions 1 and 3) it is the other way round. The points of space are taken to the system of the
card to see on which side of the plane they lie. -/
theorem rotated_outwards_partial {e : Env K} (ht : Trig e) {cosd : K → K} {cards : ℕ → Option (Bool × List K)} {tol : K}
    (hr : ∀ x, |e.rnd x - x| < 2 * tol) {l0 : ℤ → Bool} {lo hi : ℤ}
    {ss ss' : List (Surf K)} (h : setBoundaries (withTrans e cosd cards) [lo, hi] tol l0 ss = .ok ss')
    {s : Surf K} (hs : s ∈ ss) (h0 : l0 s.num = false) {n : K × K × K} {d : K} {star : Bool} {vals : List K} (hc : RotCard cards s n d star vals)
    {pre post : List ℤ} {angle : ℤ} (hw : withReverse [lo, hi] = pre ++ angle :: post)
    (hal : Along (withTrans e cosd cards) tol s angle) (hother : ∀ x ∈ pre ++ post, ¬ Along (withTrans e cosd cards) tol s x)
    (htol : tol < |e.cs angle|) (hang : -270 < angle ∧ angle ≤ 450)
    (hk : (pre.length = 0 ∨ pre.length = 2) ↔ SameSign n.2.1 (rotatePlane cosd star vals n).2.1) :
    ∃ s' ∈ ss', s'.num = s.num ∧
      (∀ x, SectorSide pre.length n s.last (localPoint cosd star vals x) → SectorSide pre.length n s'.last (localPoint cosd star vals x)) ∧
      (∀ x, dot n (localPoint cosd star vals x) = s.last → SectorSide pre.length n s'.last (localPoint cosd star vals x)) := by
  obtain ⟨ha, hb⟩ := rotated_moved ht h hs h0 hc hw hal hother htol hang
  have hlen : pre.length < 4 := by
    have := congrArg List.length hw
    simp [withReverse] at this
    omega
  rw [hc.last]
  by_cases hss : SameSign n.2.1 (rotatePlane cosd star vals n).2.1
  · refine ⟨_, ha hss, rfl, ?_⟩
    rcases hk.2 hss with hk' | hk' <;> rw [hk']
    · exact ⟨fun x => (side_down hr n (Or.inl rfl)).1 _, fun x => (side_down hr n (Or.inl rfl)).2.1 _⟩
    · exact ⟨fun x => (side_up hr n (by omega)).1 _, fun x => (side_up hr n (by omega)).2.1 _⟩
  · refine ⟨_, hb hss, rfl, ?_⟩
    have h13 : pre.length = 1 ∨ pre.length = 3 := by
      have : ¬ (pre.length = 0 ∨ pre.length = 2) := fun q => hss (hk.1 q)
      omega
    rcases h13 with hk' | hk' <;> rw [hk']
    · exact ⟨fun x => (side_up hr n (by omega)).1 _, fun x => (side_up hr n (by omega)).2.1 _⟩
    · exact ⟨fun x => (side_down hr n (Or.inr rfl)).1 _, fun x => (side_down hr n (Or.inr rfl)).2.1 _⟩

/-- **C97 is false of the code (rotations)**: in the other cases the plane moves inwards. -/
theorem rotated_inwards {e : Env K} (ht : Trig e) {cosd : K → K} {cards : ℕ → Option (Bool × List K)} {tol : K}
    (hr : ∀ x, |e.rnd x - x| < 2 * tol) {l0 : ℤ → Bool} {lo hi : ℤ}
    {ss ss' : List (Surf K)} (h : setBoundaries (withTrans e cosd cards) [lo, hi] tol l0 ss = .ok ss')
    {s : Surf K} (hs : s ∈ ss) (h0 : l0 s.num = false) {n : K × K × K} {d : K} {star : Bool} {vals : List K} (hc : RotCard cards s n d star vals)
    {pre post : List ℤ} {angle : ℤ} (hw : withReverse [lo, hi] = pre ++ angle :: post)
    (hal : Along (withTrans e cosd cards) tol s angle) (hother : ∀ x ∈ pre ++ post, ¬ Along (withTrans e cosd cards) tol s x)
    (htol : tol < |e.cs angle|) (hang : -270 < angle ∧ angle ≤ 450)
    (hk : ¬ ((pre.length = 0 ∨ pre.length = 2) ↔ SameSign n.2.1 (rotatePlane cosd star vals n).2.1)) :
    ∃ s' ∈ ss', s'.num = s.num ∧
      (∀ x, SectorSide pre.length n s'.last (localPoint cosd star vals x) → SectorSide pre.length n s.last (localPoint cosd star vals x)) ∧
      (∀ x, dot n (localPoint cosd star vals x) = s.last → ¬ SectorSide pre.length n s'.last (localPoint cosd star vals x)) := by
  obtain ⟨ha, hb⟩ := rotated_moved ht h hs h0 hc hw hal hother htol hang
  have hlen : pre.length < 4 := by
    have := congrArg List.length hw
    simp [withReverse] at this
    omega
  rw [hc.last]
  by_cases hss : SameSign n.2.1 (rotatePlane cosd star vals n).2.1
  · refine ⟨_, ha hss, rfl, ?_⟩
    have h13 : pre.length = 1 ∨ pre.length = 3 := by
      have : ¬ (pre.length = 0 ∨ pre.length = 2) := fun q => hk ⟨fun _ => hss, fun _ => q⟩
      omega
    rcases h13 with hk' | hk' <;> rw [hk']
    · exact ⟨fun x => (side_up hr n (by omega)).2.2.1 _, fun x => (side_up hr n (by omega)).2.2.2 _⟩
    · exact ⟨fun x => (side_down hr n (Or.inr rfl)).2.2.1 _, fun x => (side_down hr n (Or.inr rfl)).2.2.2 _⟩
  · refine ⟨_, hb hss, rfl, ?_⟩
    have h02 : pre.length = 0 ∨ pre.length = 2 := by
      by_contra q
      exact hk ⟨fun r => absurd r q, fun r => absurd r hss⟩
    rcases h02 with hk' | hk' <;> rw [hk']
    · exact ⟨fun x => (side_down hr n (Or.inl rfl)).2.2.1 _, fun x => (side_down hr n (Or.inl rfl)).2.2.2 _⟩
    · exact ⟨fun x => (side_up hr n (by omega)).2.2.1 _, fun x => (side_up hr n (by omega)).2.2.2 _⟩

end moved

omit [LinearOrder K] in
/-- **Why the side in the system of the card is the side of the sector**: for a rotation, the value of the card's plane at the local coordinates of
a point is that of the rotated normal at the point itself, less the part of the displacement along it. -/
theorem local_dot {cosd : K → K} {star : Bool} {vals : List K} (hr : Rotation cosd star vals) (n x : K × K × K) :
    dot n (localPoint cosd star vals x) =
      dot (rotatePlane cosd star vals n) x - dot (rotatePlane cosd star vals n) (trShift vals 0, trShift vals 1, trShift vals 2) := by
  have hdot : ∀ a b : K × K × K, dot a b = dotProduct (vec a) (vec b) := by
    intro a b
    simp [dot, vec, dotProduct, Fin.sum_univ_three]
  have hl : vec (localPoint cosd star vals x) = (trMatrix cosd star vals).mulVec (vec x - trShift vals) := by
    funext i
    fin_cases i <;> rfl
  have hsh : vec (trShift vals 0, trShift vals 1, trShift vals 2) = trShift vals := by
    funext i
    fin_cases i <;> rfl
  have := (rotated_plane_partial hr n (dot n (localPoint cosd star vals x)) (vec x)).1 (by
    unfold TransPlane
    rw [← hl, hdot])
  rw [hdot (rotatePlane cosd star vals n) x, hdot (rotatePlane cosd star vals n), hsh, this]
  ring

/-- **A rotated PX, PY or PZ plane of the universes along a boundary angle stops the extraction**: its card has no second coefficient, the
processing raises IndexError. -/
theorem rotated_axis_plane {e : Env K} {tol : K} {l0 : ℤ → Bool} {l : Nat} {angle : ℤ} {s : Surf K} {d : K}
    (h0 : l0 s.num = false) (hc : s.coefs = [d]) (hal : Along e tol s angle) :
    stepSurf e tol l0 l angle s = .error .indexError := by
  unfold stepSurf
  have : isBoundary e tol angle s = .ok true := hal
  rw [this]
  simp [modifyBoundary, h0, hc]

/-- The whole processing then ends with an error, for all lists of surfaces with such a plane. -/
theorem rotated_axis_stops {e : Env K} {tol : K} {l0 : ℤ → Bool} {angles : List ℤ} {ss : List (Surf K)} {s : Surf K} {d : K} {angle : ℤ} (hs : s ∈ ss)
    (h0 : l0 s.num = false) (hc : s.coefs = [d])
    (ha : angle ∈ withReverse angles) (hal : Along e tol s angle) :
    ∃ err, setBoundaries e angles tol l0 ss = .error err := by
  cases h : setBoundaries e angles tol l0 ss with
  | error err => exact ⟨err, rfl⟩
  | ok ss' =>
    exfalso
    obtain ⟨s', -, hl⟩ := forall₂_mem (angleLoop_get h) hs
    generalize withReverse angles = as at ha hl
    generalize 0 = l at hl
    induction as generalizing l with
    | nil => simp at ha
    | cons a as ih =>
      simp only [surfLoop] at hl
      split at hl
      · simp at hl
      · rename_i s1 h1
        by_cases hq : Along e tol s a
        · rw [rotated_axis_plane h0 hc hq] at h1
          simp at h1
        · have := stepSurf_none hq h1
          subst this
          refine ih ?_ _ hl
          rcases List.mem_cons.1 ha with rfl | ha
          · exact absurd hal hq
          · exact ha

/-! ### concrete cases -/

/-- a rotation by half a turn about z (example) -/
def halfTurn : List ℚ := [7, 0, 0, 0, -1, 0, 0, 0, -1, 0, 0, 0, 1]

/-- `trCards` (example) -/
def trCards : ℕ → Option (Bool × List ℚ) := fun t => if t = 7 then some (false, halfTurn) else none

/-- the plane of the lower boundary of sector 1 of the toy angles, written in the turned system (example) -/
def turned : Surf ℚ := ⟨2, .p, [3/5, -4/5, 0, 0], some 7, 0, 0⟩

theorem halfTurn_rotation : Rotation (fun x => x) false halfTurn := by
  unfold Rotation trMatrix halfTurn
  simp only [List.getD_cons_succ, List.getD_cons_zero, Bool.false_eq_true, if_false]
  ext i j
  fin_cases i <;> fin_cases j <;> simp [Matrix.mul_apply, Fin.sum_univ_three]

theorem halfTurn_plane (n : ℚ × ℚ × ℚ) : rotatePlane (fun x => x) false halfTurn n = (-n.1, -n.2.1, n.2.2) := by
  have hi : (trMatrix (fun x => x) false halfTurn)⁻¹ = (trMatrix (fun x => x) false halfTurn).transpose := Matrix.inv_eq_right_inv halfTurn_rotation
  have h : ∀ i, vec (rotatePlane (fun x => x) false halfTurn n) i = ((trMatrix (fun x => x) false halfTurn).transpose.mulVec (vec n)) i := by
    intro i
    rw [← hi]
    fin_cases i <;> rfl
  have h0 := h 0
  have h1 := h 1
  have h2 := h 2
  simp [Matrix.mulVec, trMatrix, halfTurn, dotProduct, Fin.sum_univ_three, vec] at h0 h1 h2
  exact Prod.ext h0 (Prod.ext h1 h2)

theorem turned_card : RotCard trCards turned (3/5, -4/5, 0) 0 false halfTurn :=
  ⟨rfl, rfl, rfl, ⟨7, rfl, rfl⟩, by decide⟩

theorem turned_along (angle : ℤ) : Along (withTrans toyEnv (fun x => x) trCards) (1/100) turned angle ↔
    Along toyEnv (1/100) (⟨3, .p, [-3/5, 4/5, 0, 0], none, 0, 0⟩ : Surf ℚ) angle := by
  have hp : planeOf turned = some (.ok (((3/5 : ℚ), (-4/5 : ℚ), (0 : ℚ)), (0 : ℚ))) := rfl
  rw [rotated_along (e := toyEnv) (cosd := fun x => x) hp (t := 7) (star := false) (vals := halfTurn) rfl rfl (by decide), halfTurn_plane]
  have hn : toyEnv.nrm ((3/5 : ℚ), (-4/5 : ℚ), (0 : ℚ)) = toyEnv.nrm ((-3/5 : ℚ), (4/5 : ℚ), (0 : ℚ)) := by decide +kernel
  unfold Along isBoundary planeOf
  simp only [checkTol, pairs, hn, List.all_cons, List.all_nil, Bool.and_true]
  generalize toyEnv.nrm ((-3/5 : ℚ), (4/5 : ℚ), (0 : ℚ)) = r
  generalize boundaryNormal toyEnv angle = b
  rw [if_pos (by decide +kernel)]
  simp only [Except.ok.injEq, Bool.and_eq_true, decide_eq_true_eq]
  have e1 : -((3/5 : ℚ) / r) = -3/5 / r := by ring
  have e2 : -((-4/5 : ℚ) / r) = 4/5 / r := by ring
  rw [e1, e2]
  constructor
  · rintro ⟨-, h⟩
    exact ⟨h 0, h 1, h 2⟩
  · rintro ⟨h0, h1, h2⟩
    refine ⟨by norm_num, fun i => ?_⟩
    fin_cases i
    · exact h0
    · exact h1
    · exact h2

/-- The turned plane lies along the lower angle 10 only, the signs differ: the hypotheses of `rotated_inwards` are met, the boundary plane of the
sector itself is moved inwards. -/
example : Along (withTrans toyEnv (fun x => x) trCards) (1/100) turned 10 ∧
    (∀ x ∈ ([] : List ℤ) ++ [190, 50, 230], ¬ Along (withTrans toyEnv (fun x => x) trCards) (1/100) turned x) ∧
    ¬ ((([] : List ℤ).length = 0 ∨ ([] : List ℤ).length = 2) ↔ SameSign (-4/5 : ℚ) (rotatePlane (fun x => x) false halfTurn (3/5, -4/5, 0)).2.1) := by
  refine ⟨(turned_along 10).2 (by unfold Along; decide +kernel), ?_, ?_⟩
  · intro x hx
    rw [turned_along]
    simp only [List.nil_append, List.mem_cons, List.not_mem_nil, or_false] at hx
    rcases hx with rfl | rfl | rfl <;> (unfold Along; decide +kernel)
  · rw [halfTurn_plane]
    unfold SameSign
    norm_num

/-- the toy angles with a transformation that takes every normal to that of 10 degrees (example) -/
def turnEnv : Env ℚ := { toyEnv with trans := fun _ => some (some (fun _ => (-3/5, 4/5, 0))) }

/-- a turned PX plane -/
example : ∃ err, setBoundaries turnEnv [10, 50] (1/100) (fun _ => false) [⟨4, .px, [0], some 7, 0, 0⟩] = .error err :=
  rotated_axis_stops (s := ⟨4, .px, [0], some 7, 0, 0⟩) (d := 0) (angle := 10) (by simp) rfl rfl (by decide)
    (by unfold Along; decide +kernel)

end F4Enix.EliteX
