import Verif.Inp.Elite
import Verif.Inp.CellUnionProps
import Mathlib.Analysis.SpecialFunctions.Trigonometric.Basic
import Mathlib.Analysis.SpecialFunctions.Sqrt
/-!
# E-Lite sectors: theorems about `Verif/Inp/Elite.lean`
-/
namespace F4Enix.Elite
open F4Enix F4Enix.CellText F4Enix.CellGeo

/-! ## The outer cell and the graveyard -/

theorem graveyardLoop_tail (g0 o0 : Card) (n : Nat) (ss : List Sector) (last : Sector) (k : Nat)
    (hk : 0 < k) (hn : k + (ss.length + 1) = n) (g o : Card) :
    graveyardLoop g0 o0 n k (ss ++ [last]) (some (g, o)) =
      (match addSurface g (-last.bounds.2) none .union with
      | .error e => Except.error e
      | .ok g' => match addSurface o last.bounds.2 none .intersect with
        | .error e => .error e
        | .ok o' => .ok (some (g', o'))) := by
  induction ss generalizing k with
  | nil =>
    have h1 : k ≠ 0 := by omega
    have h2 : k = n - 1 := by simp at hn; omega
    simp only [List.nil_append, graveyardLoop, h1, if_false]
    rw [if_pos h2]
    split <;> rename_i h <;> split at h <;> simp_all
    split at h <;> simp_all
    split at h <;> simp_all
  | cons s ss ih =>
    have h1 : k ≠ 0 := by omega
    have h2 : k ≠ n - 1 := by simp at hn; omega
    simp only [List.cons_append, graveyardLoop, h1, h2, if_false]
    exact ih (k + 1) (by omega) (by simp at hn; omega)

/-- the first and the last sector of a list (specification) -/
def IsFirst (s : Sector) (l : List Sector) : Prop := l.head? = some s
/-- `IsLast` (specification) -/
def IsLast (s : Sector) (l : List Sector) : Prop := l.getLast? = some s

/-- **The outer cell is cut by the two boundary planes and the graveyard takes the other side of
them.** For every list of sectors with first sector `a` and last sector `b`, and whatever the geometry
of the two cells, the region of the new outer cell is the old region inside the first plane of `a` and
the second plane of `b`; the new graveyard is the old one together with the two opposite sides.
Numbers, headers and parameters stay. -/
theorem graveyard_region {P : Type} (w : World P) {sectors : List Sector} {a b : Sector}
    (ha : IsFirst a sectors) (hb : IsLast b sectors) {gy outer : Card}
    {ng no : ℤ} {hg ho pg po : List Str} {tg tx : Str} {rg ro : Region P}
    (h1 : Shows gy ng hg tg pg) (h2 : Denotes w tg rg)
    (h3 : Shows outer no ho tx po) (h4 : Denotes w tx ro) :
    ∃ gy' outer' tg' tx', modifyGraveyard sectors gy outer = .ok (outer', gy') ∧
      Shows gy' ng hg tg' pg ∧ Shows outer' no ho tx' po ∧
      Denotes w tx' (CellGeo.inter (CellGeo.inter ro (sideOf w a.bounds.1)) (sideOf w b.bounds.2)) ∧
      Denotes w tg' (CellGeo.union (CellGeo.union rg (sideOf w (-a.bounds.1)))
        (sideOf w (-b.bounds.2))) := by
  obtain ⟨g1, tg1, hg1, hs1, hd1⟩ := add_surface_region w h1 h2 (-a.bounds.1) none .union
  obtain ⟨o1, to1, ho1, hs2, hd2⟩ := add_surface_region w h3 h4 a.bounds.1 none .intersect
  obtain ⟨g2, tg2, hg2, hs3, hd3⟩ := add_surface_region w hs1 hd1 (-b.bounds.2) none .union
  obtain ⟨o2, to2, ho2, hs4, hd4⟩ := add_surface_region w hs2 hd2 b.bounds.2 none .intersect
  refine ⟨g2, o2, tg2, to2, ?_, hs3, hs4, hd4, hd3⟩
  unfold IsFirst at ha
  unfold IsLast at hb
  cases sectors with
  | nil => simp at ha
  | cons s ss =>
    simp only [List.head?_cons, Option.some.injEq] at ha
    subst ha
    rcases List.eq_nil_or_concat ss with rfl | ⟨ss', l, rfl⟩
    · simp at hb; subst hb
      simp [modifyGraveyard, graveyardLoop, hg1, ho1, hg2, ho2]
    · simp only [List.concat_eq_append] at hb ⊢
      have : l = b := by simpa [List.getLast?_cons, List.getLast?_append] using hb
      subst this
      have hlen : ((s :: (ss' ++ [l])).length) = ss'.length + 2 := by simp
      unfold modifyGraveyard
      rw [hlen]
      have hstep : graveyardLoop gy outer (ss'.length + 2) 0 (s :: (ss' ++ [l])) none =
          graveyardLoop gy outer (ss'.length + 2) 1 (ss' ++ [l]) (some (g1, o1)) := by
        simp [graveyardLoop, hg1, ho1]
      rw [hstep, graveyardLoop_tail gy outer (ss'.length + 2) ss' l 1 (by omega) (by omega)]
      simp [hg2, ho2]

/-- Without sectors the call raises `UnboundLocalError`. -/
theorem graveyard_none (gy outer : Card) : modifyGraveyard [] gy outer = .error .unboundLocal := rfl

/-- **No gap and no overlap**: if graveyard and outer cell did not overlap, they do not overlap
afterwards (the two sides of a plane are disjoint), and every point of the outer cell is afterwards in
one of the two. -/
theorem graveyard_partition {P : Type} (w : World P) {sectors : List Sector} {a b : Sector}
    (ha : IsFirst a sectors) (hb : IsLast b sectors) {gy outer : Card}
    {ng no : ℤ} {hg ho pg po : List Str} {tg tx : Str} {rg ro : Region P}
    (h1 : Shows gy ng hg tg pg) (h2 : Denotes w tg rg)
    (h3 : Shows outer no ho tx po) (h4 : Denotes w tx ro)
    (hcompl : ∀ s : ℤ, ∀ x, sideOf w (-s) x ↔ ¬ sideOf w s x) (hdis : ∀ x, ¬ (rg x ∧ ro x)) :
    ∃ gy' outer' tg' tx' rg' ro', modifyGraveyard sectors gy outer = .ok (outer', gy') ∧
      Shows gy' ng hg tg' pg ∧ Shows outer' no ho tx' po ∧ Denotes w tg' rg' ∧ Denotes w tx' ro' ∧
      (∀ x, ¬ (rg' x ∧ ro' x)) ∧ (∀ x, rg x ∨ ro x → rg' x ∨ ro' x) := by
  obtain ⟨gy', outer', tg', to', e, s1, s2, d1, d2⟩ := graveyard_region w ha hb h1 h2 h3 h4
  refine ⟨gy', outer', tg', to', _, _, e, s1, s2, d2, d1, ?_, ?_⟩
  · intro x ⟨hx, hy⟩
    simp only [CellGeo.union, CellGeo.inter, hcompl] at hx hy
    have := hdis x
    tauto
  · intro x hx
    simp only [CellGeo.union, CellGeo.inter, hcompl]
    tauto

/-- a concrete case: the cells of `Verif/Inp/CellUnionProps.lean` -/
example {P : Type} (w : World P) := graveyard_region w (sectors := [.s1, .s23]) rfl rfl
  card10_shows (card10_region w) card20_shows (card20_region w)
example : (modifyGraveyard [.s1, .s23] card10 card20).toOption.map
    (fun p => (p.1.print.map unwords, p.2.print.map unwords)) =
    some (some "20 4 ~ ( ( -8 #10 ) 427024 ) 437543 imp:n=1".toList,
      some "10 0 ( ( 1 -2 : 3 ) :-427024 ) :-437543 imp:n=1 u=5 fill=7".toList) := by decide +kernel

/-! ## Angles and source -/

theorem anglesLoop_tail (n : Nat) (ss : List Sector) (last : Sector) (k : Nat)
    (hk : 0 < k) (hn : k + (ss.length + 1) = n) :
    anglesLoop n k (ss ++ [last]) = [last.angles.2] := by
  induction ss generalizing k with
  | nil =>
    have h1 : k ≠ 0 := by omega
    have h2 : k = n - 1 := by simp at hn; omega
    simp only [List.nil_append, anglesLoop, h1, if_false]
    rw [if_pos h2]; rfl
  | cons s ss ih =>
    have h1 : k ≠ 0 := by omega
    have h2 : k ≠ n - 1 := by simp at hn; omega
    simp only [List.cons_append, anglesLoop, h1, h2, if_false, List.nil_append]
    exact ih (k + 1) (by omega) (by simp at hn; omega)

/-- **The two boundary angles are the lower angle of the first sector and the upper angle of the
last one**, in this order. -/
theorem angles_first_last {sectors : List Sector} {a b : Sector}
    (ha : IsFirst a sectors) (hb : IsLast b sectors) :
    boundaryAngles sectors = [a.angles.1, b.angles.2] := by
  unfold IsFirst at ha
  unfold IsLast at hb
  unfold boundaryAngles
  cases sectors with
  | nil => simp at ha
  | cons s ss =>
    simp only [List.head?_cons, Option.some.injEq] at ha
    subst ha
    rcases List.eq_nil_or_concat ss with rfl | ⟨ss', l, rfl⟩
    · simp at hb; subst hb; simp [anglesLoop]
    · simp only [List.concat_eq_append] at hb ⊢
      have : l = b := by simpa [List.getLast?_cons, List.getLast?_append] using hb
      subst this
      have hlen : ((s :: (ss' ++ [l])).length) = ss'.length + 2 := by simp
      rw [hlen]
      have h2 : ¬ (0 : Nat) = ss'.length + 2 - 1 := by omega
      simp only [anglesLoop, h2, if_false, if_true, List.append_nil]
      rw [anglesLoop_tail _ ss' l 1 (by omega) (by omega)]
      rfl

/-- the sector that follows counterclockwise (specification) -/
def Sector.next : Sector → Sector
  | .s1 => .s23 | .s23 => .s4 | .s4 => .s5 | .s5 => .s6 | .s6 => .s7 | .s7 => .s8 | .s8 => .s9 | .s9 => .s1

/-- **The sectors tile the circle**: each begins where the previous one ends, each covers 40 degrees
("2 & 3" covers 80), modulo 360. -/
theorem sectors_tile (s : Sector) :
    s.angles.2 = s.next.angles.1 ∧
    (s.angles.2 - s.angles.1) % 360 = (if s = .s23 then 80 else 40) := by
  cases s <;> decide

/-- no plane, plasma cell or angle is used twice -/
theorem sectors_distinct (s t : Sector) (h : s ≠ t) :
    s.plasma ≠ t.plasma ∧ s.bounds.1.natAbs ≠ t.bounds.1.natAbs ∧ s.bounds.2.natAbs ≠ t.bounds.2.natAbs ∧
    s.bounds.1.natAbs ≠ t.bounds.2.natAbs ∧ s.angles.1 ≠ t.angles.1 ∧ s.angles.2 ≠ t.angles.2 := by
  cases s <;> cases t <;> first | exact absurd rfl h | decide

theorem natStr_one : natStr 1 = ['1'] := by decide +kernel
theorem natStr_two : natStr 2 = ['2'] := by decide +kernel

theorem setSdef_aux (sectors : List Sector) (a b : Str) :
    sectors.foldl (fun t s =>
      (t.1 ++ natStr s.plasma ++ [' '], t.2 ++ (if s ≠ .s23 then ['1', ' '] else ['2', ' ']))) (a, b) =
    (a ++ sectors.flatMap (fun s => natStr s.plasma ++ [' ']),
     b ++ sectors.flatMap (fun s => natStr (if s = .s23 then 2 else 1) ++ [' '])) := by
  induction sectors generalizing a b with
  | nil => simp
  | cons s ss ih =>
    rw [List.foldl_cons, ih]
    cases s <;> simp [List.append_assoc, natStr_one, natStr_two]

/-- **The new source**: SI70 lists the plasma cells of the sectors in the order of the request, SP70
gives each the number of regular sectors it stands for (1, or 2 for "2 & 3"), position by position. -/
theorem sdef_text (sectors : List Sector) :
    setSdef sectors =
      ("SI70 L ".toList ++ sectors.flatMap (fun s => natStr s.plasma ++ [' ']),
       "SP70 ".toList ++ sectors.flatMap (fun s => natStr (if s = .s23 then 2 else 1) ++ [' '])) :=
  setSdef_aux sectors _ _

/-- The weight of a plasma cell is proportional to the angle of its sector. -/
theorem sdef_weight (s : Sector) :
    (s.angles.2 - s.angles.1) % 360 = 40 * (if s = .s23 then 2 else 1) := by cases s <;> decide

/-! ## The boundary planes -/

variable {K : Type} [Field K] [LinearOrder K]

/-- Does the plane of the surface lie, within the tolerance, along a given angle? (as a proposition;
`none`: reading its coefficients fails) (specification) -/
def Along (e : Env K) (tol : K) (s : Surf K) (angle : ℤ) : Prop := isBoundary e tol angle s = .ok true

instance (e : Env K) (tol : K) (s : Surf K) (angle : ℤ) : Decidable (Along e tol s angle) := by
  unfold Along; infer_instance

theorem isBoundary_congr (e : Env K) (tol : K) (angle : ℤ) {s s' : Surf K}
    (h1 : s'.stype = s.stype) (h2 : s'.coefs = s.coefs) (h3 : s'.tr = s.tr) :
    isBoundary e tol angle s' = isBoundary e tol angle s := by
  unfold isBoundary planeOf
  rw [h1, h2, h3]

/-- how a surface is processed over all the angles (proof) -/
def surfLoop (e : Env K) (tol : K) (l0 : ℤ → Bool) : Nat → List ℤ → Surf K → Except PyErr (Surf K)
  | _, [], s => .ok s
  | l, a :: as, s =>
    match stepSurf e tol l0 l a s with
    | .error x => .error x
    | .ok s' => surfLoop e tol l0 (l + 1) as s'

theorem stepSurfs_get {e : Env K} {tol : K} {l0 : ℤ → Bool} {l : Nat} {a : ℤ} {ss ss' : List (Surf K)}
    (h : stepSurfs e tol l0 l a ss = .ok ss') :
    List.Forall₂ (fun s s' => stepSurf e tol l0 l a s = .ok s') ss ss' := by
  induction ss generalizing ss' with
  | nil => simp [stepSurfs] at h; subst h; exact .nil
  | cons s ss ih =>
    simp only [stepSurfs] at h
    split at h
    · simp at h
    · rename_i s1 h1
      split at h
      · simp at h
      · rename_i ss1 h2
        simp at h; subst h
        exact .cons h1 (ih h2)

theorem angleLoop_get {e : Env K} {tol : K} {l0 : ℤ → Bool} {l : Nat} {as : List ℤ}
    {ss ss' : List (Surf K)} (h : angleLoop e tol l0 l as ss = .ok ss') :
    List.Forall₂ (fun s s' => surfLoop e tol l0 l as s = .ok s') ss ss' := by
  induction as generalizing l ss with
  | nil =>
    simp [angleLoop] at h; subst h
    exact List.forall₂_same.mpr (fun _ _ => rfl)
  | cons a as ih =>
    simp only [angleLoop] at h
    split at h
    · simp at h
    · rename_i ss1 h1
      have := ih h
      have h1' := stepSurfs_get h1
      clear h1 h ih
      induction h1' generalizing ss' with
      | nil => cases this; exact .nil
      | cons hs _ ih' =>
        cases this with
        | cons ht hts => exact .cons (by simp only [surfLoop, hs]; exact ht) (ih' hts)

theorem stepSurf_l0 {e : Env K} {tol : K} {l0 : ℤ → Bool} {l : Nat} {a : ℤ} {s s' : Surf K}
    (h0 : l0 s.num = true) (h : stepSurf e tol l0 l a s = .ok s') :
    s' = { s with stars := s.stars + if Along e tol s a then 1 else 0 } := by
  unfold stepSurf at h
  split at h
  · simp at h
  · rename_i hb
    simp at h; subst h
    have : ¬ Along e tol s a := by unfold Along; rw [hb]; simp
    rw [if_neg this]; rfl
  · rename_i hb
    have : Along e tol s a := hb
    rw [if_pos this]
    simp [modifyBoundary, h0] at h
    exact h.symm

theorem surfLoop_l0 {e : Env K} {tol : K} {l0 : ℤ → Bool} {l : Nat} {as : List ℤ} {s s' : Surf K}
    (h0 : l0 s.num = true) (h : surfLoop e tol l0 l as s = .ok s') :
    s' = { s with stars := s.stars + as.countP (fun a => decide (Along e tol s a)) } := by
  induction as generalizing l s with
  | nil => simp [surfLoop] at h; subst h; simp
  | cons a as ih =>
    simp only [surfLoop] at h
    split at h
    · simp at h
    · rename_i s1 h1
      have e1 := stepSurf_l0 h0 h1
      have hcongr : ∀ x, Along e tol s1 x ↔ Along e tol s x := by
        intro x; unfold Along
        rw [isBoundary_congr e tol x (s' := s1) (s := s) (by rw [e1]) (by rw [e1]) (by rw [e1])]
      have e2 := ih (by subst e1; exact h0) h
      simp only [hcongr] at e2
      rw [e2, List.countP_cons, e1]
      simp only [decide_eq_true_eq, Surf.mk.injEq, true_and, and_true]
      split <;> omega

/-- **Envelope planes become periodic.** When the processing ends normally, every surface of the
envelopes gets exactly one `*` for each boundary angle (or opposite angle) it lies along, and nothing
else of it changes; in particular a surface that lies along none is unchanged. The surfaces keep their
number and order. Partial: One star per angle the plane lies along: exactly one unless the angles coincide, where the property fails. -/
theorem envelope_stars_partial {e : Env K} {tol : K} {l0 : ℤ → Bool} {angles : List ℤ}
    {ss ss' : List (Surf K)} (h : setBoundaries e angles tol l0 ss = .ok ss') :
    List.Forall₂ (fun s s' => l0 s.num = true →
      s' = { s with stars := s.stars + (withReverse angles).countP (fun a => decide (Along e tol s a)) })
      ss ss' :=
  (angleLoop_get h).imp (fun _ _ hl h0 => surfLoop_l0 h0 hl)

theorem stepSurf_none {e : Env K} {tol : K} {l0 : ℤ → Bool} {l : Nat} {a : ℤ} {s s' : Surf K}
    (ha : ¬ Along e tol s a) (h : stepSurf e tol l0 l a s = .ok s') : s' = s := by
  unfold stepSurf at h
  split at h
  · simp at h
  · simp at h; exact h.symm
  · exact absurd ‹_› ha

/-- **A surface that lies along no boundary angle is untouched**, in the envelopes or not. -/
theorem others_untouched {e : Env K} {tol : K} {l0 : ℤ → Bool} {angles : List ℤ}
    {ss ss' : List (Surf K)} (h : setBoundaries e angles tol l0 ss = .ok ss') :
    List.Forall₂ (fun s s' => (∀ a ∈ withReverse angles, ¬ Along e tol s a) → s' = s) ss ss' := by
  refine (angleLoop_get h).imp (fun s s' hl hn => ?_)
  generalize withReverse angles = as at hl hn
  generalize 0 = l at hl
  induction as generalizing l with
  | nil => simp [surfLoop] at hl; exact hl.symm
  | cons a as ih =>
    simp only [surfLoop] at hl
    split at hl
    · simp at hl
    · rename_i s1 h1
      have := stepSurf_none (hn a (by simp)) h1
      subst this
      exact ih (fun b hb => hn b (List.mem_cons_of_mem _ hb)) _ hl

/-- **All the sectors at once**: lower and upper angle coincide, so every envelope plane along it gets
two stars, which MCNP does not read. -/
theorem full_circle_two_stars {e : Env K} {tol : K} {l0 : ℤ → Bool} {a : ℤ}
    {ss ss' : List (Surf K)} (h : setBoundaries e [a, a] tol l0 ss = .ok ss') :
    List.Forall₂ (fun s s' => l0 s.num = true → Along e tol s a → s.stars + 2 ≤ s'.stars) ss ss' := by
  refine (envelope_stars_partial h).imp (fun s s' hs h0 ha => ?_)
  rw [hs h0]
  simp only [withReverse, List.flatMap_cons, List.flatMap_nil, List.cons_append, List.nil_append,
    List.countP_cons, List.countP_nil, ha, decide_true, if_true]
  omega

/-! ## The planes inside the universes are moved -/

section moved
variable [IsStrictOrderedRing K]

/-- What is used of trigonometry and of the norm: the norm is not negative, and the sign of the cosine
of an angle between -270 and 450 degrees. (specification) -/
structure Trig (e : Env K) : Prop where
  nrm : ∀ n, 0 ≤ e.nrm n
  neg : ∀ a : ℤ, (90 < a ∧ a < 270) ∨ (-270 < a ∧ a < -90) → e.cs a < 0
  pos : ∀ a : ℤ, (-90 ≤ a ∧ a ≤ 90) ∨ (270 ≤ a ∧ a ≤ 450) → 0 ≤ e.cs a

/-- the point `x` is on the upper side of the plane with normal `n` and constant `d` (specification) -/
def dot (n x : K × K × K) : K := n.1 * x.1 + n.2.1 * x.2.1 + n.2.2 * x.2.2

/-- The side of a plane on which the sector lies. Position 0: planes along the lower angle, the sector
is on the upper side. Position 1: planes along the opposite of the lower angle. Positions 2 and 3: the
same for the upper angle, where the sector is on the other side. (specification) -/
def SectorSide (k : Nat) (n : K × K × K) (d : K) (x : K × K × K) : Prop :=
  if k = 0 ∨ k = 3 then d < dot n x else dot n x < d

theorem along_sign {e : Env K} (ht : Trig e) {tol : K} {s : Surf K} {angle : ℤ} {a b c d : K}
    {rest : List K} (hp : s.stype = .p) (hc : s.coefs = a :: b :: c :: d :: rest) (htr : s.tr = none)
    (hal : Along e tol s angle) (htol : tol < |e.cs angle|)
    (hang : -270 < angle ∧ angle ≤ 450) (l : Nat) :
    moveSign l angle b = (if 1 < l then (1 : K) else -1) := by
  have hu : e.cs angle - tol ≤ b / e.nrm (a, b, c) ∧ b / e.nrm (a, b, c) ≤ e.cs angle + tol := by
    unfold Along isBoundary planeOf at hal
    rw [hp, hc, htr] at hal
    simp only at hal
    split at hal
    · simp only [Except.ok.injEq, checkTol, pairs, boundaryNormal, List.all_cons, List.all_nil,
        Bool.and_true, Bool.and_eq_true, decide_eq_true_eq] at hal
      exact hal.2.1
    · simp at hal
  have hn := ht.nrm (a, b, c)
  unfold moveSign
  by_cases hq : (90 < angle ∧ angle < 270) ∨ (-270 < angle ∧ angle < -90)
  · have hcs := ht.neg angle hq
    have hb : ¬ 0 < b := by
      intro hb
      have h1 : 0 ≤ b / e.nrm (a, b, c) := div_nonneg hb.le hn
      rw [abs_of_neg hcs] at htol
      linarith [hu.2]
    simp only [hq, hb, tolSign]
    split <;> simp_all
  · have hcs : 0 ≤ e.cs angle := ht.pos angle (by omega)
    have hb : 0 < b := by
      by_contra hb
      push Not at hb
      have h1 : b / e.nrm (a, b, c) ≤ 0 := div_nonpos_of_nonpos_of_nonneg hb hn
      rw [abs_of_nonneg hcs] at htol
      linarith [hu.1]
    simp only [hq, hb, tolSign]
    split <;> simp_all

omit [IsStrictOrderedRing K] in
theorem surfLoop_one {e : Env K} {tol : K} {l0 : ℤ → Bool} {pre post : List ℤ} {a : ℤ} {l : Nat}
    {s s1 : Surf K} (hpre : ∀ x ∈ pre, isBoundary e tol x s = .ok false)
    (hs : stepSurf e tol l0 (l + pre.length) a s = .ok s1)
    (hpost : ∀ x ∈ post, isBoundary e tol x s1 = .ok false) :
    surfLoop e tol l0 l (pre ++ a :: post) s = .ok s1 := by
  induction pre generalizing l with
  | nil =>
    simp only [List.nil_append, surfLoop]
    simp only [List.length_nil, Nat.add_zero] at hs
    rw [hs]
    clear hs
    simp only
    generalize l + 1 = m
    induction post generalizing m with
    | nil => rfl
    | cons b bs ih =>
      have := hpost b (by simp)
      simp only [surfLoop, stepSurf, this]
      exact ih (fun x hx => hpost x (List.mem_cons_of_mem _ hx)) _
  | cons b bs ih =>
    have := hpre b (by simp)
    simp only [List.cons_append, surfLoop, stepSurf, this]
    refine ih (fun x hx => hpre x (List.mem_cons_of_mem _ hx)) ?_
    rw [← hs, List.length_cons, Nat.add_assoc, Nat.add_comm 1]

theorem forall₂_mem {α β : Type} {R : α → β → Prop} {l : List α} {l' : List β} (h : List.Forall₂ R l l')
    {x : α} (hx : x ∈ l) : ∃ y ∈ l', R x y := by
  induction h with
  | nil => simp at hx
  | cons hr _ ih =>
    rcases List.mem_cons.mp hx with rfl | hx
    · exact ⟨_, by simp, hr⟩
    · obtain ⟨y, hy, hxy⟩ := ih hx
      exact ⟨y, List.mem_cons_of_mem _ hy, hxy⟩

/-- **What is added to the constant of a plane of the universes.** A plane (kind `P`, four numbers, no
transformation) outside the envelopes that lies along exactly one of the four angles — at position `k`
— gets `2·tol` subtracted from its constant for the lower boundary (k ≤ 1), added for the upper one
(k > 1), whichever way its normal points; only the last number changes. -/
theorem plane_moved {e : Env K} (ht : Trig e) {tol : K} {l0 : ℤ → Bool} {lo hi : ℤ}
    {ss ss' : List (Surf K)} (h : setBoundaries e [lo, hi] tol l0 ss = .ok ss')
    {s : Surf K} (hs : s ∈ ss) (h0 : l0 s.num = false) (hp : s.stype = .p) {a b c d : K}
    (hc : s.coefs = [a, b, c, d]) (hd : s.last = d) (htr : s.tr = none)
    {pre post : List ℤ} {angle : ℤ} (hw : withReverse [lo, hi] = pre ++ angle :: post)
    (hal : Along e tol s angle) (hother : ∀ x ∈ pre ++ post, ¬ Along e tol s x)
    (htol : tol < |e.cs angle|) (hang : -270 < angle ∧ angle ≤ 450) :
    ({ s with last := e.rnd (d + (if 1 < pre.length then 2 * tol else - (2 * tol))) } : Surf K) ∈ ss' := by
  obtain ⟨s', hs', hl⟩ := forall₂_mem (angleLoop_get h) hs
  have hfalse : ∀ x ∈ pre ++ post, isBoundary e tol x s = .ok false := by
    intro x hx
    have := hother x hx
    unfold Along at this
    unfold isBoundary planeOf at this ⊢
    rw [hp, hc, htr] at this ⊢
    simp only at this ⊢
    split
    · rename_i hd0
      rw [if_pos hd0] at this
      simpa using this
    · rfl
  have hstep : stepSurf e tol l0 (0 + pre.length) angle s =
      .ok { s with last := e.rnd (d + (if 1 < pre.length then 2 * tol else - (2 * tol))) } := by
    unfold stepSurf
    have hal' : isBoundary e tol angle s = .ok true := hal
    rw [hal']
    simp only [modifyBoundary, h0, hc, Bool.false_eq_true, if_false, Except.ok.injEq]
    rw [along_sign ht hp hc htr hal htol hang, hd, Nat.zero_add]
    congr 2
    split <;> ring
  have := surfLoop_one (post := post) (fun x hx => hfalse x (List.mem_append_left _ hx)) hstep
    (fun x hx => (isBoundary_congr e tol x (s := s) rfl rfl rfl).trans
      (hfalse x (List.mem_append_right _ hx)))
  rw [← hw, hl] at this
  simp only [Except.ok.injEq] at this
  rw [← this]; exact hs'

theorem side_grows {rnd : K → K} {tol d : K} (hr : ∀ x, |rnd x - x| < 2 * tol)
    (n : K × K × K) (k : Nat) (hk : k = 0 ∨ k = 2) :
    (∀ x, SectorSide k n d x →
      SectorSide k n (rnd (d + (if 1 < k then 2 * tol else - (2 * tol)))) x) ∧
    (∀ x, dot n x = d → SectorSide k n (rnd (d + (if 1 < k then 2 * tol else - (2 * tol)))) x) := by
  rcases hk with rfl | rfl
  · have := abs_lt.mp (hr (d + - (2 * tol)))
    simp [SectorSide]
    exact ⟨fun x y z hx => by linarith [this.2], fun x y z hx => by linarith [this.2]⟩
  · have := abs_lt.mp (hr (d + 2 * tol))
    simp [SectorSide]
    exact ⟨fun x y z hx => by linarith [this.1], fun x y z hx => by linarith [this.1]⟩

theorem side_shrinks {rnd : K → K} {tol d : K} (hr : ∀ x, |rnd x - x| < 2 * tol)
    (n : K × K × K) (k : Nat) (hk : k = 1 ∨ k = 3) :
    (∀ x, SectorSide k n (rnd (d + (if 1 < k then 2 * tol else - (2 * tol)))) x → SectorSide k n d x) ∧
    (∀ x, dot n x = d → ¬ SectorSide k n (rnd (d + (if 1 < k then 2 * tol else - (2 * tol)))) x) := by
  rcases hk with rfl | rfl
  · have := abs_lt.mp (hr (d + - (2 * tol)))
    simp [SectorSide]
    exact ⟨fun x y z hx => by linarith [this.2], fun x y z hx => by linarith [this.2]⟩
  · have := abs_lt.mp (hr (d + 2 * tol))
    simp [SectorSide]
    exact ⟨fun x y z hx => by linarith [this.1], fun x y z hx => by linarith [this.1]⟩

/-- **Planes along a boundary angle move outwards**: the side of the plane on which the sector lies
grows, and now contains the whole old plane. This is half of "the planes of the universes are moved
outwards"; the other half is false, see `moved_inwards`. -/
theorem moved_outwards_partial {e : Env K} (ht : Trig e) {tol : K} (hr : ∀ x, |e.rnd x - x| < 2 * tol)
    {l0 : ℤ → Bool} {lo hi : ℤ}
    {ss ss' : List (Surf K)} (h : setBoundaries e [lo, hi] tol l0 ss = .ok ss')
    {s : Surf K} (hs : s ∈ ss) (h0 : l0 s.num = false) (hp : s.stype = .p) {a b c d : K}
    (hc : s.coefs = [a, b, c, d]) (hd : s.last = d) (htr : s.tr = none)
    {pre post : List ℤ} {angle : ℤ} (hw : withReverse [lo, hi] = pre ++ angle :: post)
    (hal : Along e tol s angle) (hother : ∀ x ∈ pre ++ post, ¬ Along e tol s x)
    (htol : tol < |e.cs angle|) (hang : -270 < angle ∧ angle ≤ 450)
    (hk : pre.length = 0 ∨ pre.length = 2) :
    ∃ s' ∈ ss', s'.num = s.num ∧
      (∀ x, SectorSide pre.length (a, b, c) s.last x → SectorSide pre.length (a, b, c) s'.last x) ∧
      (∀ x, dot (a, b, c) x = s.last → SectorSide pre.length (a, b, c) s'.last x) := by
  refine ⟨_, plane_moved ht h hs h0 hp hc hd htr hw hal hother htol hang, rfl, ?_⟩
  rw [hd]
  exact side_grows hr (a, b, c) pre.length hk

/-- **Planes along the opposite of a boundary angle move inwards**: the side on which the sector lies
shrinks, and the old plane is no longer on it. -/
theorem moved_inwards {e : Env K} (ht : Trig e) {tol : K} (hr : ∀ x, |e.rnd x - x| < 2 * tol)
    {l0 : ℤ → Bool} {lo hi : ℤ}
    {ss ss' : List (Surf K)} (h : setBoundaries e [lo, hi] tol l0 ss = .ok ss')
    {s : Surf K} (hs : s ∈ ss) (h0 : l0 s.num = false) (hp : s.stype = .p) {a b c d : K}
    (hc : s.coefs = [a, b, c, d]) (hd : s.last = d) (htr : s.tr = none)
    {pre post : List ℤ} {angle : ℤ} (hw : withReverse [lo, hi] = pre ++ angle :: post)
    (hal : Along e tol s angle) (hother : ∀ x ∈ pre ++ post, ¬ Along e tol s x)
    (htol : tol < |e.cs angle|) (hang : -270 < angle ∧ angle ≤ 450)
    (hk : pre.length = 1 ∨ pre.length = 3) :
    ∃ s' ∈ ss', s'.num = s.num ∧
      (∀ x, SectorSide pre.length (a, b, c) s'.last x → SectorSide pre.length (a, b, c) s.last x) ∧
      (∀ x, dot (a, b, c) x = s.last → ¬ SectorSide pre.length (a, b, c) s'.last x) := by
  refine ⟨_, plane_moved ht h hs h0 hp hc hd htr hw hal hother htol hang, rfl, ?_⟩
  rw [hd]
  exact side_shrinks hr (a, b, c) pre.length hk

end moved

/-! ## Real trigonometry -/

/-- degrees to radians (specification) -/
noncomputable def rad (a : ℝ) : ℝ := a * (Real.pi / 180)

/-- The environment of the code: real sine, cosine and Euclidean norm. (specification) -/
noncomputable def realEnv (trans : Nat → Option (Option (ℝ × ℝ × ℝ → ℝ × ℝ × ℝ))) (rnd : ℝ → ℝ) : Env ℝ :=
  ⟨fun a => Real.sin (rad a), fun a => Real.cos (rad a),
   fun n => Real.sqrt (n.1 ^ 2 + n.2.1 ^ 2 + n.2.2 ^ 2), trans, rnd⟩

theorem rad_lt {a b : ℝ} (h : a < b) : rad a < rad b := by
  unfold rad
  exact mul_lt_mul_of_pos_right h (by positivity)

/-- the hypotheses on trigonometry hold for the real functions -/
theorem realTrig (trans : Nat → Option (Option (ℝ × ℝ × ℝ → ℝ × ℝ × ℝ))) (rnd : ℝ → ℝ) :
    Trig (realEnv trans rnd) := by
  have hpi := Real.pi_pos
  refine ⟨fun n => Real.sqrt_nonneg _, ?_, ?_⟩
  · rintro a (⟨h1, h2⟩ | ⟨h1, h2⟩)
    · have h1' : (90 : ℝ) < a := by exact_mod_cast h1
      have h2' : (a : ℝ) < 270 := by exact_mod_cast h2
      refine Real.cos_neg_of_pi_div_two_lt_of_lt ?_ ?_ <;> unfold rad <;> nlinarith
    · have h1' : (-270 : ℝ) < a := by exact_mod_cast h1
      have h2' : (a : ℝ) < -90 := by exact_mod_cast h2
      show Real.cos (rad a) < 0
      rw [← Real.cos_neg]
      refine Real.cos_neg_of_pi_div_two_lt_of_lt ?_ ?_ <;> unfold rad <;> nlinarith
  · rintro a (⟨h1, h2⟩ | ⟨h1, h2⟩)
    · have h1' : (-90 : ℝ) ≤ a := by exact_mod_cast h1
      have h2' : (a : ℝ) ≤ 90 := by exact_mod_cast h2
      refine Real.cos_nonneg_of_neg_pi_div_two_le_of_le ?_ ?_ <;> unfold rad <;> nlinarith
    · have h1' : (270 : ℝ) ≤ a := by exact_mod_cast h1
      have h2' : (a : ℝ) ≤ 450 := by exact_mod_cast h2
      show 0 ≤ Real.cos (rad a)
      rw [← Real.cos_sub_two_pi]
      refine Real.cos_nonneg_of_neg_pi_div_two_le_of_le ?_ ?_ <;> unfold rad <;> nlinarith

/-- **Why `SectorSide` is the side of the sector**: a point at distance `r > 0` in the direction `φ`
is on the upper side of the plane along the angle `θ` exactly when `φ` lies within the half turn
counterclockwise of `θ`. -/
theorem sector_side (trans : Nat → Option (Option (ℝ × ℝ × ℝ → ℝ × ℝ × ℝ))) (rnd : ℝ → ℝ)
    (θ : ℤ) (φ r z : ℝ) (hr : 0 < r) (h : (θ : ℝ) < φ ∧ φ < θ + 180) :
    0 < dot (boundaryNormal (realEnv trans rnd) θ) (r * Real.cos (rad φ), r * Real.sin (rad φ), z) := by
  have hpi := Real.pi_pos
  have e1 : dot (boundaryNormal (realEnv trans rnd) θ) (r * Real.cos (rad φ), r * Real.sin (rad φ), z) =
      r * Real.sin (rad (φ - θ)) := by
    have : rad (φ - θ) = rad φ - rad θ := by unfold rad; ring
    rw [this, Real.sin_sub]
    simp only [dot, boundaryNormal, realEnv]
    ring
  rw [e1]
  refine mul_pos hr (Real.sin_pos_of_pos_of_lt_pi ?_ ?_) <;> unfold rad <;> nlinarith [h.1, h.2]

/-- The normal along the opposite angle is the opposite normal. -/
theorem opposite_normal (trans : Nat → Option (Option (ℝ × ℝ × ℝ → ℝ × ℝ × ℝ))) (rnd : ℝ → ℝ) (a b : ℤ)
    (h : withReverse [a] = [a, b]) :
    boundaryNormal (realEnv trans rnd) b =
      (-(boundaryNormal (realEnv trans rnd) a).1, -(boundaryNormal (realEnv trans rnd) a).2.1, 0) := by
  simp only [withReverse, List.flatMap_cons, List.flatMap_nil, List.append_nil, List.cons.injEq,
    true_and, and_true] at h
  simp only [boundaryNormal, realEnv]
  split at h <;> subst h
  · have : rad ((a - 180 : ℤ) : ℝ) = rad a - Real.pi := by unfold rad; push_cast; ring
    rw [this, Real.sin_sub_pi, Real.cos_sub_pi]
  · have : rad ((a + 180 : ℤ) : ℝ) = rad a + Real.pi := by unfold rad; push_cast; ring
    rw [this, Real.sin_add_pi, Real.cos_add_pi]

/-! ## Concrete cases -/

/-- sines and cosines that can be computed with: 3-4-5 triangles at the angles 10, 50 and their
opposites -/
def toyEnv : Env ℚ where
  sn a := if a = 10 then 3/5 else if a = 190 then -3/5 else if a = 50 then 4/5 else if a = 230 then -4/5 else 0
  cs a := if a = 10 then 4/5 else if a = 190 then -4/5 else if a = 50 then 3/5 else if a = 230 then -3/5
    else if (90 < a ∧ a < 270) ∨ (-270 < a ∧ a < -90) then -1 else 1
  nrm n := max (max |n.1| |n.2.1|) |n.2.2| * 5 / 4
  trans _ := none
  rnd x := x

theorem toyTrig : Trig toyEnv := by
  refine ⟨fun n => ?_, fun a ha => ?_, fun a ha => ?_⟩
  · simp only [toyEnv]; positivity
  · have h10 : a ≠ 10 := by omega
    have h50 : a ≠ 50 := by omega
    simp only [toyEnv, h10, h50, ha, if_true, if_false]
    split_ifs <;> norm_num
  · have h10 : a ≠ 190 := by omega
    have h50 : a ≠ 230 := by omega
    have h : ¬ ((90 < a ∧ a < 270) ∨ (-270 < a ∧ a < -90)) := by omega
    simp only [toyEnv, h10, h50, h, if_false]
    split_ifs <;> norm_num

/-- an envelope plane, a plane along 10 degrees, one with the opposite normal, one along 50 degrees,
a plane elsewhere, and a sphere (example) -/
def toySurfs : List (Surf ℚ) :=
  [⟨1, .p, [-3/5, 4/5, 0, 0], none, 0, 0⟩, ⟨2, .p, [-6/5, 8/5, 0, 0], none, 0, 0⟩,
   ⟨3, .p, [3/5, -4/5, 0, 0], none, 0, 0⟩, ⟨4, .p, [-4/5, 3/5, 0, 0], none, 0, 0⟩,
   ⟨5, .p, [-3/5, 4/5, 0, 20], none, 0, 20⟩, ⟨6, .other, [8], none, 0, 8⟩]

/-- Surface 1 gets its star, 2 and 4 move outwards, 3 — the same plane as 2, written the other way
round — moves inwards, 5 and 6 stay. -/
theorem toy_result : setBoundaries toyEnv (boundaryAngles [.s1]) (1/100) (fun n => n == 1) toySurfs = .ok
    [⟨1, .p, [-3/5, 4/5, 0, 0], none, 1, 0⟩, ⟨2, .p, [-6/5, 8/5, 0, 0], none, 0, -1/50⟩,
     ⟨3, .p, [3/5, -4/5, 0, 0], none, 0, -1/50⟩, ⟨4, .p, [-4/5, 3/5, 0, 0], none, 0, 1/50⟩,
     ⟨5, .p, [-3/5, 4/5, 0, 20], none, 0, 20⟩, ⟨6, .other, [8], none, 0, 8⟩] := by decide +kernel

/-- the hypotheses of `moved_inwards` hold for surface 3 -/
example : withReverse [10, 50] = [10] ++ 190 :: [50, 230] ∧
    Along toyEnv (1/100) (⟨3, .p, [3/5, -4/5, 0, 0], none, 0, 0⟩ : Surf ℚ) 190 ∧
    (∀ x ∈ [10] ++ [50, 230], ¬ Along toyEnv (1/100) (⟨3, .p, [3/5, -4/5, 0, 0], none, 0, 0⟩ : Surf ℚ) x) ∧
    (1/100 : ℚ) < |toyEnv.cs 190| := by
  refine ⟨by decide, by decide +kernel, by decide +kernel, by decide +kernel⟩

example : boundaryAngles [.s9, .s1, .s23] = [-30, 130] := by decide
example : setSdef [.s1, .s23] = ("SI70 L 427001 435001 ".toList, "SP70 1 2 ".toList) := by decide +kernel

/-- **All nine sectors in one call: two stars.** -/
theorem toy_full_circle :
    boundaryAngles [.s1, .s23, .s4, .s5, .s6, .s7, .s8, .s9] = [10, 10] ∧
    setBoundaries toyEnv (boundaryAngles [.s1, .s23, .s4, .s5, .s6, .s7, .s8, .s9]) (1/100) (fun n => n == 1)
      [⟨1, .p, [-3/5, 4/5, 0, 0], none, 0, 0⟩] = .ok [⟨1, .p, [-3/5, 4/5, 0, 0], none, 2, 0⟩] := by
  refine ⟨by decide, by decide +kernel⟩

end F4Enix.Elite
