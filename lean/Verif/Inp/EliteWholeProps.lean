import Verif.Inp.EliteWhole
import Verif.Inp.EliteTight
import Verif.Inp.CellTight
import Verif.Inp.SelfContained
/-!
# Extraction of sectors as a whole (C160, C161)
-/
namespace F4Enix.EliteX
open F4Enix F4Enix.Inp F4Enix.Elite

/-! ### The specification -/

/-- the cells asked for: those the table gives to one of the sectors, the outer cell and the graveyard (specification) -/
def Wanted (x : Excel) (sectors : List Sector) (n : ℤ) : Prop := n = 800 ∨ n = 801 ∨ ∃ s ∈ sectors, (n, some s) ∈ x

/-- the cells needed: those asked for and what they need, directly or not (specification) -/
def NeededCell (m : Deck) (x : Excel) (sectors : List Sector) (n : ℤ) : Prop :=
  ∃ a, Wanted x sectors a ∧ Relation.ReflTransGen (Needs m.cells true) a n

/-- the card has this surface (specification) -/
def HasSurf (c : Card) (v : ℤ) : Prop := (v, Kind.sur) ∈ c.values

/-- a surface of a needed cell of the original model (specification) -/
def NeededSurf (m : Deck) (x : Excel) (sectors : List Sector) (v : ℤ) : Prop :=
  ∃ n c, NeededCell m x sectors n ∧ m.cells.get? (intStr n) = some c ∧ HasSurf c v

/-- the two planes that cut the outer cell: the first plane of the first sector and the second plane of the last one (specification) -/
def CutPlane (sectors : List Sector) (v : ℤ) : Prop :=
  ∃ a b, IsFirst a sectors ∧ IsLast b sectors ∧ (v = |a.bounds.1| ∨ v = |b.bounds.2|)

/-! ### The steps -/

theorem collectCells_ok {tab : Sector → List ℤ} : ∀ {names : List (Option Sector)} {ss : List Sector} {l0 : List ℤ},
    collectCells tab names = .ok (ss, l0) → names = ss.map some ∧ l0 = ss.flatMap tab := by
  intro names
  induction names with
  | nil =>
    intro ss l0 h
    simp only [collectCells, Except.ok.injEq, Prod.mk.injEq] at h
    obtain ⟨rfl, rfl⟩ := h
    exact ⟨rfl, rfl⟩
  | cons o r ih =>
    intro ss l0 h
    cases o with
    | none => simp [collectCells] at h
    | some s =>
      rw [collectCells.eq_def] at h
      simp only at h
      cases hr : collectCells tab r with
      | error e => rw [hr] at h; simp at h
      | ok p =>
        obtain ⟨ss', l'⟩ := p
        rw [hr] at h
        simp only [Except.ok.injEq, Prod.mk.injEq] at h
        obtain ⟨rfl, rfl⟩ := h
        obtain ⟨h1, h2⟩ := ih hr
        exact ⟨by rw [h1]; rfl, by rw [h2]; rfl⟩

theorem collectCells_unknown {tab : Sector → List ℤ} : ∀ {names : List (Option Sector)}, none ∈ names → collectCells tab names = .error .keyError := by
  intro names
  induction names with
  | nil => intro h; simp at h
  | cons o r ih =>
    intro h
    cases o with
    | none => rfl
    | some s =>
      rw [collectCells.eq_def]
      simp only
      rw [ih (by simpa using h)]

theorem mem_sectorCells (x : Excel) (ss : List Sector) (n : ℤ) : n ∈ ss.flatMap (sectorCells x) ↔ ∃ s ∈ ss, (n, some s) ∈ x := by
  simp only [List.mem_flatMap, sectorCells, List.mem_map, List.mem_filter, decide_eq_true_eq, Prod.exists]
  constructor
  · rintro ⟨s, hs, a, o, ⟨h1, rfl⟩, rfl⟩
    exact ⟨s, hs, h1⟩
  · rintro ⟨s, hs, h⟩
    exact ⟨s, hs, n, some s, ⟨h, rfl⟩, rfl⟩

theorem closure_iff (m : Deck) (x : Excel) (ss : List Sector) (n : ℤ) :
    Closure m.cells true (ss.flatMap (sectorCells x) ++ [800, 801]) n ↔ NeededCell m x ss n := by
  unfold Closure NeededCell Wanted
  constructor
  · rintro ⟨a, ha, h⟩
    simp only [List.mem_append, List.mem_cons, List.not_mem_nil, or_false, mem_sectorCells] at ha
    exact ⟨a, by tauto, h⟩
  · rintro ⟨a, ha, h⟩
    refine ⟨a, ?_, h⟩
    simp only [List.mem_append, List.mem_cons, List.not_mem_nil, or_false, mem_sectorCells]
    rcases ha with ha | ha | ha
    · exact Or.inr (Or.inl ha)
    · exact Or.inr (Or.inr ha)
    · exact Or.inl ha

theorem addSurface_vals {c c' : CellText.Card} {s : ℤ} {mode : CellText.Mode} (h : CellText.addSurface c s none mode = .ok c') :
    ∀ y, y ∈ c'.vals ↔ y ∈ c.vals ∨ y = (|s|, Kind.sur) := by
  unfold CellText.addSurface at h
  cases ha : CellText.addSymbol [CellText.surfaceWord mode s] true none c with
  | error e => rw [ha] at h; simp at h
  | ok c1 =>
    rw [ha] at h
    simp only at h
    have hv : c1.vals = c.vals := by
      unfold CellText.addSymbol at ha
      split at ha
      · simp at ha
      · split at ha
        · simp at ha
        · simp only [Except.ok.injEq] at ha
          rw [← ha]; rfl
    unfold CellText.withVal at h
    have hp := CellText.insertVal_place (|s|, Kind.sur) c1.vals
    cases hn : c1.vals with
    | nil =>
      rw [hp.1 hn] at h
      simp at h
    | cons z zs =>
      obtain ⟨a, b, e, hi, -⟩ := hp.2 (by rw [hn]; simp)
      rw [hi] at h
      simp only [Except.ok.injEq] at h
      intro y
      rw [← h, ← hv, e]
      simp only [List.mem_append, List.mem_cons]
      tauto

theorem graveyard_vals {sectors : List Sector} {gy outer gy' outer' : CellText.Card} (h : modifyGraveyard sectors gy outer = .ok (outer', gy')) :
    ∃ a b, IsFirst a sectors ∧ IsLast b sectors ∧
      (∀ y, y ∈ outer'.vals ↔ y ∈ outer.vals ∨ y = (|a.bounds.1|, Kind.sur) ∨ y = (|b.bounds.2|, Kind.sur)) ∧
      (∀ y, y ∈ gy'.vals ↔ y ∈ gy.vals ∨ y = (|a.bounds.1|, Kind.sur) ∨ y = (|b.bounds.2|, Kind.sur)) := by
  have key : ∃ a b, IsFirst a sectors ∧ IsLast b sectors ∧ ∃ g1 o1, CellText.addSurface gy (-a.bounds.1) none .union = .ok g1 ∧
      CellText.addSurface outer a.bounds.1 none .intersect = .ok o1 ∧ CellText.addSurface g1 (-b.bounds.2) none .union = .ok gy' ∧
      CellText.addSurface o1 b.bounds.2 none .intersect = .ok outer' := by
    cases sectors with
    | nil => simp [modifyGraveyard, graveyardLoop] at h
    | cons s ss =>
      unfold modifyGraveyard at h
      cases hg1 : CellText.addSurface gy (-s.bounds.1) none .union with
      | error e => simp [graveyardLoop, hg1] at h
      | ok g1 =>
        cases ho1 : CellText.addSurface outer s.bounds.1 none .intersect with
        | error e => simp [graveyardLoop, hg1, ho1] at h
        | ok o1 =>
          have step : ∀ (b : Sector) (q : Except PyErr (Option (CellText.Card × CellText.Card))),
              q = (match CellText.addSurface g1 (-b.bounds.2) none .union with
                | .error e => Except.error e
                | .ok g' => match CellText.addSurface o1 b.bounds.2 none .intersect with
                  | .error e => .error e
                  | .ok o' => .ok (some (g', o'))) →
              (match q with
                | .error e => Except.error e
                | .ok none => .error PyErr.unboundLocal
                | .ok (some (g, o)) => .ok (o, g)) = Except.ok (outer', gy') →
              CellText.addSurface g1 (-b.bounds.2) none .union = .ok gy' ∧ CellText.addSurface o1 b.bounds.2 none .intersect = .ok outer' := by
            intro b q hq hh
            cases hg2 : CellText.addSurface g1 (-b.bounds.2) none .union with
            | error e => rw [hg2] at hq; simp only at hq; rw [hq] at hh; simp at hh
            | ok g2 =>
              cases ho2 : CellText.addSurface o1 b.bounds.2 none .intersect with
              | error e => rw [hg2, ho2] at hq; simp only at hq; rw [hq] at hh; simp at hh
              | ok o2 =>
                rw [hg2, ho2] at hq
                simp only at hq
                rw [hq] at hh
                simp only [Except.ok.injEq, Prod.mk.injEq] at hh
                exact ⟨by rw [hh.2], by rw [hh.1]⟩
          rcases List.eq_nil_or_concat ss with rfl | ⟨ss', l, rfl⟩
          · refine ⟨s, s, rfl, rfl, g1, o1, hg1, ho1, ?_⟩
            refine step s (graveyardLoop gy outer [s].length 0 [s] none) ?_ ?_
            · simp only [graveyardLoop, List.length_singleton, Nat.sub_self, if_true, hg1, ho1]
              cases CellText.addSurface g1 (-s.bounds.2) none .union with
              | error e => rfl
              | ok g2 =>
                simp only
                cases CellText.addSurface o1 s.bounds.2 none .intersect <;> rfl
            · rw [← h]
              split <;> simp_all
          · simp only [List.concat_eq_append] at h ⊢
            refine ⟨s, l, rfl, by simp [IsLast, List.getLast?_cons, List.getLast?_append], g1, o1, hg1, ho1, ?_⟩
            have hlen : ((s :: (ss' ++ [l])).length) = ss'.length + 2 := by simp
            rw [hlen] at h
            have hstep : graveyardLoop gy outer (ss'.length + 2) 0 (s :: (ss' ++ [l])) none =
                graveyardLoop gy outer (ss'.length + 2) 1 (ss' ++ [l]) (some (g1, o1)) := by
              simp [graveyardLoop, hg1, ho1]
            rw [hstep, graveyardLoop_tail gy outer (ss'.length + 2) ss' l 1 (by omega) (by omega)] at h
            clear step
            cases hg2 : CellText.addSurface g1 (-l.bounds.2) none .union with
            | error e => rw [hg2] at h; simp at h
            | ok g2 =>
              cases ho2 : CellText.addSurface o1 l.bounds.2 none .intersect with
              | error e => rw [hg2, ho2] at h; simp at h
              | ok o2 =>
                rw [hg2, ho2] at h
                simp only [Except.ok.injEq, Prod.mk.injEq] at h
                exact ⟨by rw [h.2], by rw [h.1]⟩
  obtain ⟨a, b, ha, hb, g1, o1, e1, e2, e3, e4⟩ := key
  refine ⟨a, b, ha, hb, ?_, ?_⟩
  · intro y
    rw [addSurface_vals e4, addSurface_vals e2, or_assoc]
  · intro y
    rw [addSurface_vals e3, addSurface_vals e1, abs_neg, abs_neg, or_assoc]

end F4Enix.EliteX
