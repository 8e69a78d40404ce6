import Verif.Inp.EliteWholeEx
/-!
# Extraction of sectors: kinds of refusal (C161)
-/
namespace F4Enix.EliteX
open F4Enix F4Enix.Inp F4Enix.Elite

variable {K : Type} [Field K] [LinearOrder K]

/-- **C161 (refused).** With the check, a model without cells is refused with `KeyError`, one with a cell whose name is no number with `ValueError`; no
table is kept. -/
theorem init_refused (m : Deck) (rows : Str → List CellText.Row) (shape : Str → Surf K) (e : Env K) (tol : K) (fuel : ℕ)
    (names : List (Option Sector)) (x : Excel) :
    (m.cells = [] → extractSector m rows shape e tol fuel none names x true = (none, .error .keyError)) ∧
    ((∃ k c, (k, c) ∈ m.cells ∧ parseInt k = none) → extractSector m rows shape e tol fuel none names x true = (none, .error .valueError)) := by
  constructor
  · intro h
    unfold extractSector initElite
    rw [h]
    simp [levelZero]
  · rintro ⟨k, c, hm, hk⟩
    have key : ∀ cells : Dict Str Card, (k, c) ∈ cells → levelZero cells = .error .valueError := by
      intro cells
      induction cells with
      | nil => intro h; simp at h
      | cons p r ih =>
        obtain ⟨k', c'⟩ := p
        intro h
        rw [levelZero.eq_def]
        simp only
        rcases List.mem_cons.1 h with e1 | h
        · simp only [Prod.mk.injEq] at e1
          rw [← e1.1, hk]
        · cases hp : parseInt k' with
          | none => rfl
          | some n => simp only [ih h]
    unfold extractSector initElite
    rw [if_pos rfl, key _ hm]

/-- **C161 (refused).** A model without the cards of the source (SI70, SP70) that the extraction changes is refused with `KeyError`. -/
theorem source_missing {m : Deck} (rows : Str → List CellText.Row) (shape : Str → Surf K) (e : Env K) (tol : K) {fuel : ℕ} {tab : Sector → List ℤ}
    {names : List (Option Sector)} {x : Excel} {check : Bool} {ss : List Sector} {l0 vs : List ℤ} {q : Dict Str Card × Dict Str Card × MatList}
    (h1 : collectCells tab names = .ok (ss, l0)) (h2 : envelopeSurfs l0 m.cells = .ok vs) (h3 : extraction m (l0 ++ [800, 801]) false true fuel = .ok q)
    (h : Dict.get? m.other "SI70".toList = none ∨ Dict.get? m.other "SP70".toList = none) :
    (extractSector m rows shape e tol fuel (some tab) names x check).2 = .error .keyError := by
  have hget : ∀ k, Dict.get? (m.other.map (fun kc => (kc.1, kc.2, (none : Option Str)))) k = (Dict.get? m.other k).map (fun c => (c, none)) := by
    intro k
    generalize m.other = d
    induction d with
    | nil => rfl
    | cons p d ih =>
      obtain ⟨k', v⟩ := p
      simp only [List.map_cons, Dict.get?]
      by_cases hk : k' = k
      · rw [if_pos hk, if_pos hk]; rfl
      · rw [if_neg hk, if_neg hk]; exact ih
  unfold extractSector extractWith
  simp only [h1, h2, h3]
  unfold setText
  rw [hget]
  cases h4 : Dict.get? m.other "SI70".toList with
  | none => rfl
  | some c =>
    have h5 : Dict.get? m.other "SP70".toList = none := by
      rcases h with h | h
      · rw [h4] at h; cases h
      · exact h
    simp only [Option.map_some]
    rw [Dict.get?_set_ne _ _ (by decide), hget, h5]
    rfl

end F4Enix.EliteX
