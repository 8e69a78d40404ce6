import Verif.Out.EeoutFile
import Verif.Out.MeshFileRefused
import Verif.D1S.Tight

/-! What happens when a word, a mark or a column is missing in the files read: the number of cells of a cuv voxel is cut towards zero, texts that
lack a mark are refused, fields without values stop the grid of an eeout file, short rows of an irradiation file are refused. -/

namespace F4Enix.Mesh
open F4Enix

/-- **C73** (`int` of a number). Counts and cell numbers are cut towards zero. -/
theorem trunc_spec (q : ℚ) : (0 ≤ q → (trunc q : ℚ) ≤ q ∧ q < trunc q + 1) ∧ (q ≤ 0 → q ≤ trunc q ∧ (trunc q : ℚ) - 1 < q) ∧
    ∀ n : ℤ, trunc n = n := by
  unfold trunc
  refine ⟨fun h => ?_, fun h => ?_, fun n => ?_⟩
  · rw [if_neg (not_lt.mpr h)]
    exact ⟨Int.floor_le q, Int.lt_floor_add_one q⟩
  · by_cases h0 : q < 0
    · rw [if_pos h0]
      exact ⟨Int.le_ceil q, by have := Int.ceil_lt_add_one q; linarith⟩
    · have : q = 0 := le_antisymm h (not_lt.mp h0)
      subst this
      simp
  · split <;> simp

/-- **C73** (lines too short). A word that is not on its line raises `IndexError`. -/
theorem wordNum_short (num : ParseNum) (l : Str) (i : Nat) (h : (tokens l).length ≤ i) : wordNum num l i = .error .indexError := by
  unfold wordNum
  rw [List.getElem?_eq_none h]

end F4Enix.Mesh

namespace F4Enix.MeshFile
open F4Enix F4Enix.Mesh

/-- **C164** (marks). `index` gives the first place of a text, and refuses a text that is not there. -/
theorem strIndex_spec (sub l : Str) :
    (¬ sub <:+: l → strIndex sub l = .error .valueError) ∧
    (sub <:+: l → ∃ n a b, strIndex sub l = .ok n ∧ l = a ++ (sub ++ b) ∧ a.length = n ∧
      ∀ a' b', l = a' ++ (sub ++ b') → n ≤ a'.length) := by
  induction l with
  | nil =>
    constructor
    · intro h
      have : sub ≠ [] := by rintro rfl; exact h (List.nil_infix)
      rw [strIndex, if_neg this]
    · intro h
      have : sub = [] := List.eq_nil_of_infix_nil h
      subst this
      exact ⟨0, [], [], rfl, rfl, rfl, fun _ _ _ => Nat.zero_le _⟩
  | cons c l ih =>
    obtain ⟨i1, i2⟩ := ih
    by_cases hp : sub.isPrefixOf (c :: l) = true
    · constructor
      · intro h
        exact absurd ((List.isPrefixOf_iff_prefix.mp hp).isInfix) h
      · intro _
        obtain ⟨b, hb⟩ := List.isPrefixOf_iff_prefix.mp hp
        exact ⟨0, [], b, by rw [strIndex, if_pos hp], by simpa using hb.symm, rfl, fun _ _ _ => Nat.zero_le _⟩
    · have hnp : ¬ sub <+: c :: l := fun h => hp (List.isPrefixOf_iff_prefix.mpr h)
      constructor
      · intro h
        have h2 : ¬ sub <:+: l := fun h3 => h (List.infix_cons_iff.mpr (Or.inr h3))
        rw [strIndex, if_neg hp, i1 h2]
      · intro h
        rcases List.infix_cons_iff.mp h with h | h
        · exact absurd h hnp
        · obtain ⟨n, a, b, e1, e2, e3, e4⟩ := i2 h
          refine ⟨n + 1, c :: a, b, by rw [strIndex, if_neg hp, e1], by rw [e2]; rfl, by simp [e3], ?_⟩
          intro a' b' hab
          cases a' with
          | nil => exact absurd ⟨b', by simpa using hab.symm⟩ hnp
          | cons x a' =>
            simp only [List.cons_append, List.cons.injEq] at hab
            have := e4 a' b' hab.2
            simpa using this

example : strIndex "axis".toList "at 0 0 0, axis in".toList = .ok 10 ∧ strIndex "axis".toList "at 0 0 0".toList = .error .valueError := by
  decide +kernel

end F4Enix.MeshFile

namespace F4Enix.Eeout
open F4Enix
variable {K : Type}

/-- **C125** (refused). A field that has no values stops the building of the grid with `KeyError`, whatever comes behind it. -/
theorem field_without_values (np nc : ℕ) (d : Dict Str (List K × Loc)) (n : Str) (f : Field K) (fs : Dict Str (Field K))
    (h : f.values = none) : putFields np nc d ((n, f) :: fs) = .error .keyError := by
  rw [putFields, h]

end F4Enix.Eeout

namespace F4Enix.D1S
open F4Enix

/-- **C23** (refused). A row with fewer words than nuclide, constant and the times announced is refused with `IndexError`. -/
theorem short_row_refused (text : Str) (nsc : Int)
    (h : (splitWs text).length < nsc.toNat + 2 ∨ (splitWs text).head? = some [] ∧ (splitWs text).length < nsc.toNat + 3) :
    Irradiation.fromText text nsc = .error .indexError := by
  have ht : ∀ n (ps : List Str), ps.length < n → takeTimes n ps = .error .indexError := by
    intro n
    induction n with
    | zero => intro ps h; exact absurd h (Nat.not_lt_zero _)
    | succ n ih =>
      intro ps h
      cases ps with
      | nil => rfl
      | cons p ps => rw [takeTimes, ih ps (by simpa using h)]
  have key : ∀ ps : List Str, ps.length < nsc.toNat + 2 →
      (match ps with
        | daughter :: lambd :: rest =>
          (match takeTimes nsc.toNat rest with
          | .error e => .error e
          | .ok (times, rest) => .ok ⟨daughter, lambd, times, joinComment rest⟩ : Except PyErr Irradiation)
        | _ => (.error .indexError : Except PyErr Irradiation)) = .error .indexError := by
    intro ps hps
    match ps, hps with
    | [], _ => rfl
    | [_], _ => rfl
    | _ :: _ :: rest, hps =>
      have : rest.length < nsc.toNat := by simp only [List.length_cons] at hps; omega
      simp only [ht _ rest this]
  unfold Irradiation.fromText
  apply key
  split
  · rcases h with h | ⟨_, h⟩ <;> (rw [List.length_tail]; omega)
  · rename_i h0
    rcases h with h | ⟨h1, _⟩
    · exact h
    · exact absurd h1 h0

example : Irradiation.fromText "24051 2.9e-7".toList 1 = .error .indexError := short_row_refused _ _ (by decide +kernel)

end F4Enix.D1S
