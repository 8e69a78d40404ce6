import Verif.Mat.Library
import Mathlib.Tactic.Ring
import Mathlib.Algebra.Order.Field.Rat
/-!
# Theorems about compositions (C150, C151)
-/
namespace F4Enix.Mat
open F4Enix

/-- **C150.** A composition has the elements given, in order, with their percentages; fractions are turned into percentages. -/
theorem composition_entries (name : Str) (comp : List (Str × ℚ)) (fr : Bool) :
    (mkComposition name comp fr).name = name ∧ (mkComposition name comp fr).elem.length = comp.length ∧
    (mkComposition name comp fr).perc.length = comp.length ∧
    ∀ (i : ℕ) e p, comp[i]? = some (e, p) → (mkComposition name comp fr).elem[i]? = some e ∧
      (mkComposition name comp fr).perc[i]? = some (if fr then 100 * p else p) := by
  unfold mkComposition
  refine ⟨rfl, by simp, by simp, ?_⟩
  intro i e p h
  rw [List.getElem?_map, List.getElem?_map, h]
  refine ⟨rfl, ?_⟩
  simp only [Option.map_some]
  cases fr <;> simp [mul_comm]

/-- **C150.** The percentages of a composition given by fractions add up to a hundred times their sum. -/
theorem composition_sum (name : Str) (comp : List (Str × ℚ)) (fr : Bool) :
    (mkComposition name comp fr).perc.sum = (if fr then 100 else 1) * (comp.map Prod.snd).sum := by
  unfold mkComposition
  simp only
  induction comp with
  | nil => simp
  | cons p l ih =>
    rw [List.map_cons, List.sum_cons, ih, List.map_cons, List.sum_cons]
    cases fr
    · simp
    · simp; ring

/-- **C150.** Two compositions are equal exactly when they have the same name, elements and percentages. -/
theorem composition_eq_iff (a b : Composition) : compositionEq a b = true ↔ a = b := by
  unfold compositionEq
  simp only [Bool.and_eq_true, decide_eq_true_eq]
  constructor
  · rintro ⟨⟨h1, h2⟩, h3⟩
    cases a; cases b; simp_all
  · rintro rfl; exact ⟨⟨rfl, rfl⟩, rfl⟩

/-- a material given in fractions equals the one given in percentages -/
theorem fraction_same (name : Str) (comp : List (Str × ℚ)) :
    compositionEq (mkComposition name comp true) (mkComposition name (comp.map (fun p => (p.1, p.2 * 100))) false) = true := by
  rw [composition_eq_iff]
  unfold mkComposition
  simp only [List.map_map]
  congr 1

/-- **C151 (partial).** No shipped composition names an element twice; the names are different; but for the titanium alloy the percentages add
up to a hundred within 0.52, and for eight of them exactly. -/
theorem shipped_sums_partial :
    (∀ c ∈ availableMaterials, c.elem.Nodup ∧ c.elem.length = c.perc.length ∧ ∀ p ∈ c.perc, 0 < p) ∧
    (availableMaterials.map Composition.name).Nodup ∧
    (∀ c ∈ availableMaterials, c.name ≠ "Titanium Alloy, Grade 5".toList → |c.perc.sum - 100| ≤ 52 / 100) := by
  refine ⟨?_, ?_, ?_⟩ <;> decide +kernel

/-- **C151 is false of the titanium alloy**: its percentages add up to 155 (aluminium has 61.25 instead of 6.125; with that it is 100.001). -/
theorem titanium_sum : titanium5 ∈ availableMaterials ∧ titanium5.perc.sum = 155126 / 1000 ∧
    titanium5.elem[4]? = some "Al".toList ∧ titanium5.perc[4]? = some (6125 / 100) ∧
    155126 / 1000 - 6125 / 100 + 6125 / 1000 = (100001 / 1000 : ℚ) := by
  refine ⟨?_, ?_, ?_, ?_, ?_⟩ <;> decide +kernel

/-- the sums that are a hundred -/
example : (availableMaterials.filter (fun c => decide (c.perc.sum = 100))).map Composition.name =
    ["Pure Silver".toList, "Pure Lead".toList, "Al-Brz".toList, "Eurofer-97".toList, "Inconel-718".toList, "Nb3Sn".toList, "NbTi".toList,
      "SS316L(N)-IG".toList] := by decide +kernel

example : mkComposition "x".toList [("Fe".toList, 1 / 4), ("Cr".toList, 3 / 4)] true = ⟨"x".toList, ["Fe".toList, "Cr".toList], [25, 75]⟩ := by
  decide +kernel

end F4Enix.Mat
