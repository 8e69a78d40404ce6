import Verif.WW.CliExact
import Verif.WW.GvrProps
import Mathlib.Tactic.LinearCombination
import Mathlib.Tactic.Linarith
/-!
# Windows from MCNP5 mesh tallies, commands in capitals, file names (C131, C135, C137)
-/
namespace F4Enix.WW
open F4Enix F4Enix.Mesh

/-- The two directions lie on one line: all the components of their cross product vanish. (specification) -/
def Parallel (a b : List ℚ) : Prop :=
  ∃ a1 a2 a3 b1 b2 b3, a = [a1, a2, a3] ∧ b = [b1, b2, b3] ∧ a2 * b3 = a3 * b2 ∧ a3 * b1 = a1 * b3 ∧ a1 * b2 = a2 * b1

/-- **C137 (tallies without a direction, as MCNP5 writes them).** The direction chosen is across the axis unless the axis lies along `x` and its first
component is not one. -/
theorem default_direction {t : GTally} {h : Header} {o a : Vec} (ht : t.trsf = some (o, a, none)) (hc : t.mesh.cyl = true) (hh : gvrHeader t = .ok h) :
    ∃ d, h.directors = some ([a.x, a.y, a.z], d) ∧ (d = [1, 0, 0] ∨ d = [0, 1, 0]) ∧
      (Parallel [a.x, a.y, a.z] d ↔ a.y = 0 ∧ a.z = 0 ∧ a.x ≠ 1) := by
  unfold gvrHeader at hh
  simp only [ht, hc] at hh
  split at hh
  · exact absurd hh (by simp)
  · rw [if_neg (by simp)] at hh
    simp only [Except.ok.injEq] at hh
    subst hh
    refine ⟨_, rfl, ?_, ?_⟩
    · by_cases hx : a.x ≠ 1
      · rw [if_pos hx]; exact Or.inl rfl
      · rw [if_neg hx]; exact Or.inr rfl
    · by_cases hx : a.x ≠ 1
      · rw [if_pos hx]
        constructor
        · rintro ⟨a1, a2, a3, b1, b2, b3, ea, eb, h1, h2, h3⟩
          simp only [List.cons.injEq, and_true] at ea eb
          obtain ⟨rfl, rfl, rfl⟩ := ea
          obtain ⟨rfl, rfl, rfl⟩ := eb
          refine ⟨?_, ?_, hx⟩ <;> linarith
        · rintro ⟨h1, h2, -⟩
          exact ⟨_, _, _, _, _, _, rfl, rfl, by rw [h1, h2], by rw [h2]; ring, by rw [h1]; ring⟩
      · rw [if_neg hx]
        constructor
        · rintro ⟨a1, a2, a3, b1, b2, b3, ea, eb, h1, h2, h3⟩
          simp only [List.cons.injEq, and_true] at ea eb
          obtain ⟨rfl, rfl, rfl⟩ := ea
          obtain ⟨rfl, rfl, rfl⟩ := eb
          exfalso
          have : a.x = 1 := not_not.1 hx
          rw [this] at h3
          linarith
        · rintro ⟨-, -, h⟩
          exact absurd h hx

/-- **C137 is false of the code for an axis along `-x`**: the direction lies on the axis. -/
theorem backward_axis {t : GTally} {h : Header} {o a : Vec} (ht : t.trsf = some (o, a, none)) (hc : t.mesh.cyl = true) (hh : gvrHeader t = .ok h)
    (ha : a.x = -1 ∧ a.y = 0 ∧ a.z = 0) : ∃ d, h.directors = some ([a.x, a.y, a.z], d) ∧ Parallel [a.x, a.y, a.z] d := by
  obtain ⟨d, h1, -, h2⟩ := default_direction ht hc hh
  exact ⟨d, h1, h2.2 ⟨ha.2.1, ha.2.2, by rw [ha.1]; norm_num⟩⟩

example : ∃ t : GTally, t.trsf = some (⟨0, 0, 0⟩, ⟨-1, 0, 0⟩, none) ∧ t.mesh.cyl = true ∧ ∃ h, gvrHeader t = .ok h :=
  ⟨⟨{ demoMesh with cyl := true }, some (⟨0, 0, 0⟩, ⟨-1, 0, 0⟩, none)⟩, rfl, rfl, _, rfl⟩

end F4Enix.WW

namespace F4Enix.Cli
open F4Enix

/-- **C131 (capitals).** Every letter of a command may be a capital: it is read as the small one, and every other character as it is. -/
theorem lower_letters (s : Str) : lower s = s.map Char.toLower := by
  unfold lower
  refine List.map_congr_left ?_
  intro c _
  have hn : c.toNat = c.val.toNat := rfl
  unfold Char.toLower
  split
  · rename_i h
    rw [dif_pos (by
      simp only [UInt32.le_iff_toNat_le]
      exact h)]
    apply Char.ext
    apply UInt32.toNat_inj.1
    have e : (Char.ofNat (c.toNat + 32)).toNat = c.toNat + 32 := by
      have hv : (c.toNat + 32).isValidChar := by unfold Nat.isValidChar; omega
      unfold Char.ofNat
      rw [dif_pos hv]
      rfl
    change (Char.ofNat (c.toNat + 32)).toNat = (c.val + ('a'.val - 'A'.val)).toNat
    rw [e, UInt32.toNat_add, show ('a'.val - 'A'.val).toNat = 32 by decide, ← hn]
    omega
  · rename_i h
    rw [dif_neg (by
      simp only [UInt32.le_iff_toNat_le]
      exact h)]

/-- **C135 (names that end or begin with a dot).** Nothing is cut off such a name. -/
theorem vtk_edge_dot (n a b : Str) (hn : stemOf n = a ++ '.' :: b) (hb : '.' ∉ b) (h : a = [] ∨ b = []) :
    vtkName n = stemOf n ++ ".vts".toList := by
  have hs : suffixOf (stemOf n) = [] := by
    unfold suffixOf
    rw [hn, cutDot_dot a b hb]
    simp only
    rw [if_neg]
    rintro ⟨h1, h2⟩
    rcases h with h | h
    · exact h1 h
    · rw [h] at h2; simp at h2
  unfold vtkName
  rw [if_pos (by rw [hs]; decide)]
  unfold withSuffix
  rw [if_pos hs]

example : stemOf "a..txt".toList = "a.".toList ∧ vtkName "a..txt".toList = "a..vts".toList := by decide

end F4Enix.Cli
