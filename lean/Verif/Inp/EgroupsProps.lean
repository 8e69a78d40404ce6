import Verif.Inp.Egroups
import Mathlib.Data.Nat.Cast.Order.Ring
import Mathlib.Algebra.Order.Field.Rat
/-!
# Theorems about the shipped group structures (C149)
-/
namespace F4Enix.Ace
open F4Enix

/-- the edges in eV (specification) -/
def Groups.energies (g : Groups) : List ℚ := g.edges.map (fun n : ℕ => (n : ℚ) / 10 ^ g.decimals)

/-- each of the shipped structures has one edge more than the number of groups in its name, and the edges go up -/
theorem shipped_edges : ∀ g ∈ groupStructures, g.edges.length = g.count + 1 ∧ g.edges.IsChain (· < ·) := by decide +kernel

/-- the names are different -/
theorem shipped_names : (groupStructures.map (fun g => (g.family, g.count))).Nodup := by decide +kernel

theorem rising_energies {g : Groups} (hg : g ∈ groupStructures) : g.energies.Pairwise (· < ·) ∧ g.energies.length = g.count + 1 := by
  obtain ⟨h1, h2⟩ := shipped_edges g hg
  unfold Groups.energies
  refine ⟨?_, by rw [List.length_map, h1]⟩
  rw [List.pairwise_map]
  refine (List.isChain_iff_pairwise.1 h2).imp ?_
  intro a b hab
  have : (a : ℚ) < (b : ℚ) := by exact_mod_cast hab
  exact div_lt_div_of_pos_right this (by positivity)

/-- ascending edges divide the energies between the first and the last into groups: each energy is in exactly one -/
theorem one_group {l : List ℚ} (hl : l.Pairwise (· < ·)) {lo hi E : ℚ} (h0 : l.head? = some lo) (h1 : l.getLast? = some hi)
    (hE : lo ≤ E) (hE2 : E < hi) :
    ∃ i a b, l[i]? = some a ∧ l[i + 1]? = some b ∧ a ≤ E ∧ E < b ∧
      ∀ (j : ℕ) a' b', l[j]? = some a' → l[j + 1]? = some b' → a' ≤ E → E < b' → j = i := by
  have hex : ∀ (l : List ℚ) (lo : ℚ), l.head? = some lo → l.getLast? = some hi → lo ≤ E →
      ∃ (i : ℕ) (a b : ℚ), l[i]? = some a ∧ l[i + 1]? = some b ∧ a ≤ E ∧ E < b := by
    intro l
    induction l with
    | nil => intro lo h; simp at h
    | cons x l ih =>
      intro lo h0 h1 hE
      simp only [List.head?_cons, Option.some.injEq] at h0
      subst h0
      cases l with
      | nil =>
        simp only [List.getLast?_singleton, Option.some.injEq] at h1
        linarith
      | cons y l =>
        by_cases hy : E < y
        · exact ⟨0, x, y, rfl, rfl, hE, hy⟩
        · obtain ⟨i, a, b, h2, h3, h4⟩ := ih y rfl (by simpa using h1) (not_lt.1 hy)
          exact ⟨i + 1, a, b, h2, h3, h4⟩
  obtain ⟨i, a, b, h2, h3, h4, h5⟩ := hex l lo h0 h1 hE
  refine ⟨i, a, b, h2, h3, h4, h5, ?_⟩
  intro j a' b' h6 h7 h8 h9
  obtain ⟨hi1, rfl⟩ := List.getElem?_eq_some_iff.1 h2
  obtain ⟨hi2, rfl⟩ := List.getElem?_eq_some_iff.1 h3
  obtain ⟨hj1, rfl⟩ := List.getElem?_eq_some_iff.1 h6
  obtain ⟨hj2, rfl⟩ := List.getElem?_eq_some_iff.1 h7
  have mono := List.pairwise_iff_getElem.1 hl
  rcases Nat.lt_trichotomy i j with h | h | h
  · have : l[i + 1] ≤ l[j] := by
      rcases Nat.eq_or_lt_of_le (show i + 1 ≤ j by omega) with e | e
      · subst e; exact le_refl _
      · exact (mono _ _ _ _ e).le
    linarith
  · exact h.symm
  · have : l[j + 1] ≤ l[i] := by
      rcases Nat.eq_or_lt_of_le (show j + 1 ≤ i by omega) with e | e
      · subst e; exact le_refl _
      · exact (mono _ _ _ _ e).le
    linarith

/-- **C149.** In every shipped structure each energy from the first edge to below the last is in exactly one group, and there are as many
groups as the name has. -/
theorem shipped_partition {g : Groups} (hg : g ∈ groupStructures) {lo hi E : ℚ} (h0 : g.energies.head? = some lo)
    (h1 : g.energies.getLast? = some hi) (hE : lo ≤ E) (hE2 : E < hi) :
    ∃ i, i < g.count ∧ ∃ a b, g.energies[i]? = some a ∧ g.energies[i + 1]? = some b ∧ a ≤ E ∧ E < b ∧
      ∀ (j : ℕ) a' b', g.energies[j]? = some a' → g.energies[j + 1]? = some b' → a' ≤ E → E < b' → j = i := by
  obtain ⟨hr, hlen⟩ := rising_energies hg
  obtain ⟨i, a, b, h2, h3, h4⟩ := one_group hr h0 h1 hE hE2
  refine ⟨i, ?_, a, b, h2, h3, h4⟩
  obtain ⟨h5, -⟩ := List.getElem?_eq_some_iff.1 h3
  omega

/-- **C149 (with the collapse of ACE data, partial: for points that are numbers in every group; those of the code: Inp/EgroupsLog.lean).**
For every shipped structure every group has a value, which lies between the least and the
greatest cross section at its points. -/
theorem shipped_collapse_partial {g : Groups} (hg : g ∈ groupStructures) {points : ℚ → ℚ → List ℚ} {f : ℚ → ℚ} {m M lowest : ℚ}
    (hp : ∀ a b, a < b → Rising a b (points a b)) (hf : ∀ x, m ≤ f x ∧ f x ≤ M) {i : ℕ} (hi : i < g.count) :
    ∃ y, (groupValues points f lowest g.energies)[i + 1]? = some (some y) ∧ m ≤ y ∧ y ≤ M := by
  obtain ⟨hr, hlen⟩ := rising_energies hg
  have ha : g.energies[i]? = some (g.energies[i]'(by omega)) := List.getElem?_eq_getElem _
  have hb : g.energies[i + 1]? = some (g.energies[i + 1]'(by omega)) := List.getElem?_eq_getElem _
  have hlt : g.energies[i]'(by omega) < g.energies[i + 1]'(by omega) := List.pairwise_iff_getElem.1 hr _ _ _ _ (by omega)
  obtain ⟨y, h1, h2⟩ := group_bounds_partial (f := f) (m := m) (M := M) hlt (hp _ _ hlt) (fun x _ => hf x)
  refine ⟨y, ?_, h2⟩
  rw [(group_places points f lowest g.energies).2 (i + 1) _ _ ha hb, h1]

/-- **C149 (limit).** The value at place 0, which belongs to no group, is not a number when the table begins at the first edge, as at
`1e-5 eV` with five of the shipped structures. -/
theorem first_undefined {g : Groups} {points : ℚ → ℚ → List ℚ} {f : ℚ → ℚ} {lo : ℚ} (h0 : g.energies.head? = some lo) :
    (groupValues points f lo g.energies)[0]? = some none := by
  have h1 : g.energies[0]? = some lo := by rw [← h0, List.head?_eq_getElem?]
  rw [(group_places points f lo g.energies).2 0 lo lo rfl h1]
  unfold groupValue
  rw [if_pos (sub_self lo)]

/-- the range of each structure in eV, from its first to its last edge (specification, from the text of egroups.py) -/
def groupRange (family : String) (count : ℕ) : Option (ℚ × ℚ) :=
  if family = "CASMO" ∨ family = "MPACT" ∨ (family = "SCALE" ∧ count = 252) then some (0, 20000000)
  else if family = "SCALE" then some (1 / 100000, 20000000)
  else if family = "VITAMIN-J" ∧ count = 42 then some (1000, 50000000)
  else if family = "VITAMIN-J" ∨ family = "TRIPOLI" then some (1 / 100000, 19640000)
  else if family = "XMAS" then some (100001 / 10000000000, 19640300)
  else if family = "SHEM" then some (0, 19640300)
  else if family = "CCFE" ∨ family = "UKAEA" then some (1 / 100000, 1000000000)
  else if family = "ECCO" then some (100001 / 10000000000, 19640330)
  else none

/-- **C149** (ranges). Every structure begins and ends where its table says. -/
theorem shipped_ranges : ∀ g ∈ groupStructures, ∃ lo hi, groupRange g.family g.count = some (lo, hi) ∧ g.energies.head? = some lo ∧ g.energies.getLast? = some hi := by
  have h : ∀ g ∈ groupStructures, (match groupRange g.family g.count with
      | some (lo, hi) => decide (g.energies.head? = some lo ∧ g.energies.getLast? = some hi)
      | none => false) = true := by decide +kernel
  intro g hg
  have := h g hg
  cases hr : groupRange g.family g.count with
  | none => rw [hr] at this; cases this
  | some p =>
    rw [hr] at this
    exact ⟨p.1, p.2, rfl, (of_decide_eq_true this).1, (of_decide_eq_true this).2⟩

/-- **C149** (division of the range). Every energy of the range of a structure is in exactly one of its groups. -/
theorem shipped_division {g : Groups} (hg : g ∈ groupStructures) {lo hi E : ℚ} (hr : groupRange g.family g.count = some (lo, hi)) (hE : lo ≤ E) (hE2 : E < hi) :
    ∃ i, i < g.count ∧ ∃ a b, g.energies[i]? = some a ∧ g.energies[i + 1]? = some b ∧ a ≤ E ∧ E < b ∧
      ∀ (j : ℕ) a' b', g.energies[j]? = some a' → g.energies[j + 1]? = some b' → a' ≤ E → E < b' → j = i := by
  obtain ⟨lo', hi', h1, h2, h3⟩ := shipped_ranges g hg
  rw [hr, Option.some.injEq, Prod.mk.injEq] at h1
  obtain ⟨rfl, rfl⟩ := h1
  exact shipped_partition hg h2 h3 hE hE2

/-- the structures whose first edge is `1e-5 eV` -/
example : (groupStructures.filter (fun g => decide (g.energies.head? = some (1 / 100000)))).map (fun g => (g.family, g.count)) =
    [("SCALE", 44), ("VITAMIN-J", 175), ("TRIPOLI", 315), ("CCFE", 709), ("UKAEA", 1102)] := by decide +kernel

/-- a thermal neutron in the structure VITAMIN-J-175 -/
example : ∃ i, i < 175 ∧ ∃ a b, vitaminj175.energies[i]? = some a ∧ vitaminj175.energies[i + 1]? = some b ∧ a ≤ 253 / 10000 ∧ 253 / 10000 < b :=
  ⟨0, by decide +kernel, 1 / 100000, 1 / 10, by decide +kernel, by decide +kernel, by decide +kernel, by decide +kernel⟩

end F4Enix.Ace
