import Verif.Inp.AceGroups
import Verif.Inp.EgroupsProps
/-!
# The shipped group structures with the points of the code (C149)

Twelve of the twenty structures begin at 0 eV, whose logarithm is no number: their first group has no value.
-/
namespace F4Enix.Ace
open F4Enix

/-- the edges as the code uses them (specification) -/
noncomputable def Groups.reals (g : Groups) : List ℝ := g.energies.map (fun q : ℚ => (q : ℝ))

theorem groupsLog_at (n : ℕ) (f : ℝ → ℝ) (lowest : ℝ) (es : List ℝ) (i : ℕ) {a b : ℝ} (ha : es[i]? = some a)
    (hb : es[i + 1]? = some b) : (groupsLog n f lowest es)[i + 1]? = some (groupLog n f a b) := by
  induction es generalizing lowest i with
  | nil => cases ha
  | cons e es ih =>
    cases i with
    | succ i =>
      simp only [List.getElem?_cons_succ] at ha hb
      simpa only [groupsLog, List.getElem?_cons_succ] using ih e i ha hb
    | zero =>
      simp only [List.getElem?_cons_zero, Option.some.injEq, List.getElem?_cons_succ] at ha hb
      subst ha
      cases es with
      | nil => cases hb
      | cons e' es =>
        simp only [List.getElem?_cons_zero, Option.some.injEq] at hb
        subst hb
        simp [groupsLog]

/-- **C149.** Every group of a shipped structure that does not begin at zero has a value, which lies between the bounds of the
cross section within the group, whatever the table begins with. -/
theorem shipped_value {g : Groups} (hg : g ∈ groupStructures) {n : ℕ} (hn : 2 ≤ n) (f : ℝ → ℝ) (lowest : ℝ) {i : ℕ} {a b : ℝ}
    (ha : g.reals[i]? = some a) (hb : g.reals[i + 1]? = some b) (h0 : a ≠ 0) :
    ∃ y, (groupsLog n f lowest g.reals)[i + 1]? = some (some y) ∧
      ∀ m M, (∀ x, a ≤ x → x ≤ b → m ≤ f x ∧ f x ≤ M) → m ≤ y ∧ y ≤ M := by
  obtain ⟨hr, -⟩ := rising_energies hg
  have hrr : g.reals.Pairwise (· < ·) := by
    unfold Groups.reals
    rw [List.pairwise_map]
    exact hr.imp (fun h => by exact_mod_cast h)
  have hpos : ∀ x ∈ g.reals, 0 ≤ x := by
    intro x hx
    obtain ⟨q, hq, rfl⟩ := List.mem_map.1 hx
    obtain ⟨k, -, rfl⟩ := List.mem_map.1 hq
    have : (0 : ℚ) ≤ (k : ℚ) / 10 ^ g.decimals := by positivity
    exact_mod_cast this
  have ha0 : 0 < a := lt_of_le_of_ne (hpos a (List.mem_of_getElem? ha)) (Ne.symm h0)
  have hab : a < b := by
    obtain ⟨h1, e1⟩ := List.getElem?_eq_some_iff.1 ha
    obtain ⟨h2, e2⟩ := List.getElem?_eq_some_iff.1 hb
    rw [← e1, ← e2]
    exact List.pairwise_iff_getElem.1 hrr _ _ _ _ (by omega)
  obtain ⟨-, h2⟩ := groups_average hn f (lowest := a) (es := [b]) ha0 (by simp [hab])
  obtain ⟨y, h3, h4⟩ := h2 0 a b rfl rfl
  have h5 : groupLog n f a b = some y := by simpa [groupsLog] using h3
  exact ⟨y, by rw [groupsLog_at n f lowest _ i ha hb, h5], h4⟩

/-- **C149 (no value).** The first group of a shipped structure that begins at zero has no value, for no cross section and no
number of points. -/
theorem shipped_no_value {g : Groups} (hg : g ∈ groupStructures) (h0 : g.energies.head? = some 0) (n : ℕ) (f : ℝ → ℝ) (lowest : ℝ) :
    (groupsLog n f lowest g.reals)[1]? = some none := by
  have hl := (shipped_edges g hg).1
  have hc : ∀ g ∈ groupStructures, 1 ≤ g.count := by decide +kernel
  have hc := hc g hg
  cases he : g.energies with
  | nil => rw [he] at h0; cases h0
  | cons a es =>
    rw [he, List.head?_cons, Option.some.injEq] at h0
    subst h0
    have h2 := (rising_energies hg).2
    rw [he] at h2
    cases es with
    | nil => simp at h2; omega
    | cons b es =>
      have hr : g.reals = 0 :: ((b : ℚ) : ℝ) :: es.map (fun q : ℚ => (q : ℝ)) := by simp [Groups.reals, he]
      rw [hr]
      exact (groups_nan n f lowest _ _).2.2

/-- **C149 (which).** The shipped structures that begin at zero. -/
theorem shipped_zero : (groupStructures.filter (fun g => decide (g.edges.head? = some 0))).map (fun g => (g.family, g.count)) =
    [("CASMO", 2), ("CASMO", 4), ("CASMO", 8), ("CASMO", 16), ("CASMO", 25), ("CASMO", 40), ("MPACT", 51), ("MPACT", 60),
     ("MPACT", 69), ("CASMO", 70), ("SCALE", 252), ("SHEM", 361)] := by decide +kernel

/-- the first structure begins at zero, and its second group has a value -/
example : casmo2 ∈ groupStructures ∧ casmo2.energies.head? = some 0 := ⟨by simp [groupStructures], by decide +kernel⟩

example (f : ℝ → ℝ) : ∃ y, (groupsLog 100 f (1 / 100000) casmo2.reals)[2]? = some (some y) := by
  have h : casmo2.energies = [0, 625 / 1000, 20000000000 / 1000] := by decide +kernel
  have hr : casmo2.reals = [0, 625 / 1000, 20000000000 / 1000] := by simp [Groups.reals, h]
  obtain ⟨y, hy, -⟩ := shipped_value (g := casmo2) (by simp [groupStructures]) (n := 100) (by norm_num) f (1 / 100000) (i := 1)
    (a := 625 / 1000) (b := 20000000000 / 1000) (by rw [hr]; rfl) (by rw [hr]; rfl) (by norm_num)
  exact ⟨y, hy⟩

end F4Enix.Ace
