import Verif.Base.Decimal
import Verif.Inp.TallyProps
import Verif.Inp.EgroupsProps
/-!
# The energies of a tally as numbers (C104, C149)

`add_F_tally` prints the energies with `f"{energy:.4e} "` (MCNPinput.py:1678-1683).
-/
namespace F4Enix.Tally
open F4Enix

/-- `f"{energy:.4e}"` (MCNPinput.py:1682) -/
def energyText (q : ℚ) : Str := fmtSci 'e' 4 q

/-- the numbers on a card behind its name (specification) -/
def cardNumbers (c : List Str) : List (Option ℚ) := (cardWords c).tail.map parseFloat

/-- **C104 (numbers).** The energy card of a tally reads as the energies asked for, in order, each within half a unit of its fifth digit;
energies in order stay in order. -/
theorem energies_read {wrap : List Str → List Str} (hw : WrapOk wrap) (i : Inp) (r : Request) (ps : Str)
    (hp : particlesStr r.particles = .ok ps) (hps : ∀ c ∈ ps, isSpace c = false) (hc : ∀ e ∈ r.cells, IsWord e)
    {qs : List ℚ} (he : r.energies = some (qs.map energyText)) :
    ∃ c ys, Dict.get? (addF wrap i r).1.data (name "E" r.id) = some c ∧ cardNumbers c = ys.map some ∧
      List.Forall₂ (fun q y => |y - q| ≤ |q| / 20000) qs ys ∧ (qs.Pairwise (· ≤ ·) → ys.Pairwise (· ≤ ·)) := by
  obtain ⟨-, h⟩ := addF_words hw i r ps hp hps hc (by
    intro es h e hm
    rw [he] at h
    obtain rfl := Option.some.inj h
    obtain ⟨q, -, rfl⟩ := List.mem_map.mp hm
    exact fmtSci_word (Or.inl rfl) 4 q)
  obtain ⟨c, h1, h2⟩ := h _ he
  refine ⟨c, qs.map (roundSig 4), h1, ?_, ?_, ?_⟩
  · unfold cardNumbers
    rw [h2, List.tail_cons, List.map_map, List.map_map]
    apply List.map_congr_left
    intro q _
    exact fmtSci_read (Or.inl rfl) 4 q
  · clear h1 h2 he
    induction qs with
    | nil => exact .nil
    | cons q qs ih =>
      refine .cons ?_ ih
      have := roundSig_near 4 q
      norm_num at this
      exact this
  · intro hq
    rw [List.pairwise_map]
    exact hq.imp (fun h => roundSig_mono 4 h)

end F4Enix.Tally

namespace F4Enix

/-- a change of the unit by a power of ten does not change the digits -/
theorem roundSig_scale (p : ℕ) (q : ℚ) (k : ℤ) : roundSig p (q * (10 : ℚ) ^ k) = roundSig p q * (10 : ℚ) ^ k := by
  have hk := ten_zpow_pos k
  by_cases hq : q = 0
  · rw [hq, zero_mul, roundSig_zero, zero_mul]
  · have hpos : 0 < |q| := abs_pos.mpr hq
    have habs : |q * (10 : ℚ) ^ k| = |q| * (10 : ℚ) ^ k := by rw [abs_mul, abs_of_pos hk]
    have hq' : q * (10 : ℚ) ^ k ≠ 0 := mul_ne_zero hq hk.ne'
    have h1 := Int.zpow_log_le_self (R := ℚ) (b := 10) (by norm_num) hpos
    have h2 := Int.lt_zpow_succ_log_self (R := ℚ) (b := 10) (by norm_num) |q|
    have hlog : Int.log 10 (|q| * (10 : ℚ) ^ k) = Int.log 10 |q| + k := by
      have hp' : 0 < |q| * (10 : ℚ) ^ k := mul_pos hpos hk
      apply le_antisymm
      · apply Int.lt_add_one_iff.mp
        rw [← Int.lt_zpow_iff_log_lt (R := ℚ) (b := 10) (by norm_num) hp']
        push_cast at h2 ⊢
        rw [show Int.log 10 |q| + k + 1 = (Int.log 10 |q| + 1) + k by ring, zpow_add₀ (by norm_num) _ k]
        exact mul_lt_mul_of_pos_right h2 hk
      · rw [← Int.zpow_le_iff_le_log (R := ℚ) (b := 10) (by norm_num) hp']
        push_cast at h1 ⊢
        rw [zpow_add₀ (by norm_num) _ k]
        exact mul_le_mul_of_nonneg_right h1 hk.le
    have hval : ∀ {x : ℚ}, x ≠ 0 → roundSig p x = (if x < 0 then -1 else 1) *
        ((roundEven (|x| / (10 : ℚ) ^ (Int.log 10 |x| - p)) : ℚ) * (10 : ℚ) ^ (Int.log 10 |x| - p)) := by
      intro x hx
      unfold roundSig
      rw [mul_assoc, sciParts_val p hx]
    rw [hval hq', hval hq, habs, hlog]
    have hdiv : |q| * (10 : ℚ) ^ k / (10 : ℚ) ^ (Int.log 10 |q| + k - p) = |q| / (10 : ℚ) ^ (Int.log 10 |q| - p) := by
      rw [show Int.log 10 |q| + k - (p : ℤ) = (Int.log 10 |q| - p) + k by ring, zpow_add₀ (by norm_num) _ k]
      have := (ten_zpow_pos (Int.log 10 |q| - p)).ne'
      field_simp
    rw [hdiv, show Int.log 10 |q| + k - (p : ℤ) = (Int.log 10 |q| - p) + k by ring, zpow_add₀ (by norm_num) _ k]
    have hs : (q * (10 : ℚ) ^ k < 0) = (q < 0) := by
      apply propext
      constructor
      · intro h; by_contra hn; exact absurd h (not_lt.mpr (mul_nonneg (not_lt.mp hn) hk.le))
      · intro h; exact mul_neg_of_neg_of_pos h hk
    simp only [hs]
    ring

end F4Enix

namespace F4Enix.Ace
open F4Enix

/-- no two edges of a shipped structure agree in five digits -/
theorem shipped_digits : ∀ g ∈ groupStructures, g.edges.IsChain (fun a b : ℕ => roundSig 4 (a : ℚ) < roundSig 4 (b : ℚ)) := by decide +kernel

/-- **C149, C104.** The edges of every shipped structure, in eV or after a change of the unit by any power of ten (MeV: `k = -6`), are still different and
ascending as numbers when printed with `f"{energy:.4e}"` for a tally. -/
theorem shipped_printed {g : Groups} (hg : g ∈ groupStructures) (k : ℤ) :
    ∃ ys : List ℚ, (g.energies.map (fun e => parseFloat (Tally.energyText (e * (10 : ℚ) ^ k)))) = ys.map some ∧ ys.Pairwise (· < ·) ∧
      ys.length = g.count + 1 := by
  refine ⟨g.energies.map (fun e => roundSig 4 (e * (10 : ℚ) ^ k)), ?_, ?_, by rw [List.length_map, (rising_energies hg).2]⟩
  · rw [List.map_map]
    apply List.map_congr_left
    intro e _
    exact fmtSci_read (Or.inl rfl) 4 _
  · have h := shipped_digits g hg
    unfold Groups.energies
    rw [List.map_map, ← List.isChain_iff_pairwise, List.isChain_map]
    refine h.imp ?_
    intro a b hab
    have e : ∀ n : ℕ, ((fun e => roundSig 4 (e * (10 : ℚ) ^ k)) ∘ fun n : ℕ => (n : ℚ) / 10 ^ g.decimals) n = roundSig 4 n * (10 : ℚ) ^ (k - g.decimals) := by
      intro n
      rw [← roundSig_scale]
      simp only [Function.comp]
      congr 1
      rw [zpow_sub₀ (by norm_num), zpow_natCast]
      field_simp
    rw [e, e]
    exact mul_lt_mul_of_pos_right hab (ten_zpow_pos _)

/-- the two groups of CASMO-2 in MeV -/
example : casmo2.energies.map (fun e => Tally.energyText (e * (10 : ℚ) ^ (-6 : ℤ))) = ["0.0000e+00".toList, "6.2500e-07".toList, "2.0000e+01".toList] := by
  decide +kernel

end F4Enix.Ace
