import Verif.Inp.Ace
import Mathlib.Algebra.BigOperators.Group.List.Basic
import Mathlib.Tactic.Linarith
import Mathlib.Tactic.Ring
import Mathlib.Tactic.NormNum
/-!
# Cross sections of nuclides (C118), the temperature (C119), mixtures (C120) and groups (C121)
-/
namespace F4Enix.Ace
open F4Enix

variable {K : Type} [Field K]

/-! ### C118: one nuclide -/

theorem components_ok {n : Nuclide K} {y : Bool} {mts : List ℤ} {fs : List (K → K)} (h : components n y mts = .ok fs) :
    List.Forall₂ (fun mt f => component n y mt = .ok f) mts fs := by
  induction mts generalizing fs with
  | nil => simp only [components, Except.ok.injEq] at h; subst h; exact .nil
  | cons mt mts ih =>
    rw [components] at h
    split at h
    · cases h
    · rename_i f hf
      split at h
      · cases h
      · rename_i gs hgs
        simp only [Except.ok.injEq] at h
        subst h
        exact .cons hf (ih hgs)

theorem combineLoop_add (x : K) (fs : List (K → K)) (acc : K) :
    combineLoop x acc (List.replicate fs.length false) fs = .ok (acc + (fs.map (fun f => f x)).sum) := by
  induction fs generalizing acc with
  | nil => simp [combineLoop]
  | cons f fs ih =>
    rw [List.length_cons, List.replicate_succ, combineLoop, ih]
    simp [add_assoc]

theorem combineLoop_add_mul (x : K) (fs : List (K → K)) (g : K → K) (acc : K) :
    combineLoop x acc (List.replicate fs.length false ++ [true]) (fs ++ [g]) =
      .ok ((acc + (fs.map (fun f => f x)).sum) * g x) := by
  induction fs generalizing acc with
  | nil => simp [combineLoop]
  | cons f fs ih =>
    rw [List.length_cons, List.replicate_succ, List.cons_append, List.cons_append, combineLoop, ih]
    simp [add_assoc]

/-- **C118.** The cross section of a type of reaction is the sum of those of its components. -/
theorem xs_sum {n : Nuclide K} {y : Bool} {mts : List ℤ} {fs : List (K → K)} (hx : -2 ∉ mts)
    (h : components n y mts = .ok fs) (x : K) : xsAt n y mts x = .ok ((fs.map (fun f => f x)).sum) := by
  have hl := (components_ok h).length_eq
  unfold xsAt
  rw [h]
  simp only
  unfold operations
  rw [if_neg hx]
  cases fs with
  | nil =>
    rw [List.length_nil, List.length_eq_zero_iff] at hl
    subst hl
    rfl
  | cons f fs =>
    rw [hl, List.length_cons, Nat.add_sub_cancel]
    simp only [combine]
    rw [combineLoop_add]
    simp

/-- **C118.** With the lethargy gain as the last component, the sum of the others is multiplied by it. -/
theorem xs_slowing {n : Nuclide K} {y : Bool} {mts : List ℤ} {fs : List (K → K)} (hne : mts ≠ [])
    (hg : Dict.get? n.reactions (-2) = none)
    (h : components n y mts = .ok fs) (x : K) :
    xsAt n y (mts ++ [-2]) x = .ok ((fs.map (fun f => f x)).sum * n.xi) := by
  have hl := (components_ok h).length_eq
  have hc : ∀ (ms : List ℤ) gs, components n y ms = .ok gs → components n y (ms ++ [-2]) = .ok (gs ++ [fun _ => n.xi]) := by
    intro ms
    induction ms with
    | nil =>
      intro gs hgs
      simp only [components, Except.ok.injEq] at hgs
      subst hgs
      simp [components, component, hg]
    | cons m ms ih =>
      intro gs hgs
      rw [components] at hgs
      split at hgs
      · cases hgs
      · rename_i f hf
        split at hgs
        · cases hgs
        · rename_i gs' hgs'
          simp only [Except.ok.injEq] at hgs
          subst hgs
          rw [List.cons_append, components, hf]
          simp only [ih _ hgs']
          rfl
  unfold xsAt
  rw [hc _ _ h]
  simp only
  unfold operations
  rw [if_pos (by simp)]
  cases fs with
  | nil =>
    rw [List.length_nil, List.length_eq_zero_iff] at hl
    exact absurd hl hne
  | cons f fs =>
    have e : (mts ++ [(-2 : ℤ)]).length - 2 = fs.length := by
      rw [List.length_append, hl]; simp
    rw [e, List.cons_append]
    simp only [combine]
    rw [combineLoop_add_mul]
    simp

/-- **C118.** The component of a reaction that is there is its cross section (times the neutrons it yields if asked for);
that of one that is not there is zero. -/
theorem component_value (n : Nuclide K) (y : Bool) (mt : ℤ) (h2 : mt ≠ 2) :
    component n y mt = .ok (match Dict.get? n.reactions mt with
      | some r => if y = true then withYield r else r.xs
      | none => if mt = -1 then fun _ => 1 else if mt = -2 then fun _ => n.xi else fun _ => 0) := by
  unfold component
  rw [if_neg h2]
  cases Dict.get? n.reactions mt with
  | some r => rfl
  | none =>
    simp only
    split_ifs <;> rfl

theorem partYield_sum (x : K) (ps : List (Product K)) (f : Option (K → K)) :
    match partYield f ps with
    | some g => g x = ((f.getD (fun _ => 0)) x) +
        ((ps.filter (fun p => p.neutron && !p.total)).map (fun p => p.yield x)).sum
    | none => f = none ∧ ∀ p ∈ ps, ¬ (p.neutron = true ∧ p.total = false) := by
  induction ps generalizing f with
  | nil =>
    cases f with
    | none => exact ⟨rfl, by simp⟩
    | some f => simp [partYield]
  | cons p ps ih =>
    unfold partYield
    by_cases h : p.neutron = true ∧ p.total = false
    · rw [if_pos h]
      cases f with
      | none =>
        have := ih (some p.yield)
        cases hp : partYield (some p.yield) ps with
        | none => rw [hp] at this; simp at this
        | some g =>
          rw [hp] at this
          simp only [Option.getD_some, Option.getD_none] at this ⊢
          rw [this]
          simp [h.1, h.2]
      | some f =>
        have := ih (some (fun x => p.yield x + f x))
        cases hp : partYield (some (fun x => p.yield x + f x)) ps with
        | none => rw [hp] at this; simp at this
        | some g =>
          rw [hp] at this
          simp only [Option.getD_some] at this ⊢
          rw [hp]
          simp only
          rw [this]
          simp [h.1, h.2]
          ring
    · rw [if_neg h]
      have := ih f
      cases hp : partYield f ps with
      | none =>
        rw [hp] at this
        refine ⟨this.1, ?_⟩
        intro q hq
        rcases List.mem_cons.1 hq with rfl | hq
        · exact h
        · exact this.2 q hq
      | some g =>
        rw [hp] at this
        simp only at this ⊢
        rw [this]
        have : (p.neutron && !p.total) = false := by
          cases h1 : p.neutron <;> cases h2 : p.total <;> simp_all
        rw [List.filter_cons_of_neg (by simp [this])]

/-- **C118.** The cross section with yield is that of the reaction times the total number of neutrons if a product gives
it, otherwise times the sum of the parts, otherwise the cross section itself. -/
theorem withYield_value (r : Reaction K) (x : K) :
    (∀ p, r.products.find? (fun p => p.neutron && p.total) = some p → withYield r x = r.xs x * p.yield x) ∧
    ((∀ p ∈ r.products, ¬ (p.neutron = true ∧ p.total = true)) →
      (∃ p ∈ r.products, p.neutron = true) →
      withYield r x = r.xs x * ((r.products.filter (fun p => p.neutron)).map (fun p => p.yield x)).sum) ∧
    ((∀ p ∈ r.products, p.neutron = false) → withYield r x = r.xs x) := by
  refine ⟨?_, ?_, ?_⟩
  · intro p h
    unfold withYield; rw [h]
  · intro h1 h2
    have hf : r.products.find? (fun p => p.neutron && p.total) = none := by
      rw [List.find?_eq_none]
      intro p hp hc
      rw [Bool.and_eq_true] at hc
      exact h1 p hp hc
    unfold withYield; rw [hf]
    have := partYield_sum x r.products none
    cases hp : partYield none r.products with
    | none =>
      rw [hp] at this
      obtain ⟨p, hp1, hp2⟩ := h2
      exfalso
      apply this.2 p hp1
      refine ⟨hp2, ?_⟩
      cases ht : p.total with
      | false => rfl
      | true => exact absurd ⟨hp2, ht⟩ (h1 p hp1)
    | some g =>
      rw [hp] at this
      simp only [Option.getD_none] at this ⊢
      rw [this, zero_add, mul_comm]
      congr 3
      apply List.filter_congr
      intro p hp
      cases hn : p.neutron with
      | false => rfl
      | true =>
        cases ht : p.total with
        | false => rfl
        | true => exact absurd ⟨hn, ht⟩ (h1 p hp)
  · intro h
    have hf : r.products.find? (fun p => p.neutron && p.total) = none := by
      rw [List.find?_eq_none]
      intro p hp
      rw [h p hp]; simp
    unfold withYield; rw [hf]
    have := partYield_sum x r.products none
    cases hp : partYield none r.products with
    | none => rfl
    | some g =>
      exfalso
      have : ∀ (ps : List (Product K)), (∀ p ∈ ps, p.neutron = false) → partYield none ps = none := by
        intro ps
        induction ps with
        | nil => intro _; rfl
        | cons p ps ih =>
          intro h
          rw [partYield, if_neg (by rw [h p (by simp)]; simp)]
          exact ih (fun q hq => h q (List.mem_cons_of_mem _ hq))
      rw [this _ h] at hp; cases hp

/-! ### C119: the temperature -/

theorem pyRound_near (q : ℚ) (n : ℤ) : |(pyRound q : ℚ) - q| ≤ |(n : ℚ) - q| := by
  have h1 := Int.floor_le q
  have h2 := Int.lt_floor_add_one q
  have hn : n ≤ ⌊q⌋ ∨ ⌊q⌋ + 1 ≤ n := by omega
  have hn' : (n : ℚ) ≤ (⌊q⌋ : ℚ) ∨ (⌊q⌋ : ℚ) + 1 ≤ (n : ℚ) := by
    rcases hn with h | h
    · left; exact_mod_cast h
    · right; exact_mod_cast h
  unfold pyRound
  split_ifs with a b c
  · rw [abs_of_nonpos (by linarith)]
    rcases hn' with h | h
    · rw [abs_of_nonpos (by linarith)]; linarith
    · rw [abs_of_nonneg (by linarith)]; linarith
  · push_cast
    rw [abs_of_nonneg (by linarith)]
    rcases hn' with h | h
    · rw [abs_of_nonpos (by linarith)]; linarith
    · rw [abs_of_nonneg (by linarith)]; linarith
  · rw [abs_of_nonpos (by linarith)]
    rcases hn' with h | h
    · rw [abs_of_nonpos (by linarith)]; linarith
    · rw [abs_of_nonneg (by linarith)]; linarith
  · push_cast
    rw [abs_of_nonneg (by linarith)]
    rcases hn' with h | h
    · rw [abs_of_nonpos (by linarith)]; linarith
    · rw [abs_of_nonneg (by linarith)]; linarith

theorem nearest_spec {T : ℚ} {ts : List ℤ} :
    (nearest T ts = none ↔ ts = []) ∧ ∀ u, nearest T ts = some u → u ∈ ts ∧ ∀ t ∈ ts, |(u : ℚ) - T| ≤ |(t : ℚ) - T| := by
  induction ts with
  | nil => simp [nearest]
  | cons t ts ih =>
    rw [nearest]
    cases hn : nearest T ts with
    | none =>
      have := ih.1.1 hn
      subst this
      refine ⟨by simp, ?_⟩
      intro u hu
      simp only [Option.some.injEq] at hu
      subst hu
      simp
    | some v =>
      obtain ⟨i1, i2⟩ := ih.2 v hn
      simp only
      refine ⟨by split_ifs <;> simp, ?_⟩
      intro u hu
      split_ifs at hu with hc
      · simp only [Option.some.injEq] at hu; subst hu
        refine ⟨by simp, ?_⟩
        intro w hw
        rcases List.mem_cons.1 hw with rfl | hw
        · exact le_refl _
        · exact le_trans hc (i2 w hw)
      · simp only [Option.some.injEq] at hu; subst hu
        refine ⟨by simp [i1], ?_⟩
        intro w hw
        rcases List.mem_cons.1 hw with rfl | hw
        · exact le_of_lt (not_le.1 hc)
        · exact i2 w hw

/-- **C119.** The temperature used is one of the library, and none of the library is nearer to the one asked for. -/
theorem chooseT_nearest {T : ℚ} {temps : List ℤ} (hne : temps ≠ []) :
    ∃ t, chooseT T temps = .ok t ∧ t ∈ temps ∧ ∀ u ∈ temps, |(t : ℚ) - T| ≤ |(u : ℚ) - T| := by
  unfold chooseT
  by_cases h : pyRound T ∈ temps
  · exact ⟨pyRound T, by rw [if_pos h], h, fun u _ => pyRound_near T u⟩
  · rw [if_neg h]
    obtain ⟨h1, h2⟩ := @nearest_spec T temps
    cases hn : nearest T temps with
    | none => exact absurd (h1.1 hn) hne
    | some t => exact ⟨t, rfl, h2 t hn⟩

/-! ### C120: mixtures -/

theorem loadAll_get {T : Type} {load : Str → Except PyErr (List T)} {ns : List Str} {d xs : Dict Str (List T)}
    (h : loadAll load d ns = .ok xs) :
    (∀ n ∈ ns, ∃ ts, load n = .ok ts ∧ Dict.get? xs n = some ts) ∧ ∀ n, n ∉ ns → Dict.get? xs n = Dict.get? d n := by
  induction ns generalizing d with
  | nil => simp only [loadAll, Except.ok.injEq] at h; subst h; simp
  | cons n ns ih =>
    rw [loadAll] at h
    split at h
    · cases h
    · rename_i ts hts
      obtain ⟨i1, i2⟩ := ih h
      constructor
      · intro m hm
        by_cases hmn : m ∈ ns
        · exact i1 m hmn
        · have : m = n := by
            rcases List.mem_cons.1 hm with h | h
            · exact h
            · exact absurd h hmn
          subst this
          refine ⟨ts, hts, ?_⟩
          rw [i2 m hmn, Dict.get?_set, if_pos rfl]
      · intro m hm
        rw [List.mem_cons, not_or] at hm
        rw [i2 m hm.2, Dict.get?_set]
        rw [if_neg (by first | exact hm.1 | exact Ne.symm hm.1)]

/-- the sum, each fraction times the cross section of the given nuclide (specification) -/
def sumOver (v : Str → ℕ → K) (fs : List K) (ns : List Str) (i : ℕ) : K :=
  (List.zipWith (fun f n => f * v n i) fs ns).sum

theorem addValues_sum {T : Type} {xs : Dict Str (List T)} {eval : T → ℕ → K} {line : ℕ} (v : Str → ℕ → K)
    {nuc : Str} {zs : List (Zaid K)} {acc r : ℕ → K} {nuc' : Str}
    (hv : ∀ n ∈ nuc :: zs.map Zaid.nuc, ∀ ts, Dict.get? xs n = some ts → ∀ t, ts[line]? = some t → eval t = v n)
    (h : addValues xs eval line nuc zs acc = .ok (r, nuc')) :
    (∀ i, r i = acc i + sumOver v (zs.map Zaid.frac) (nuc :: zs.map Zaid.nuc) i) ∧
      nuc' = (zs.map Zaid.nuc).getLast?.getD nuc := by
  induction zs generalizing nuc acc with
  | nil =>
    simp only [addValues, Except.ok.injEq, Prod.mk.injEq] at h
    refine ⟨fun i => by rw [← h.1]; simp [sumOver], by simp [h.2]⟩
  | cons z zs ih =>
    rw [addValues] at h
    split at h
    · cases h
    · rename_i ts hts
      split at h
      · cases h
      · rename_i t ht
        obtain ⟨i1, i2⟩ := ih (fun n hn => hv n (List.mem_cons_of_mem _ (by simpa using hn))) h
        constructor
        · intro i
          rw [i1 i, hv nuc (by simp) ts hts t ht]
          simp only [sumOver, List.map_cons, List.zipWith_cons_cons, List.sum_cons]
          ring
        · rw [i2]
          rw [List.map_cons, List.getLast?_cons]
          rfl

/-- the nuclides each moved by one place: the last one first (specification) -/
def shifted (zs : List (Zaid K)) : List Str := (zs.map Zaid.nuc).getLast?.getD [] :: (zs.map Zaid.nuc).dropLast

theorem mixLines_rows {T : Type} {xs : Dict Str (List T)} {eval : T → ℕ → K} {zs : List (Zaid K)} (hne : zs ≠ [])
    {us : List Bool} {line : ℕ} {rows : List (ℕ → K)} (v : ℕ → Str → ℕ → K)
    (hv : ∀ line, ∀ n ∈ zs.map Zaid.nuc, ∀ ts, Dict.get? xs n = some ts → ∀ t, ts[line]? = some t → eval t = v line n)
    (h : mixLines xs eval zs ((zs.map Zaid.nuc).getLast?.getD []) line us = .ok rows) :
    rows.length = us.length ∧ ∀ k r, rows[k]? = some r →
      (us[k]? = some true → ∀ i, r i = 1) ∧
      (us[k]? = some false → ∀ i, r i = sumOver (v (line + k)) (zs.map Zaid.frac) (shifted zs) i) := by
  induction us generalizing line rows with
  | nil => simp only [mixLines, Except.ok.injEq] at h; subst h; simp
  | cons u us ih =>
    cases u with
    | true =>
      rw [mixLines] at h
      split at h
      · cases h
      · rename_i rs hrs
        simp only [Except.ok.injEq] at h
        subst h
        obtain ⟨i1, i2⟩ := ih hrs
        refine ⟨by simp [i1], ?_⟩
        intro k r hk
        cases k with
        | zero => simp at hk; subst hk; simp
        | succ k =>
          have := i2 k r (by simpa using hk)
          rw [Nat.add_right_comm, Nat.add_assoc] at this
          simpa using this
    | false =>
      rw [mixLines] at h
      split at h
      · cases h
      · rename_i r nuc' hr
        split at h
        · cases h
        · rename_i rs hrs
          simp only [Except.ok.injEq] at h
          subst h
          have hlast : (zs.map Zaid.nuc).getLast?.getD [] ∈ zs.map Zaid.nuc := by
            cases hl : (zs.map Zaid.nuc).getLast? with
            | none => rw [List.getLast?_eq_none_iff, List.map_eq_nil_iff] at hl; exact absurd hl hne
            | some a => exact List.mem_of_getLast? hl
          obtain ⟨a1, a2⟩ := addValues_sum (v line) (fun n hn => by
            rcases List.mem_cons.1 hn with rfl | hn
            · exact hv line _ hlast
            · exact hv line n hn) hr
          have hnuc : nuc' = (zs.map Zaid.nuc).getLast?.getD [] := by
            rw [a2]
            cases hl : (zs.map Zaid.nuc).getLast? with
            | none => rw [List.getLast?_eq_none_iff, List.map_eq_nil_iff] at hl; exact absurd hl hne
            | some a => rfl
          rw [hnuc] at hrs
          obtain ⟨i1, i2⟩ := ih hrs
          refine ⟨by simp [i1], ?_⟩
          intro k r' hk
          cases k with
          | zero =>
            simp at hk; subst hk
            refine ⟨by simp, fun _ i => ?_⟩
            rw [a1 i, zero_add, Nat.add_zero]
            unfold sumOver shifted
            have hz : ∀ (f : K → Str → K) (l : List K) (a : Str) (ns : List Str), l.length = ns.length →
                List.zipWith f l (a :: ns) = List.zipWith f l (a :: ns.dropLast) := by
              intro f l
              induction l with
              | nil => intros; simp
              | cons x l ihl =>
                intro a ns hl
                cases ns with
                | nil => simp at hl
                | cons b ns =>
                  cases ns with
                  | nil =>
                    have : l = [] := by simpa using hl
                    subst this; simp
                  | cons c ns =>
                    have := ihl b (c :: ns) (by simpa using hl)
                    simp only [List.zipWith_cons_cons, List.dropLast_cons_cons]
                    rw [this]
            rw [hz _ _ _ _ (by simp)]
          | succ k =>
            have := i2 k r' (by simpa using hk)
            rw [Nat.add_right_comm, Nat.add_assoc] at this
            simpa using this

/-- **C120 (what is computed).** Each fraction is multiplied by the cross section of the nuclide *before* in the list, the
first one by that of the last. -/
theorem mix_shifted {T : Type} {load : Str → Except PyErr (List T)} {eval : T → ℕ → K} {unity : List Bool}
    {zs : List (Zaid K)} {rows : List (ℕ → K)} (h : mixture load eval unity zs = .ok rows) (v : ℕ → Str → ℕ → K)
    (hv : ∀ line, ∀ n ∈ zs.map Zaid.nuc, ∀ ts, load n = .ok ts → ∀ t, ts[line]? = some t → eval t = v line n) :
    rows.length = unity.length ∧ ∀ k r, rows[k]? = some r →
      (unity[k]? = some true → ∀ i, r i = 1) ∧
      (unity[k]? = some false → ∀ i, r i = sumOver (v k) (zs.map Zaid.frac) (shifted zs) i) := by
  unfold mixture at h
  split at h
  · cases h
  · rename_i z hz
    split at h
    · cases h
    · rename_i xs hxs
      have hne : zs ≠ [] := by rintro rfl; cases hz
      have hl : (zs.map Zaid.nuc).getLast?.getD [] = z.nuc := by
        rw [List.getLast?_map, hz]; rfl
      rw [← hl] at h
      have := mixLines_rows hne v (fun line n hn ts hts t ht => by
        obtain ⟨ts', h1, h2⟩ := (loadAll_get hxs).1 n hn
        rw [h2] at hts
        simp only [Option.some.injEq] at hts
        subst hts
        exact hv line n hn ts' h1 t ht) h
      simpa using this

/-- **C120 (part).** The cross section of a mixture of nuclides is the sum of fraction times cross section of each nuclide
if all of them have the same cross section at this energy, in particular for a single nuclide. Missing: all other
mixtures, see `mix_two`. -/
theorem mix_partial {T : Type} {load : Str → Except PyErr (List T)} {eval : T → ℕ → K} {unity : List Bool}
    {zs : List (Zaid K)} {rows : List (ℕ → K)} (h : mixture load eval unity zs = .ok rows) (v : ℕ → Str → ℕ → K)
    (hv : ∀ line, ∀ n ∈ zs.map Zaid.nuc, ∀ ts, load n = .ok ts → ∀ t, ts[line]? = some t → eval t = v line n)
    {k : ℕ} {r : ℕ → K} (hr : rows[k]? = some r) (hk : unity[k]? = some false) {i : ℕ}
    (hsame : ∀ n ∈ zs.map Zaid.nuc, ∀ n' ∈ zs.map Zaid.nuc, v k n i = v k n' i) :
    r i = (zs.map (fun z => z.frac * v k z.nuc i)).sum := by
  rw [((mix_shifted h v hv).2 k r hr).2 hk i]
  unfold sumOver
  have hmem : ∀ n ∈ shifted zs, zs ≠ [] → n ∈ zs.map Zaid.nuc := by
    intro n hn hne
    unfold shifted at hn
    rcases List.mem_cons.1 hn with rfl | hn
    · cases hl : (zs.map Zaid.nuc).getLast? with
      | none => rw [List.getLast?_eq_none_iff, List.map_eq_nil_iff] at hl; exact absurd hl hne
      | some a => exact List.mem_of_getLast? hl
    · exact List.dropLast_subset _ hn
  by_cases hne : zs = []
  · subst hne; rfl
  · have hlen : (shifted zs).length = zs.length := by
      have : 0 < zs.length := List.length_pos_iff.2 hne
      unfold shifted
      simp only [List.length_cons, List.length_dropLast, List.length_map]
      omega
    congr 1
    apply List.ext_getElem
    · simp [hlen]
    · intro j h1 h2
      simp only [List.getElem_zipWith, List.getElem_map]
      congr 1
      apply hsame
      · exact hmem _ (List.getElem_mem _) hne
      · exact List.mem_map.2 ⟨_, List.getElem_mem _, rfl⟩

/-- **C120 (false for two nuclides).** The result of a mixture of two nuclides differs from the sum by the product of the
differences of the fractions and of the cross sections. -/
theorem mix_two {T : Type} {load : Str → Except PyErr (List T)} {eval : T → ℕ → K} {unity : List Bool}
    {a b : Zaid K} {rows : List (ℕ → K)} (h : mixture load eval unity [a, b] = .ok rows) (v : ℕ → Str → ℕ → K)
    (hv : ∀ line, ∀ n ∈ [a.nuc, b.nuc], ∀ ts, load n = .ok ts → ∀ t, ts[line]? = some t → eval t = v line n)
    {k : ℕ} {r : ℕ → K} (hr : rows[k]? = some r) (hk : unity[k]? = some false) (i : ℕ) :
    r i = (a.frac * v k a.nuc i + b.frac * v k b.nuc i) + (a.frac - b.frac) * (v k b.nuc i - v k a.nuc i) := by
  rw [((mix_shifted h v hv).2 k r hr).2 hk i]
  simp [sumOver, shifted]
  ring

/-! ### C121: groups -/

section groups
variable [LinearOrder K] [IsStrictOrderedRing K]

/-- the points go up from `a` to `b` (specification) -/
inductive Rising : K → K → List K → Prop
  | one (a : K) : Rising a a [a]
  | cons {a b c : K} {l : List K} (h : a ≤ b) (hr : Rising b c (b :: l)) : Rising a c (a :: b :: l)

theorem trapz_bounds {f : K → K} {m M : K} {a b : K} {l : List K} (h : Rising a b l)
    (hf : ∀ x ∈ l, m ≤ f x ∧ f x ≤ M) : m * (b - a) ≤ trapz f l ∧ trapz f l ≤ M * (b - a) := by
  induction h with
  | one a => simp [trapz]
  | @cons a b c l hab hr ih =>
    obtain ⟨i1, i2⟩ := ih (fun x hx => hf x (List.mem_cons_of_mem _ hx))
    obtain ⟨a1, a2⟩ := hf a (by simp)
    obtain ⟨b1, b2⟩ := hf b (by simp)
    have hd : 0 ≤ b - a := sub_nonneg.2 hab
    have e : trapz f (a :: b :: l) = (b - a) * (f a + f b) / 2 + trapz f (b :: l) := rfl
    rw [e]
    have h1 : m * (b - a) ≤ (b - a) * (f a + f b) / 2 := by
      rw [le_div_iff₀ (by norm_num)]
      nlinarith
    have h2 : (b - a) * (f a + f b) / 2 ≤ M * (b - a) := by
      rw [div_le_iff₀ (by norm_num)]
      nlinarith
    constructor <;> nlinarith

/-- **C121.** The value of a group lies between the least and the greatest cross section at its points; a constant cross
section is kept. Partial: The points (numpy.logspace) are a parameter; a structure that begins at the lowest energy of the table has no first value: group_first_nan. -/
theorem group_bounds_partial {points : K → K → List K} {f : K → K} {e0 e m M : K} (hlt : e0 < e) (hp : Rising e0 e (points e0 e))
    (hf : ∀ x ∈ points e0 e, m ≤ f x ∧ f x ≤ M) :
    ∃ y, groupValue points f e0 e = some y ∧ m ≤ y ∧ y ≤ M := by
  have hd : 0 < e - e0 := sub_pos.2 hlt
  obtain ⟨h1, h2⟩ := trapz_bounds hp hf
  refine ⟨_, by unfold groupValue; rw [if_neg hd.ne'], ?_, ?_⟩
  · rw [le_div_iff₀ hd]; exact h1
  · rw [div_le_iff₀ hd]; exact h2

theorem group_constant {points : K → K → List K} {e0 e c : K} (hlt : e0 < e) (hp : Rising e0 e (points e0 e)) :
    groupValue points (fun _ => c) e0 e = some c := by
  obtain ⟨y, h1, h2, h3⟩ := group_bounds_partial (m := c) (M := c) (f := fun _ => c) hlt hp (fun x _ => ⟨le_refl _, le_refl _⟩)
  rw [h1, le_antisymm h3 h2]

omit [IsStrictOrderedRing K] in
/-- **C121.** The value at place `i` of the result belongs to the interval between the boundaries `i - 1` and `i`, the
one at place 0 to that from the lowest energy of the table to the first boundary. -/
theorem group_places (points : K → K → List K) (f : K → K) (lowest : K) (es : List K) :
    (groupValues points f lowest es).length = es.length ∧
    ∀ (i : ℕ) e0 e, (lowest :: es)[i]? = some e0 → es[i]? = some e →
      (groupValues points f lowest es)[i]? = some (groupValue points f e0 e) := by
  induction es generalizing lowest with
  | nil => simp [groupValues]
  | cons a es ih =>
    obtain ⟨i1, i2⟩ := ih a
    refine ⟨by simp [groupValues, i1], ?_⟩
    intro i e0 e h0 h1
    cases i with
    | zero =>
      simp only [List.getElem?_cons_zero, Option.some.injEq] at h0 h1
      subst h0 h1
      rfl
    | succ i =>
      simp only [List.getElem?_cons_succ] at h0 h1
      simp only [groupValues, List.getElem?_cons_succ]
      exact i2 i e0 e h0 h1

omit [IsStrictOrderedRing K] in
/-- **C121 (no value).** When the structure begins at the lowest energy of the table - the usual case of 1e-5 eV -, the
first value is a division by zero. -/
theorem group_first_nan (points : K → K → List K) (f : K → K) (lowest : K) (es : List K) :
    (groupValues points f lowest (lowest :: es))[0]? = some none := by
  simp [groupValues, groupValue]

end groups

/-! ### examples -/

/-- cross sections 10 and 20 of two nuclides (example) -/
def exLoad (n : Str) : Except PyErr (List ℚ) :=
  if n = "1001".toList then .ok [10] else if n = "8016".toList then .ok [20] else .error .keyError

/-- two parts of the first, one of the second: 40/3 is expected, 50/3 is computed -/
example : (mixture exLoad (fun t _ => t) [false] [⟨"1001".toList, 2/3⟩, ⟨"8016".toList, 1/3⟩]).toOption.map
    (fun rs => rs.map (fun r => r 0)) = some [50/3] := by decide +kernel

example : chooseT (5875/20) [250, 294, 600] = .ok 294 ∧ chooseT (500) [250, 294, 600] = .ok 600 := by decide +kernel

example : Rising (1 : ℚ) 4 [1, 2, 4] := .cons (by norm_num) (.cons (by norm_num) (.one 4))

example : groupValue (fun a b : ℚ => [a, (a + b) / 2, b]) (fun x => x) 1 3 = some 2 := by decide +kernel

/-- fission with prompt and delayed neutrons and no total (example) -/
def exNuclide : Nuclide ℚ := ⟨[(2, ⟨fun _ => 5, []⟩), (18, ⟨fun x => x, [⟨true, false, fun _ => 2⟩, ⟨false, true, fun _ => 7⟩, ⟨true, false, fun _ => 1⟩]⟩)], 1/10⟩

example : xsAt exNuclide true [18] 4 = .ok 12 ∧ xsAt exNuclide false [2, 18, 102] 4 = .ok 9 ∧
    xsAt exNuclide false [2, -2] 4 = .ok (1/2) := by decide +kernel

end F4Enix.Ace
