import Verif.Inp.ExtractProps
import Verif.Inp.SelfContained

/-!
C11, C12: the extraction ends already if no cell *among those the requested cells need* needs itself
through other cells; cycles elsewhere in the model do not matter.
-/

namespace F4Enix.Inp

open Relation

/-- None of the cells that the requested cells need, directly or not, needs itself through other cells. (specification) -/
def AcyclicFrom (cells : Dict Str Card) (fillers : Bool) (req : List ℤ) : Prop :=
  ∀ a b, Closure cells fillers req a → a ≠ b → Needs cells fillers a b →
    ¬ ReflTransGen (Needs cells fillers) b a

theorem chain_nodup_from (cells : Dict Str Card) (fillers : Bool) (req : List ℤ)
    (hac : AcyclicFrom cells fillers req) (l : List ℤ) (h : ChainOk cells fillers l)
    (hr : ∀ x ∈ l, Closure cells fillers req x) : l.Nodup := by
  induction l with
  | nil => simp
  | cons b l ih =>
    cases l with
    | nil => simp
    | cons a l =>
      obtain ⟨h1, h2, h3⟩ := h
      rw [List.nodup_cons]
      refine ⟨?_, ih h3 (fun x hx => hr x (List.mem_cons_of_mem _ hx))⟩
      intro hb
      exact hac a b (hr a (by simp)) h1 h2 (chain_reach cells fillers a l h3 b hb)

theorem chain_length_from (cells : Dict Str Card) (fillers : Bool) (req : List ℤ)
    (hac : AcyclicFrom cells fillers req) (b : ℤ) (l : List ℤ) (h : ChainOk cells fillers (b :: l))
    (hr : ∀ x ∈ b :: l, Closure cells fillers req x) : l.length ≤ cells.length := by
  have h1 := (List.nodup_cons.mp (chain_nodup_from cells fillers req hac _ h hr)).2
  have h2 := chain_present cells fillers b l h
  have h3 : (l.map intStr).Nodup := h1.map (fun _ _ h => intStr_inj h)
  have h4 : (l.map intStr).Subperm cells.keys := List.subperm_of_subset h3 (by
    intro x hx
    obtain ⟨y, hy, rfl⟩ := List.mem_map.mp hx
    exact h2 y hy)
  have := h4.length_le
  simpa [Dict.keys] using this

theorem collectLoop_terminates_from (cells : Dict Str Card) (fillers : Bool) (req : List ℤ)
    (hac : AcyclicFrom cells fillers req) (fuel n : Nat) (cset fr : List ℤ)
    (hch : ∀ b ∈ fr, ∃ l : List ℤ, l.length = n ∧ ChainOk cells fillers (b :: l) ∧
      ∀ x ∈ b :: l, Closure cells fillers req x)
    (hf : cells.length < fuel + n) (h0 : fr ≠ [] ∨ 0 < fuel) :
    collectLoop cells fillers fuel cset fr ≠ .error .diverges := by
  induction fuel generalizing n cset fr with
  | zero =>
    exfalso
    rcases h0 with h0 | h0
    · obtain ⟨b, hb⟩ := List.exists_mem_of_ne_nil fr h0
      obtain ⟨l, hl, hc, hr⟩ := hch b hb
      have := chain_length_from cells fillers req hac b l hc hr
      omega
    · omega
  | succ fuel ih =>
    rcases collectLoop_step cells fillers fuel cset fr with ⟨he, _⟩ | ⟨hp, next, hnext, hcase⟩
    · rw [he]; simp
    · rcases hcase with ⟨_, heq⟩ | ⟨hne, heq⟩
      · rw [heq]; simp
      · rw [heq]
        refine ih (n + 1) _ next ?_ (by omega) (Or.inl hne)
        intro b hb
        obtain ⟨⟨a, ha, hn⟩, hbf⟩ := (hnext b).mp hb
        obtain ⟨l, hl, hc, hr⟩ := hch a ha
        refine ⟨a :: l, by simp [hl], ⟨fun e => hbf (e ▸ ha), hn, hc⟩, ?_⟩
        intro x hx
        rcases List.mem_cons.mp hx with rfl | hx
        · obtain ⟨r, hr1, hr2⟩ := hr a (by simp)
          exact ⟨r, hr1, hr2.tail hn⟩
        · exact hr x hx

/-- **C11** (the part that is true). If none of the cells that the requested ones need, directly or
not, needs itself through other cells, the collection ends, after at most one pass more than there are
cells. Cycles in the rest of the model do not matter. Missing: requests that reach a cycle, for which
the claim is false (`c11_diverges`). -/
theorem c11_terminates_from_partial (cells : Dict Str Card) (fillers : Bool) (req : List ℤ)
    (hac : AcyclicFrom cells fillers req) (fuel : Nat) (hf : cells.length < fuel) :
    collectLoop cells fillers fuel req.dedup req.dedup ≠ .error .diverges :=
  collectLoop_terminates_from cells fillers req hac fuel 0 _ _
    (fun b hb => ⟨[], rfl, trivial, fun x hx => by
      rcases List.mem_singleton.mp hx with rfl
      exact ⟨x, by simpa using hb, .refl⟩⟩) (by omega) (Or.inr (by omega))

/-- **C11**: a collection that does not end, however long it runs, has met a cycle: one of the cells it
needs needs itself through another cell. -/
theorem c11_diverges_only_cycle (cells : Dict Str Card) (fillers : Bool) (req : List ℤ)
    (h : ∀ fuel, collectLoop cells fillers fuel req.dedup req.dedup = .error .diverges) :
    ∃ a b, Closure cells fillers req a ∧ a ≠ b ∧ Needs cells fillers a b ∧
      ReflTransGen (Needs cells fillers) b a := by
  by_contra hn
  push Not at hn
  exact c11_terminates_from_partial cells fillers req
    (fun a b h1 h2 h3 h4 => hn a b h1 h2 h3 h4) (cells.length + 1) (by omega) (h _)

/-- **C12** (success). If every needed cell, surface and material exists and no needed cell needs itself
through others, the extraction succeeds. -/
theorem c12_succeeds_from (m : Deck) (req : List ℤ) (keep fillers : Bool) (fuel : Nat)
    (hac : AcyclicFrom m.cells fillers req) (hf : m.cells.length < fuel)
    (hcell : ∀ n, Closure m.cells fillers req n → ∃ c, m.cells.get? (intStr n) = some c ∧ c.values ≠ [])
    (hsurf : ∀ n c v, Closure m.cells fillers req n → m.cells.get? (intStr n) = some c →
      (v, Kind.sur) ∈ c.values → ∃ key card, SurfCard m.surfs v key card)
    (hmat : ∀ n c v, Closure m.cells fillers req n → m.cells.get? (intStr n) = some c →
      (v, Kind.mat) ∈ c.values → v ≠ 0 → ∃ mat, m.materials.byName ('M' :: intStr v) = .ok mat) :
    ∃ r, extraction m req keep fillers fuel = .ok r :=
  c12_succeeds_of_ends m req keep fillers fuel
    (c11_terminates_from_partial m.cells fillers req hac fuel hf) hcell hsurf hmat

/-- cells 1 and 2 complement each other, cell 3 complements cell 4 (example) -/
def halfLoop : Dict Str Card :=
  [("1".toList, mkCell 1 0 none [5] [2] none none), ("2".toList, mkCell 2 0 none [6] [1] none none),
   ("3".toList, mkCell 3 0 none [5] [4] none none), ("4".toList, mkCell 4 0 none [6] [] none none)]

/-- the hypothesis of `c11_terminates_from_partial` is met by a model with a cycle elsewhere -/
example : AcyclicFrom halfLoop true [3] ∧ ¬ Acyclic halfLoop true := by
  have key : ∀ a b, Needs halfLoop true a b →
      (a = 1 ∧ b = 2) ∨ (a = 2 ∧ b = 1) ∨ (a = 3 ∧ b = 4) := by
    rintro a b ⟨c, hc, h⟩
    have hm := Dict.mem_of_get? hc
    have inj : ∀ n : ℤ, intStr a = intStr n → a = n := fun n h => intStr_inj h
    simp only [halfLoop, List.mem_cons, Prod.mk.injEq, List.mem_nil_iff, or_false] at hm
    rcases hm with ⟨h1, rfl⟩ | ⟨h1, rfl⟩ | ⟨h1, rfl⟩ | ⟨h1, rfl⟩
    · have := inj 1 h1
      simp [mkCell, Card.fill, first] at h
      omega
    · have := inj 2 h1
      simp [mkCell, Card.fill, first] at h
      omega
    · have := inj 3 h1
      simp [mkCell, Card.fill, first] at h
      omega
    · have := inj 4 h1
      simp [mkCell, Card.fill, first] at h
  have c3 : ∀ a, Closure halfLoop true [3] a → a = 3 ∨ a = 4 := by
    rintro a ⟨r, hr, h⟩
    rcases List.mem_singleton.mp hr with rfl
    induction h with
    | refl => exact Or.inl rfl
    | tail _ hn ih => rcases key _ _ hn with h | h | h <;> omega
  constructor
  · intro a b ha hne hn hback
    have hb : ∀ x, ReflTransGen (Needs halfLoop true) 4 x → x = 4 := by
      intro x hx
      induction hx with
      | refl => rfl
      | tail _ hn ih => rcases key _ _ hn with h | h | h <;> omega
    rcases key _ _ hn with ⟨rfl, rfl⟩ | ⟨rfl, rfl⟩ | ⟨rfl, rfl⟩
    · have := c3 _ ha; omega
    · have := c3 _ ha; omega
    · have := hb _ hback; omega
  · intro h
    have n12 : Needs halfLoop true 1 2 := by
      simp [Needs, halfLoop, mkCell, Dict.get?, intStr, natStr, natStrFuel, digitChar, Card.fill, first]
    have n21 : Needs halfLoop true 2 1 := by
      simp [Needs, halfLoop, mkCell, Dict.get?, intStr, natStr, natStrFuel, digitChar, Card.fill, first]
    exact h 1 2 (by decide) n12 (.single n21)

/-- requesting both cells of a two-cell cycle together does end: the frontier is taken out of what is
needed next -/
example : collectLoop halfLoop true 5 [1, 2] [1, 2] = .ok [1, 2] ∧
    collectLoop halfLoop true 5 [3] [3] = .ok [3, 4] := by decide +kernel

end F4Enix.Inp
