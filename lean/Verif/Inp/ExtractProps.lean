import Verif.Inp.Spec
import Verif.Base.TextLemmas
import Mathlib.Data.List.Dedup
import Mathlib.Data.List.Perm.Subperm
/-!
# Cell extraction: C10, C11
-/
namespace F4Enix.Inp
open F4Enix Relation

theorem intStr_inj {a b : ℤ} (h : intStr a = intStr b) : a = b := by
  have := congrArg parseInt h
  simpa [parseInt_intStr] using this

theorem mem_refs (c : Card) (b : ℤ) : b ∈ c.refs ↔ (b, Kind.cel) ∈ c.values.tail := by
  unfold Card.refs
  rw [List.drop_one]
  simp only [List.mem_filterMap]
  constructor
  · rintro ⟨⟨v, k⟩, h1, h2⟩
    by_cases hk : k = Kind.cel
    · subst hk; simp at h2; subst h2; exact h1
    · simp [hk] at h2
  · intro h; exact ⟨_, h, by simp⟩

theorem cellsOfUniverses_mem (uni : List ℤ) (cells : Dict Str Card) (ns : List ℤ)
    (h : cellsOfUniverses uni cells = .ok ns) (b : ℤ) :
    b ∈ ns ↔ ∃ k c u, (k, c) ∈ cells ∧ c.univ = some u ∧ u ∈ uni ∧
      (c.values.head?).map Prod.fst = some b := by
  induction cells generalizing ns with
  | nil => simp [cellsOfUniverses] at h; subst h; simp
  | cons kc r ih =>
    obtain ⟨k, c⟩ := kc
    unfold cellsOfUniverses at h
    cases hu : c.univ with
    | none =>
      simp only [hu] at h
      rw [ih ns h]
      constructor
      · rintro ⟨k', c', u, h1, h2⟩; exact ⟨k', c', u, List.mem_cons_of_mem _ h1, h2⟩
      · rintro ⟨k', c', u, h1, h2, h3⟩
        rcases List.mem_cons.mp h1 with e | h1
        · cases e; rw [hu] at h2; simp at h2
        · exact ⟨k', c', u, h1, h2, h3⟩
    | some u =>
      simp only [hu] at h
      by_cases hm : u ∈ uni
      · rw [if_pos hm] at h
        cases hn : c.num with
        | error e => simp [hn] at h
        | ok n =>
          simp only [hn] at h
          cases hr : cellsOfUniverses uni r with
          | error e => simp [hr] at h
          | ok ns' =>
            simp only [hr, Except.ok.injEq] at h
            subst h
            have hnum : (c.values.head?).map Prod.fst = some n := by
              unfold Card.num at hn
              cases hv : c.values with
              | nil => simp [hv] at hn
              | cons v vs => simp [hv] at hn; simp [hn]
            rw [List.mem_cons, ih ns' hr]
            constructor
            · rintro (rfl | ⟨k', c', u', h1, h2⟩)
              · exact ⟨k, c, u, by simp, hu, hm, hnum⟩
              · exact ⟨k', c', u', List.mem_cons_of_mem _ h1, h2⟩
            · rintro ⟨k', c', u', h1, h2, h3, h4⟩
              rcases List.mem_cons.mp h1 with e | h1
              · cases e; rw [hnum] at h4; left; exact (Option.some.inj h4).symm
              · exact Or.inr ⟨k', c', u', h1, h2, h3, h4⟩
      · rw [if_neg hm] at h
        rw [ih ns h]
        constructor
        · rintro ⟨k', c', u, h1, h2⟩; exact ⟨k', c', u, List.mem_cons_of_mem _ h1, h2⟩
        · rintro ⟨k', c', u', h1, h2, h3, h4⟩
          rcases List.mem_cons.mp h1 with e | h1
          · cases e; rw [hu] at h2; cases h2; exact absurd h3 hm
          · exact ⟨k', c', u', h1, h2, h3, h4⟩

/-- the universe scan never raises: a card with a universe has values -/
theorem cellsOfUniverses_ok (uni : List ℤ) (cells : Dict Str Card) :
    ∃ ns, cellsOfUniverses uni cells = .ok ns := by
  induction cells with
  | nil => exact ⟨[], rfl⟩
  | cons kc r ih =>
    obtain ⟨k, c⟩ := kc
    obtain ⟨ns, h⟩ := ih
    unfold cellsOfUniverses
    cases hu : c.univ with
    | none => exact ⟨ns, by simp only [h]⟩
    | some u =>
      have : ∃ n, c.num = .ok n := by
        unfold Card.num
        cases hv : c.values with
        | nil => simp [Card.univ, hv, first] at hu
        | cons v vs => exact ⟨v.1, rfl⟩
      obtain ⟨n, hn⟩ := this
      by_cases hm : u ∈ uni
      · exact ⟨n :: ns, by simp only [if_pos hm, hn, h]⟩
      · exact ⟨ns, by simp only [if_neg hm, h]⟩

theorem scanFrontier_spec (cells : Dict Str Card) (fillers : Bool) (fr new uni : List ℤ)
    (h : scanFrontier cells fillers fr = .ok (new, uni)) :
    (∀ a ∈ fr, ∃ c, cells.get? (intStr a) = some c) ∧
    (∀ b, b ∈ new ↔ ∃ a ∈ fr, ∃ c, cells.get? (intStr a) = some c ∧ (b, Kind.cel) ∈ c.values.tail) ∧
    (∀ f, f ∈ uni ↔ fillers = true ∧ ∃ a ∈ fr, ∃ c, cells.get? (intStr a) = some c ∧ c.fill = some f) := by
  induction fr generalizing new uni with
  | nil => simp [scanFrontier] at h; obtain ⟨rfl, rfl⟩ := h; simp
  | cons n ns ih =>
    unfold scanFrontier at h
    cases hc : cells.get? (intStr n) with
    | none => simp [hc] at h
    | some c =>
      simp only [hc] at h
      cases hs : scanFrontier cells fillers ns with
      | error e => simp [hs] at h
      | ok nu =>
        obtain ⟨new', uni'⟩ := nu
        simp only [hs, Except.ok.injEq, Prod.mk.injEq] at h
        obtain ⟨h1, h2⟩ := h
        obtain ⟨i1, i2, i3⟩ := ih new' uni' hs
        refine ⟨?_, ?_, ?_⟩
        · intro a ha
          rcases List.mem_cons.mp ha with rfl | ha
          · exact ⟨c, hc⟩
          · exact i1 a ha
        · intro b
          rw [← h1, List.mem_append, mem_refs, i2]
          constructor
          · rintro (hb | ⟨a, ha, h⟩)
            · exact ⟨n, by simp, c, hc, hb⟩
            · exact ⟨a, List.mem_cons_of_mem _ ha, h⟩
          · rintro ⟨a, ha, c', hc', hb⟩
            rcases List.mem_cons.mp ha with rfl | ha
            · rw [hc] at hc'; cases hc'; exact Or.inl hb
            · exact Or.inr ⟨a, ha, c', hc', hb⟩
        · intro f
          rw [← h2]
          cases fillers with
          | false => simp at i3; simp [i3]
          | true =>
            have key : f ∈ (match c.fill with | none => uni' | some f => f :: uni') ↔
                c.fill = some f ∨ f ∈ uni' := by
              cases hf : c.fill with
              | none => simp
              | some g => simp [eq_comm]
            simp only [if_true]
            refine key.trans ?_
            rw [i3]
            constructor
            · rintro (hb | ⟨_, a, ha, h⟩)
              · exact ⟨trivial, n, by simp, c, hc, hb⟩
              · exact ⟨trivial, a, List.mem_cons_of_mem _ ha, h⟩
            · rintro ⟨_, a, ha, c', hc', hb⟩
              rcases List.mem_cons.mp ha with rfl | ha
              · rw [hc] at hc'; cases hc'; exact Or.inl hb
              · exact Or.inr ⟨rfl, a, ha, c', hc', hb⟩

theorem scanFrontier_ok (cells : Dict Str Card) (fillers : Bool) (fr : List ℤ)
    (h : ∀ a ∈ fr, ∃ c, cells.get? (intStr a) = some c) :
    ∃ nu, scanFrontier cells fillers fr = .ok nu := by
  induction fr with
  | nil => exact ⟨_, rfl⟩
  | cons n ns ih =>
    obtain ⟨c, hc⟩ := h n (by simp)
    obtain ⟨⟨new, uni⟩, hs⟩ := ih (fun a ha => h a (List.mem_cons_of_mem _ ha))
    unfold scanFrontier
    simp only [hc, hs]
    exact ⟨_, rfl⟩

theorem scanFrontier_error (cells : Dict Str Card) (fillers : Bool) (fr : List ℤ) (e : PyErr)
    (h : scanFrontier cells fillers fr = .error e) :
    e = .keyError ∧ ∃ a ∈ fr, cells.get? (intStr a) = none := by
  induction fr with
  | nil => simp [scanFrontier] at h
  | cons n ns ih =>
    unfold scanFrontier at h
    cases hc : cells.get? (intStr n) with
    | none => simp [hc] at h; exact ⟨h.symm, n, by simp, hc⟩
    | some c =>
      simp only [hc] at h
      cases hs : scanFrontier cells fillers ns with
      | error e' =>
        simp [hs] at h; subst h
        obtain ⟨h1, a, ha, h2⟩ := ih hs
        exact ⟨h1, a, List.mem_cons_of_mem _ ha, h2⟩
      | ok nu => simp [hs] at h

/-- One pass of the loop: either a frontier cell is missing, or the next frontier is exactly what
the frontier needs and does not contain, and the loop stops or goes on with it. -/
theorem collectLoop_step (cells : Dict Str Card) (fillers : Bool) (fuel : Nat) (cset fr : List ℤ) :
    (collectLoop cells fillers (fuel + 1) cset fr = .error .keyError ∧
      ∃ a ∈ fr, cells.get? (intStr a) = none) ∨
    ((∀ a ∈ fr, ∃ c, cells.get? (intStr a) = some c) ∧
      ∃ next : List ℤ, (∀ b, b ∈ next ↔ (∃ a ∈ fr, Needs cells fillers a b) ∧ b ∉ fr) ∧
      ((next = [] ∧ collectLoop cells fillers (fuel + 1) cset fr = .ok cset) ∨
       (next ≠ [] ∧ collectLoop cells fillers (fuel + 1) cset fr =
          collectLoop cells fillers fuel ((cset ++ next).dedup) next))) := by
  cases hs : scanFrontier cells fillers fr with
  | error e =>
    left
    obtain ⟨rfl, h⟩ := scanFrontier_error cells fillers fr e hs
    exact ⟨by simp only [collectLoop, hs], h⟩
  | ok nu =>
    obtain ⟨new, uni⟩ := nu
    obtain ⟨s1, s2, s3⟩ := scanFrontier_spec cells fillers fr new uni hs
    right
    refine ⟨s1, ?_⟩
    obtain ⟨inUni, hu⟩ : ∃ l, (if fillers then cellsOfUniverses uni cells else .ok []) = .ok l := by
      cases fillers with
      | false => exact ⟨[], rfl⟩
      | true => simpa using cellsOfUniverses_ok uni cells
    have hmem : ∀ b, b ∈ new ++ inUni ↔ ∃ a ∈ fr, Needs cells fillers a b := by
      intro b
      rw [List.mem_append, s2]
      have hin : b ∈ inUni ↔ fillers = true ∧ ∃ k c u, (k, c) ∈ cells ∧ c.univ = some u ∧ u ∈ uni ∧
          (c.values.head?).map Prod.fst = some b := by
        cases fillers with
        | false => simp at hu; simp [hu]
        | true => simp only [if_true] at hu; simpa using cellsOfUniverses_mem uni cells inUni hu b
      rw [hin]
      constructor
      · rintro (⟨a, ha, c, hc, hb⟩ | ⟨hf, k, c', u, h1, h2, h3, h4⟩)
        · exact ⟨a, ha, c, hc, Or.inl hb⟩
        · obtain ⟨_, a, ha, c, hc, hfill⟩ := (s3 u).mp h3
          exact ⟨a, ha, c, hc, Or.inr ⟨hf, u, k, c', hfill, h1, h2, h4⟩⟩
      · rintro ⟨a, ha, c, hc, hb | ⟨hf, f, k, c', h1, h2, h3, h4⟩⟩
        · exact Or.inl ⟨a, ha, c, hc, hb⟩
        · exact Or.inr ⟨hf, k, c', f, h2, h3, (s3 f).mpr ⟨hf, a, ha, c, hc, h1⟩, h4⟩
    refine ⟨((new ++ inUni).filter (fun n => n ∉ fr)).dedup, ?_, ?_⟩
    · intro b
      rw [List.mem_dedup, List.mem_filter, hmem]
      simp
    · by_cases hn : ((new ++ inUni).filter (fun n => n ∉ fr)).dedup = []
      · left
        exact ⟨hn, by simp only [collectLoop, hs, hu, hn, if_true]⟩
      · right
        exact ⟨hn, by simp only [collectLoop, hs, hu, if_neg hn]⟩

/-- what the loop returns, from any intermediate state -/
theorem collectLoop_spec (cells : Dict Str Card) (fillers : Bool) (req : List ℤ) (fuel : Nat)
    (cset fr res : List ℤ)
    (hsub : ∀ a ∈ fr, a ∈ cset)
    (hreq : ∀ a ∈ req, a ∈ cset)
    (hreach : ∀ b ∈ cset, Closure cells fillers req b)
    (hclosed : ∀ a ∈ cset, a ∉ fr → ∀ b, Needs cells fillers a b → b ∈ cset)
    (hpres : ∀ a ∈ cset, a ∉ fr → ∃ c, cells.get? (intStr a) = some c)
    (h : collectLoop cells fillers fuel cset fr = .ok res) :
    (∀ b, b ∈ res ↔ Closure cells fillers req b) ∧ (cset.Nodup → res.Nodup) ∧
    (∀ b ∈ res, ∃ c, cells.get? (intStr b) = some c) := by
  induction fuel generalizing cset fr with
  | zero => simp [collectLoop] at h
  | succ fuel ih =>
    rcases collectLoop_step cells fillers fuel cset fr with ⟨he, _⟩ | ⟨hp, next, hnext, hcase⟩
    · rw [he] at h; simp at h
    · rcases hcase with ⟨hnil, heq⟩ | ⟨_, heq⟩
      · rw [heq, Except.ok.injEq] at h
        subst h
        have closed : ∀ a ∈ cset, ∀ b, Needs cells fillers a b → b ∈ cset := by
          intro a ha b hb
          by_cases hf : a ∈ fr
          · by_cases hbf : b ∈ fr
            · exact hsub b hbf
            · have := (hnext b).mpr ⟨⟨a, hf, hb⟩, hbf⟩
              rw [hnil] at this; simp at this
          · exact hclosed a ha hf b hb
        refine ⟨fun b => ⟨hreach b, ?_⟩, id, ?_⟩
        · rintro ⟨a, ha, hr⟩
          induction hr with
          | refl => exact hreq a ha
          | tail _ hb ih => exact closed _ ih _ hb
        · intro b hb
          by_cases hf : b ∈ fr
          · exact hp b hf
          · exact hpres b hb hf
      · rw [heq] at h
        have := ih ((cset ++ next).dedup) next ?_ ?_ ?_ ?_ ?_ h
        · exact ⟨this.1, fun _ => this.2.1 (List.nodup_dedup _), this.2.2⟩
        · intro a ha; simp [ha]
        · intro a ha; simp [hreq a ha]
        · intro b hb
          rw [List.mem_dedup, List.mem_append] at hb
          rcases hb with hb | hb
          · exact hreach b hb
          · obtain ⟨⟨a, ha, hn⟩, _⟩ := (hnext b).mp hb
            obtain ⟨r, hr, hra⟩ := hreach a (hsub a ha)
            exact ⟨r, hr, hra.tail hn⟩
        · intro a ha hna b hb
          rw [List.mem_dedup, List.mem_append] at ha ⊢
          rcases ha with ha | ha
          · by_cases hf : a ∈ fr
            · by_cases hbf : b ∈ fr
              · exact Or.inl (hsub b hbf)
              · exact Or.inr ((hnext b).mpr ⟨⟨a, hf, hb⟩, hbf⟩)
            · exact Or.inl (hclosed a ha hf b hb)
          · exact absurd ha hna
        · intro a ha hna
          rw [List.mem_dedup, List.mem_append] at ha
          rcases ha with ha | ha
          · by_cases hf : a ∈ fr
            · exact hp a hf
            · exact hpres a ha hf
          · exact absurd ha hna

/-- **C10**. When the collection ends, the collected set is exactly the set of the requested cells
and of everything they need, directly or not; each is collected once and exists in the model. -/
theorem c10_closure (cells : Dict Str Card) (fillers : Bool) (req res : List ℤ) (fuel : Nat)
    (h : collectLoop cells fillers fuel req.dedup req.dedup = .ok res) :
    (∀ b, b ∈ res ↔ Closure cells fillers req b) ∧ res.Nodup ∧
    (∀ b ∈ res, ∃ c, cells.get? (intStr b) = some c) := by
  have := collectLoop_spec cells fillers req fuel req.dedup req.dedup res (fun _ h => h)
    (by simp) (fun b hb => ⟨b, by simpa using hb, .refl⟩)
    (fun a ha hna => absurd ha hna) (fun a ha hna => absurd ha hna) h
  exact ⟨this.1, this.2.1 (List.nodup_dedup _), this.2.2⟩

theorem collectLoop_error (cells : Dict Str Card) (fillers : Bool) (req : List ℤ) (fuel : Nat)
    (cset fr : List ℤ) (e : PyErr)
    (hreach : ∀ b ∈ fr, Closure cells fillers req b)
    (h : collectLoop cells fillers fuel cset fr = .error e) :
    e = .diverges ∨ (e = .keyError ∧ ∃ b, Closure cells fillers req b ∧ cells.get? (intStr b) = none) := by
  induction fuel generalizing cset fr with
  | zero => simp [collectLoop] at h; exact Or.inl h.symm
  | succ fuel ih =>
    rcases collectLoop_step cells fillers fuel cset fr with ⟨he, a, ha, hn⟩ | ⟨hp, next, hnext, hcase⟩
    · rw [he] at h; simp at h
      exact Or.inr ⟨h.symm, a, hreach a ha, hn⟩
    · rcases hcase with ⟨_, heq⟩ | ⟨_, heq⟩
      · rw [heq] at h; simp at h
      · rw [heq] at h
        refine ih _ next ?_ h
        intro b hb
        obtain ⟨⟨a, ha, hn⟩, _⟩ := (hnext b).mp hb
        obtain ⟨r, hr, hra⟩ := hreach a ha
        exact ⟨r, hr, hra.tail hn⟩

/-- **C10** (refusals). The collection is refused only with `KeyError`, and only if a needed cell does
not exist. -/
theorem c10_refused (cells : Dict Str Card) (fillers : Bool) (req : List ℤ) (fuel : Nat) (e : PyErr)
    (h : collectLoop cells fillers fuel req.dedup req.dedup = .error e) (hd : e ≠ .diverges) :
    e = .keyError ∧ ∃ b, Closure cells fillers req b ∧ cells.get? (intStr b) = none := by
  rcases collectLoop_error cells fillers req fuel _ _ e (fun b hb => ⟨b, by simpa using hb, .refl⟩) h
    with h' | h'
  · exact absurd h' hd
  · exact h'

/-! ### C11 -/

/-- chains of distinct cells, each needing the one before it in the list (proof) -/
def ChainOk (cells : Dict Str Card) (fillers : Bool) : List ℤ → Prop
  | [] => True
  | [_] => True
  | b :: a :: l => a ≠ b ∧ Needs cells fillers a b ∧ ChainOk cells fillers (a :: l)

theorem chain_reach (cells : Dict Str Card) (fillers : Bool) (b : ℤ) (l : List ℤ)
    (h : ChainOk cells fillers (b :: l)) : ∀ x ∈ b :: l, ReflTransGen (Needs cells fillers) x b := by
  induction l generalizing b with
  | nil => intro x hx; simp at hx; subst hx; exact .refl
  | cons a l ih =>
    obtain ⟨_, h2, h3⟩ := h
    intro x hx
    rcases List.mem_cons.mp hx with rfl | hx
    · exact .refl
    · exact (ih a h3 x hx).tail h2

theorem chain_nodup (cells : Dict Str Card) (fillers : Bool) (hac : Acyclic cells fillers) (l : List ℤ)
    (h : ChainOk cells fillers l) : l.Nodup := by
  induction l with
  | nil => simp
  | cons b l ih =>
    cases l with
    | nil => simp
    | cons a l =>
      obtain ⟨h1, h2, h3⟩ := h
      rw [List.nodup_cons]
      refine ⟨?_, ih h3⟩
      intro hb
      exact hac a b h1 h2 (chain_reach cells fillers a l h3 b hb)

theorem chain_present (cells : Dict Str Card) (fillers : Bool) (b : ℤ) (l : List ℤ)
    (h : ChainOk cells fillers (b :: l)) : ∀ x ∈ l, intStr x ∈ cells.keys := by
  induction l generalizing b with
  | nil => simp
  | cons a l ih =>
    obtain ⟨_, ⟨c, hc, _⟩, h3⟩ := h
    intro x hx
    rcases List.mem_cons.mp hx with rfl | hx
    · by_contra hk
      rw [← Dict.get?_eq_none_iff] at hk
      rw [hk] at hc; simp at hc
    · exact ih a h3 x hx

theorem chain_length (cells : Dict Str Card) (fillers : Bool) (hac : Acyclic cells fillers) (b : ℤ)
    (l : List ℤ) (h : ChainOk cells fillers (b :: l)) : l.length ≤ cells.length := by
  have h1 := (List.nodup_cons.mp (chain_nodup cells fillers hac _ h)).2
  have h2 := chain_present cells fillers b l h
  have h3 : (l.map intStr).Nodup := h1.map (fun _ _ h => intStr_inj h)
  have h4 : (l.map intStr).Subperm cells.keys := List.subperm_of_subset h3 (by
    intro x hx
    obtain ⟨y, hy, rfl⟩ := List.mem_map.mp hx
    exact h2 y hy)
  have := h4.length_le
  simpa [Dict.keys] using this

theorem collectLoop_terminates (cells : Dict Str Card) (fillers : Bool) (hac : Acyclic cells fillers)
    (fuel n : Nat) (cset fr : List ℤ)
    (hch : ∀ b ∈ fr, ∃ l : List ℤ, l.length = n ∧ ChainOk cells fillers (b :: l))
    (hf : cells.length < fuel + n) (h0 : fr ≠ [] ∨ 0 < fuel) :
    collectLoop cells fillers fuel cset fr ≠ .error .diverges := by
  induction fuel generalizing n cset fr with
  | zero =>
    exfalso
    rcases h0 with h0 | h0
    · obtain ⟨b, hb⟩ := List.exists_mem_of_ne_nil fr h0
      obtain ⟨l, hl, hc⟩ := hch b hb
      have := chain_length cells fillers hac b l hc
      omega
    · omega
  | succ fuel ih =>
    rcases collectLoop_step cells fillers fuel cset fr with ⟨he, _⟩ | ⟨hp, next, hnext, hcase⟩
    · rw [he]; simp
    · rcases hcase with ⟨_, heq⟩ | ⟨hne, heq⟩
      · rw [heq]; simp
      · rw [heq]
        refine ih (n + 1) _ next ?_ (by omega) (Or.inl hne)
        intro b hb
        obtain ⟨⟨a, ha, hn⟩, hbf⟩ := (hnext b).mp hb
        obtain ⟨l, hl, hc⟩ := hch a ha
        exact ⟨a :: l, by simp [hl], fun e => hbf (e ▸ ha), hn, hc⟩

/-- **C11** (the part that is true). If no cell needs itself through other cells, the collection loop
ends, after at most one pass more than there are cells. -/
theorem c11_terminates_partial (cells : Dict Str Card) (fillers : Bool) (hac : Acyclic cells fillers)
    (req : List ℤ) (fuel : Nat) (hf : cells.length < fuel) :
    collectLoop cells fillers fuel req.dedup req.dedup ≠ .error .diverges :=
  collectLoop_terminates cells fillers hac fuel 0 _ _ (fun _ _ => ⟨[], rfl, trivial⟩) (by omega)
    (Or.inr (by omega))

/-- **C11** (the part that is false). On every model in which the requested cell starts a sequence of
cells that never ends, each needing just the next one and differing from it, the loop does not end,
however many passes are allowed. -/
theorem c11_diverges (cells : Dict Str Card) (fillers : Bool) (s : ℕ → ℤ)
    (hs : ∀ i b, Needs cells fillers (s i) b ↔ b = s (i + 1)) (hne : ∀ i, s (i + 1) ≠ s i) (fuel : Nat) :
    collectLoop cells fillers fuel [s 0] [s 0] = .error .diverges := by
  suffices H : ∀ fuel i cset fr, (∀ b, b ∈ fr ↔ b = s i) →
      collectLoop cells fillers fuel cset fr = .error .diverges from H fuel 0 _ _ (by simp)
  intro fuel
  induction fuel with
  | zero => intro i cset fr _; rfl
  | succ fuel ih =>
    intro i cset fr hfr
    rcases collectLoop_step cells fillers fuel cset fr with ⟨_, a, ha, hn⟩ | ⟨hp, next, hnext, hcase⟩
    · exfalso
      rw [hfr] at ha; subst ha
      obtain ⟨c, hc, _⟩ := (hs i (s (i + 1))).mpr rfl
      rw [hc] at hn; simp at hn
    · have hmem : ∀ b, b ∈ next ↔ b = s (i + 1) := by
        intro b
        rw [hnext, hfr]
        constructor
        · rintro ⟨⟨a, ha, hab⟩, _⟩
          rw [hfr] at ha; subst ha
          exact (hs i b).mp hab
        · rintro rfl
          exact ⟨⟨s i, (hfr _).mpr rfl, (hs i _).mpr rfl⟩, hne i⟩
      rcases hcase with ⟨hnil, _⟩ | ⟨_, heq⟩
      · have := (hmem (s (i + 1))).mpr rfl
        rw [hnil] at this; simp at this
      · rw [heq]
        exact ih (i + 1) _ next hmem

/-! ### concrete models -/

/-- a cell card: number, material, references to surfaces, complements, universe, filling (specification) -/
def mkCell (n mat : ℤ) (dens : Option Str) (surs comps : List ℤ) (u f : Option ℤ) : Card where
  name := n
  pre := []
  post := []
  numbered := true
  values := (n, .cel) :: (mat, .mat) :: (surs.map (fun x => (x, Kind.sur)) ++
    comps.map (fun x => (x, Kind.cel)) ++ (u.toList.map (fun x => (x, Kind.u))) ++
    (f.toList.map (fun x => (x, Kind.fill))))
  dens := dens

/-- 1 needs 2 (complement) and, being filled with universe 7, needs 3; 4 is not needed (example) -/
def demoCells : Dict Str Card :=
  [("1".toList, mkCell 1 0 none [5] [2] none (some 7)),
   ("2".toList, mkCell 2 3 (some "-1.0".toList) [5, 6] [] none none),
   ("3".toList, mkCell 3 4 (some "-2.0".toList) [8] [] (some 7) none),
   ("4".toList, mkCell 4 0 none [9] [] none none)]

example : collectLoop demoCells true 5 [1] [1] = .ok [1, 2, 3] ∧
    collectLoop demoCells false 5 [1] [1] = .ok [1, 2] ∧
    collectLoop demoCells true 5 [9] [9] = .error .keyError := by decide +kernel

/-- two cells that complement each other (example) -/
def loopCells : Dict Str Card :=
  [("1".toList, mkCell 1 0 none [5] [2] none none), ("2".toList, mkCell 2 0 none [6] [1] none none)]

/-- the hypotheses of `c11_diverges` are met by two cells that complement each other: extracting the
first one never ends -/
example (fuel : Nat) : collectLoop loopCells true fuel [1] [1] = .error .diverges := by
  refine c11_diverges loopCells true (fun i => if i % 2 = 0 then 1 else 2) ?_ ?_ fuel
  · intro i b
    rcases Nat.mod_two_eq_zero_or_one i with h | h
    · have h' : (i + 1) % 2 = 1 := by omega
      simp [Needs, loopCells, mkCell, h, h', Dict.get?, intStr, natStr, natStrFuel, digitChar, Card.fill, first]
    · have h' : (i + 1) % 2 = 0 := by omega
      simp [Needs, loopCells, mkCell, h, h', Dict.get?, intStr, natStr, natStrFuel, digitChar, Card.fill, first]
  · intro i
    rcases Nat.mod_two_eq_zero_or_one i with h | h
    · have h' : (i + 1) % 2 = 1 := by omega
      simp [h, h']
    · have h' : (i + 1) % 2 = 0 := by omega
      simp [h, h']

/-- the model of the first example is acyclic -/
example : Acyclic demoCells true := by
  have key : ∀ a b, Needs demoCells true a b → a = 1 ∧ (b = 2 ∨ b = 3) := by
    rintro a b ⟨c, hc, h⟩
    have hm := Dict.mem_of_get? hc
    simp only [demoCells, List.mem_cons, List.not_mem_nil, or_false, Prod.mk.injEq] at hm
    have h1 : ∀ n : ℤ, intStr a = intStr n → a = n := fun n h => intStr_inj h
    rcases hm with ⟨e, rfl⟩ | ⟨e, rfl⟩ | ⟨e, rfl⟩ | ⟨e, rfl⟩
    · refine ⟨h1 1 e, ?_⟩
      rcases h with h | ⟨_, f, k, c', h2, h3, h4, h5⟩
      · simp [mkCell] at h; exact Or.inl h
      · simp only [demoCells, List.mem_cons, List.not_mem_nil, or_false, Prod.mk.injEq] at h3
        rcases h3 with ⟨-, rfl⟩ | ⟨-, rfl⟩ | ⟨-, rfl⟩ | ⟨-, rfl⟩
        · simp [mkCell, Card.univ, first] at h4
        · simp [mkCell, Card.univ, first] at h4
        · simp [mkCell] at h5; exact Or.inr h5.symm
        · simp [mkCell, Card.univ, first] at h4
    all_goals
      rcases h with h | ⟨_, f, k, c', h2, _⟩
      · simp [mkCell] at h
      · simp [mkCell, Card.fill, first] at h2
  intro a b hab hn hr
  obtain ⟨rfl, hb⟩ := key a b hn
  have : ∀ x, ReflTransGen (Needs demoCells true) b x → x = b := by
    intro x hx
    induction hx with
    | refl => rfl
    | tail _ h2 ih =>
      obtain ⟨h3, _⟩ := key _ _ h2
      rw [ih] at h3; rcases hb with h | h <;> omega
  exact hab (this 1 hr)

end F4Enix.Inp
