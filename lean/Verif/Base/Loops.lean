import Mathlib.Data.List.Nodup
import Mathlib.Data.List.Forall2
import Mathlib.Tactic.Linarith
/-!
# Nested `for` loops over ranges

`loops [n₁, …, nₖ]` lists the index tuples met by `for i₁ in range(n₁): … for iₖ in range(nₖ)`, and
`rank` is the number of a tuple in that order.
-/
namespace F4Enix

/-- the index tuples of nested loops, in the order of execution (specification) -/
def loops : List Nat → List (List Nat)
  | [] => [[]]
  | n :: ns => (List.range n).flatMap (fun i => (loops ns).map (fun is => i :: is))

/-- how many tuples come before `is` (specification) -/
def rank : List Nat → List Nat → Nat
  | _ :: ns, i :: is => i * ns.foldr (· * ·) 1 + rank ns is
  | _, _ => 0

/-- every index below its bound (specification) -/
def InLoops (ns is : List Nat) : Prop := List.Forall₂ (fun i n => i < n) is ns

theorem loops_flat_length {β : Type} (n m : Nat) (f : Nat → List β) (h : ∀ c, c < n → (f c).length = m) :
    ((List.range n).flatMap f).length = n * m := by
  induction n with
  | zero => simp
  | succ n ih =>
    rw [List.range_succ, List.flatMap_append, List.length_append, ih (fun c hc => h c (by omega))]
    simp only [List.flatMap_cons, List.flatMap_nil, List.append_nil]
    rw [h n (by omega), Nat.add_one_mul]

theorem loops_flat_get {β : Type} (n m : Nat) (f : Nat → List β) (h : ∀ c, c < n → (f c).length = m)
    (c q : Nat) (hc : c < n) (hq : q < m) : ((List.range n).flatMap f)[c * m + q]? = (f c)[q]? := by
  induction n with
  | zero => omega
  | succ n ih =>
    rw [List.range_succ, List.flatMap_append]
    have hl := loops_flat_length n m f (fun c hc => h c (by omega))
    rcases Nat.lt_or_ge c n with hcn | hcn
    · rw [List.getElem?_append_left, ih (fun c hc => h c (by omega)) hcn]
      rw [hl]
      have := Nat.mul_le_mul_right m (show c + 1 ≤ n by omega)
      rw [Nat.add_mul] at this; omega
    · have : c = n := by omega
      subst this
      rw [List.getElem?_append_right (by rw [hl]; omega), hl]
      simp

theorem loops_length (ns : List Nat) : (loops ns).length = ns.foldr (· * ·) 1 := by
  induction ns with
  | nil => rfl
  | cons n ns ih =>
    simp only [loops, List.foldr_cons]
    exact loops_flat_length n _ _ (fun c _ => by rw [List.length_map, ih])

theorem rank_lt {ns is : List Nat} (h : InLoops ns is) : rank ns is < ns.foldr (· * ·) 1 := by
  induction h with
  | nil => simp [rank]
  | @cons i n is ns hi _ ih =>
    simp only [rank, List.foldr_cons]
    have := Nat.mul_le_mul_right (ns.foldr (· * ·) 1) (show i + 1 ≤ n by omega)
    rw [Nat.add_mul] at this; omega

theorem loops_get {ns is : List Nat} (h : InLoops ns is) : (loops ns)[rank ns is]? = some is := by
  induction h with
  | nil => rfl
  | @cons i n is ns hi hs ih =>
    simp only [loops, rank]
    rw [loops_flat_get n (ns.foldr (· * ·) 1) _ (fun c _ => by rw [List.length_map, loops_length]) i _ hi
      (rank_lt hs), List.getElem?_map, ih]
    rfl

theorem mem_loops {ns is : List Nat} : is ∈ loops ns ↔ InLoops ns is := by
  unfold InLoops
  induction ns generalizing is with
  | nil => simp [loops]
  | cons n ns ih =>
    simp only [loops, List.mem_flatMap, List.mem_range, List.mem_map]
    constructor
    · rintro ⟨i, hi, js, hjs, rfl⟩
      exact .cons hi (ih.1 hjs)
    · intro h
      obtain ⟨i, js, h1, h2, rfl⟩ := List.forall₂_cons_right_iff.1 h
      exact ⟨i, h1, js, ih.2 h2, rfl⟩

theorem loops_nodup (ns : List Nat) : (loops ns).Nodup := by
  induction ns with
  | nil => simp [loops]
  | cons n ns ih =>
    simp only [loops]
    rw [List.nodup_flatMap]
    refine ⟨?_, ?_⟩
    · intro i _
      exact ih.map (fun a b h => by simpa using h)
    · refine (List.nodup_range (n := n)).imp ?_
      intro a b hab
      simp only [Function.onFun]
      rw [List.disjoint_left]
      intro x hx hy
      obtain ⟨y, _, rfl⟩ := List.mem_map.1 hx
      obtain ⟨z, _, hz⟩ := List.mem_map.1 hy
      simp only [List.cons.injEq] at hz
      exact hab hz.1.symm

/-- the array after storing `val p` at the `p`-th index of the list (specification) -/
def store {V : Type} : List (List Nat) → (Nat → V) → (List Nat → V) → (List Nat → V)
  | [], _, v => v
  | i :: is, val, v => store is (fun p => val (p + 1)) (fun j => if j = i then val 0 else v j)

theorem store_not_mem {V : Type} (is : List (List Nat)) (val : Nat → V) (v : List Nat → V) (j : List Nat)
    (h : j ∉ is) : store is val v j = v j := by
  induction is generalizing val v with
  | nil => rfl
  | cons i is ih =>
    simp only [List.mem_cons, not_or] at h
    simp only [store]
    rw [ih _ _ h.2, if_neg h.1]

theorem store_get {V : Type} (is : List (List Nat)) (hn : is.Nodup) (val : Nat → V) (v : List Nat → V)
    (p : Nat) (j : List Nat) (h : is[p]? = some j) : store is val v j = val p := by
  induction is generalizing val v p with
  | nil => simp at h
  | cons i is ih =>
    simp only [store]
    rw [List.nodup_cons] at hn
    cases p with
    | zero =>
      simp only [List.getElem?_cons_zero, Option.some.injEq] at h
      subst h
      rw [store_not_mem _ _ _ _ hn.1, if_pos rfl]
    | succ p =>
      simp only [List.getElem?_cons_succ] at h
      exact ih hn.2 _ _ p h

/-- storing along nested loops: every tuple gets the value of its rank -/
theorem store_loops {V : Type} (ns : List Nat) (val : Nat → V) (v : List Nat → V) (is : List Nat)
    (h : InLoops ns is) : store (loops ns) val v is = val (rank ns is) :=
  store_get _ (loops_nodup ns) _ _ _ _ (loops_get h)

end F4Enix
