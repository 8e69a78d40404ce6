import Verif.Out.Mctal
import Mathlib.Data.List.Nodup
import Mathlib.Data.List.Flatten
import Mathlib.Tactic.Ring
import Mathlib.Tactic.Linarith
/-!
# MCTAL values (C36)
-/
namespace F4Enix.Mctal
open F4Enix

/-! ### specification -/

/-- the value and error written by two words; a word that is no number spoils the pair (specification) -/
def pairOf (num : ParseNum) (a b : Str) : Num × Num :=
  match num a, num b with
  | some x, some y => (x, y)
  | _, _ => (some 0, some 0)

/-- the numbers of a text in reading order, whatever its lines (specification) -/
def stream (ls : List Str) : List Str := ls.flatMap tokens

/-- the `p`-th pair of a stream of words (specification) -/
def pairNo (num : ParseNum) (ws : List Str) (p : Nat) : Num × Num :=
  pairOf num (ws.getD (2 * p) []) (ws.getD (2 * p + 1) [])

/-- a line of values: an even, positive number of words, not a `tfc` line (specification) -/
def ValueLine (l : Str) : Prop :=
  tokens l ≠ [] ∧ (tokens l).length % 2 = 0 ∧ (strip l).take 3 ≠ "tfc".toList

instance (l : Str) : Decidable (ValueLine l) := inferInstanceAs (Decidable (_ ∧ _ ∧ _))

/-- position of a bin in the file: cells vary slowest, then direct, user, segment, multiplier, cosine,
energy, time, k, j, and i fastest (specification) -/
def position : List Nat → List Nat → Nat
  | [_, nD, nU, nS, nM, nA, nE, nT, nI, nJ, nK], [c, d, u, s, m, a, e, t, i, j, k] =>
    (((((((((c * nD + d) * nU + u) * nS + s) * nM + m) * nA + a) * nE + e) * nT + t) * nK + k) * nJ + j) * nI + i
  | _, _ => 0

/-- a bin of the given shape (specification) -/
def IsBin (shape idx : List Nat) : Prop :=
  shape.length = 11 ∧ List.Forall₂ (· < ·) idx shape

/-! ### splitting a stripped line gives the words of the line -/

theorem tokens_lstrip (s : Str) : tokens (lstrip s) = tokens s := by
  unfold lstrip
  induction s with
  | nil => rfl
  | cons c cs ih =>
    rw [List.dropWhile_cons]
    split
    · rename_i h
      rw [ih, tokens_space _ h]
    · rfl

theorem tokens_append_space (s : Str) {c : Char} (h : isSpace c = true) : tokens (s ++ [c]) = tokens s := by
  induction s with
  | nil => rw [List.nil_append, tokens_space _ h]
  | cons a s ih =>
    cases ha : isSpace a with
    | true => rw [List.cons_append, tokens_space _ ha, tokens_space _ ha, ih]
    | false =>
      unfold tokens at ih ⊢
      simp only [List.cons_append, splitWs, ha, Bool.false_eq_true, if_false]
      cases h1 : splitWs (s ++ [c]) with
      | nil => exact absurd h1 (splitWs_ne_nil _)
      | cons t ts =>
        cases h2 : splitWs s with
        | nil => exact absurd h2 (splitWs_ne_nil _)
        | cons u us =>
          -- compare the first pieces
          have key : ∀ s : Str, ∀ t ts u us, splitWs (s ++ [c]) = t :: ts → splitWs s = u :: us →
              t = u ∧ ts.filter (fun t => decide (t ≠ [])) = us.filter (fun t => decide (t ≠ [])) := by
            intro s
            induction s with
            | nil =>
              intro t ts u us e1 e2
              simp only [List.nil_append, splitWs, h, if_true, startsSpace] at e1 e2
              simp at e1 e2
              obtain ⟨rfl, rfl⟩ := e1
              obtain ⟨rfl, rfl⟩ := e2
              simp
            | cons b s ihs =>
              intro t ts u us e1 e2
              cases h3 : splitWs (s ++ [c]) with
              | nil => exact absurd h3 (splitWs_ne_nil _)
              | cons t' ts' =>
                cases h4 : splitWs s with
                | nil => exact absurd h4 (splitWs_ne_nil _)
                | cons u' us' =>
                  obtain ⟨k1, k2⟩ := ihs t' ts' u' us' h3 h4
                  simp only [List.cons_append, splitWs, h3, h4] at e1 e2
                  cases hb : isSpace b with
                  | false =>
                    simp only [hb, Bool.false_eq_true, if_false] at e1 e2
                    cases e1; cases e2
                    exact ⟨by rw [k1], k2⟩
                  | true =>
                    simp only [hb, if_true] at e1 e2
                    cases s with
                    | nil =>
                      simp only [splitWs] at h4
                      cases h4
                      simp only [List.nil_append, startsSpace, h, if_true] at e1
                      simp only [startsSpace] at e2
                      simp only [Bool.false_eq_true, if_false] at e2
                      cases e1; cases e2
                      refine ⟨k1, ?_⟩
                      rw [k2]; simp
                    | cons b' s' =>
                      have e : startsSpace (b' :: s' ++ [c]) = startsSpace (b' :: s') := rfl
                      rw [e] at e1
                      cases hs : startsSpace (b' :: s') with
                      | true =>
                        simp only [hs, if_true] at e1 e2
                        cases e1; cases e2
                        exact ⟨k1, k2⟩
                      | false =>
                        simp only [hs, Bool.false_eq_true, if_false] at e1 e2
                        cases e1; cases e2
                        refine ⟨rfl, ?_⟩
                        simp only [List.filter_cons, k1, k2]
          obtain ⟨k1, k2⟩ := key s t ts u us h1 h2
          subst k1
          simp only [List.filter_cons, k2]

theorem tokens_rstrip (s : Str) : tokens (rstrip s) = tokens s := by
  have key : ∀ r : Str, tokens ((r.dropWhile isSpace).reverse) = tokens r.reverse := by
    intro r
    induction r with
    | nil => rfl
    | cons c cs ih =>
      rw [List.dropWhile_cons]
      split
      · rename_i h
        rw [ih, List.reverse_cons, tokens_append_space _ h]
      · rfl
  unfold rstrip
  rw [key s.reverse, List.reverse_reverse]

theorem tokens_strip (s : Str) : tokens (strip s) = tokens s := by
  unfold strip
  rw [tokens_rstrip, tokens_lstrip]

/-! ### the bins -/

theorem flatMap_length_const {β : Type} (n m : Nat) (f : Nat → List β) (h : ∀ c, c < n → (f c).length = m) :
    ((List.range n).flatMap f).length = n * m := by
  induction n with
  | zero => simp
  | succ n ih =>
    rw [List.range_succ, List.flatMap_append, List.length_append, ih (fun c hc => h c (by omega))]
    simp [h n (by omega)]
    ring

theorem flatMap_range_get {β : Type} (n m : Nat) (f : Nat → List β) (h : ∀ c, c < n → (f c).length = m)
    {c r : Nat} (hc : c < n) (hr : r < m) : ((List.range n).flatMap f)[c * m + r]? = (f c)[r]? := by
  induction n with
  | zero => omega
  | succ n ih =>
    have hl := flatMap_length_const n m f (fun c hc => h c (by omega))
    rw [List.range_succ, List.flatMap_append]
    by_cases hcn : c < n
    · have hlt : c * m + r < n * m := by
        have : (c + 1) * m ≤ n * m := Nat.mul_le_mul_right m hcn
        rw [Nat.add_mul] at this; omega
      rw [List.getElem?_append_left (by rw [hl]; exact hlt)]
      exact ih (fun c hc => h c (by omega)) hcn
    · have : c = n := by omega
      subst this
      rw [List.getElem?_append_right (by rw [hl]; omega), hl]
      simp

theorem nodup_flatMap_of {β : Type} (n : Nat) (f : Nat → List β) (g : β → Nat)
    (h1 : ∀ c, c < n → (f c).Nodup) (h2 : ∀ c, c < n → ∀ x ∈ f c, g x = c) :
    ((List.range n).flatMap f).Nodup := by
  induction n with
  | zero => simp
  | succ n ih =>
    rw [List.range_succ, List.flatMap_append]
    refine List.Nodup.append (ih (fun c hc => h1 c (by omega)) (fun c hc => h2 c (by omega))) ?_ ?_
    · simpa using h1 n (by omega)
    · intro x hx hy
      obtain ⟨c, hc, hxc⟩ := List.mem_flatMap.mp hx
      rw [List.mem_range] at hc
      have e1 := h2 c (by omega) x hxc
      have e2 := h2 n (by omega) x (by simpa using hy)
      omega

theorem binOrder_get {nC nD nU nS nM nA nE nT nI nJ nK c d u s m a e t i j k : Nat}
    (hc : c < nC) (hd : d < nD) (hu : u < nU) (hs : s < nS) (hm : m < nM) (ha : a < nA) (he : e < nE)
    (ht : t < nT) (hi : i < nI) (hj : j < nJ) (hk : k < nK) :
    (binOrder [nC, nD, nU, nS, nM, nA, nE, nT, nI, nJ, nK])[
      position [nC, nD, nU, nS, nM, nA, nE, nT, nI, nJ, nK] [c, d, u, s, m, a, e, t, i, j, k]]? =
      some [c, d, u, s, m, a, e, t, i, j, k] := by
  have lt : ∀ {x y n m : Nat}, x < n → y < m → x * m + y < n * m := by
    intro x y n m hx hy
    have : (x + 1) * m ≤ n * m := Nat.mul_le_mul_right m hx
    rw [Nat.add_mul] at this; omega
  -- lengths of the inner loops
  have l1 : ∀ c d u s m a e t k j : Nat,
      ((List.range nI).map fun i => [c, d, u, s, m, a, e, t, i, j, k]).length = nI := by simp
  have l2 := fun (c d u s m a e t k : Nat) =>
    flatMap_length_const nJ nI _ (fun j _ => l1 c d u s m a e t k j)
  have l3 := fun (c d u s m a e t : Nat) => flatMap_length_const nK _ _ (fun k _ => l2 c d u s m a e t k)
  have l4 := fun (c d u s m a e : Nat) => flatMap_length_const nT _ _ (fun t _ => l3 c d u s m a e t)
  have l5 := fun (c d u s m a : Nat) => flatMap_length_const nE _ _ (fun e _ => l4 c d u s m a e)
  have l6 := fun (c d u s m : Nat) => flatMap_length_const nA _ _ (fun a _ => l5 c d u s m a)
  have l7 := fun (c d u s : Nat) => flatMap_length_const nM _ _ (fun m _ => l6 c d u s m)
  have l8 := fun (c d u : Nat) => flatMap_length_const nS _ _ (fun s _ => l7 c d u s)
  have l9 := fun (c d : Nat) => flatMap_length_const nU _ _ (fun u _ => l8 c d u)
  have l10 := fun (c : Nat) => flatMap_length_const nD _ _ (fun d _ => l9 c d)
  have p : position [nC, nD, nU, nS, nM, nA, nE, nT, nI, nJ, nK] [c, d, u, s, m, a, e, t, i, j, k] =
      c * (nD * (nU * (nS * (nM * (nA * (nE * (nT * (nK * (nJ * nI))))))))) +
      (d * (nU * (nS * (nM * (nA * (nE * (nT * (nK * (nJ * nI)))))))) +
      (u * (nS * (nM * (nA * (nE * (nT * (nK * (nJ * nI))))))) +
      (s * (nM * (nA * (nE * (nT * (nK * (nJ * nI)))))) +
      (m * (nA * (nE * (nT * (nK * (nJ * nI))))) +
      (a * (nE * (nT * (nK * (nJ * nI)))) +
      (e * (nT * (nK * (nJ * nI))) +
      (t * (nK * (nJ * nI)) +
      (k * (nJ * nI) + (j * nI + i))))))))) := by
    simp only [position]; ring
  rw [p]
  have b1 := lt hj hi
  have b2 := lt hk b1
  have b3 := lt ht b2
  have b4 := lt he b3
  have b5 := lt ha b4
  have b6 := lt hm b5
  have b7 := lt hs b6
  have b8 := lt hu b7
  have b9 := lt hd b8
  unfold binOrder
  rw [flatMap_range_get nC _ _ (fun c _ => l10 c) hc b9,
    flatMap_range_get nD _ _ (fun d _ => l9 c d) hd b8,
    flatMap_range_get nU _ _ (fun u _ => l8 c d u) hu b7,
    flatMap_range_get nS _ _ (fun s _ => l7 c d u s) hs b6,
    flatMap_range_get nM _ _ (fun m _ => l6 c d u s m) hm b5,
    flatMap_range_get nA _ _ (fun a _ => l5 c d u s m a) ha b4,
    flatMap_range_get nE _ _ (fun e _ => l4 c d u s m a e) he b3,
    flatMap_range_get nT _ _ (fun t _ => l3 c d u s m a e t) ht b2,
    flatMap_range_get nK _ _ (fun k _ => l2 c d u s m a e t k) hk b1,
    flatMap_range_get nJ _ _ (fun j _ => l1 c d u s m a e t k j) hj hi,
    List.getElem?_map, List.getElem?_range hi]
  rfl

theorem binOrder_length (nC nD nU nS nM nA nE nT nI nJ nK : Nat) :
    (binOrder [nC, nD, nU, nS, nM, nA, nE, nT, nI, nJ, nK]).length =
      nC * (nD * (nU * (nS * (nM * (nA * (nE * (nT * (nK * (nJ * nI))))))))) := by
  have l1 : ∀ c d u s m a e t k j : Nat,
      ((List.range nI).map fun i => [c, d, u, s, m, a, e, t, i, j, k]).length = nI := by simp
  have l2 := fun (c d u s m a e t k : Nat) =>
    flatMap_length_const nJ nI _ (fun j _ => l1 c d u s m a e t k j)
  have l3 := fun (c d u s m a e t : Nat) => flatMap_length_const nK _ _ (fun k _ => l2 c d u s m a e t k)
  have l4 := fun (c d u s m a e : Nat) => flatMap_length_const nT _ _ (fun t _ => l3 c d u s m a e t)
  have l5 := fun (c d u s m a : Nat) => flatMap_length_const nE _ _ (fun e _ => l4 c d u s m a e)
  have l6 := fun (c d u s m : Nat) => flatMap_length_const nA _ _ (fun a _ => l5 c d u s m a)
  have l7 := fun (c d u s : Nat) => flatMap_length_const nM _ _ (fun m _ => l6 c d u s m)
  have l8 := fun (c d u : Nat) => flatMap_length_const nS _ _ (fun s _ => l7 c d u s)
  have l9 := fun (c d : Nat) => flatMap_length_const nU _ _ (fun u _ => l8 c d u)
  have l10 := fun (c : Nat) => flatMap_length_const nD _ _ (fun d _ => l9 c d)
  exact flatMap_length_const nC _ _ (fun c _ => l10 c)

/-- membership through the loops, level by level -/
theorem binOrder_nodup (shape : List Nat) : (binOrder shape).Nodup := by
  unfold binOrder
  split
  · rename_i nC nD nU nS nM nA nE nT nI nJ nK
    refine nodup_flatMap_of _ _ (fun x => x.getD 0 0) ?_ ?_
    · intro c _
      refine nodup_flatMap_of _ _ (fun x => x.getD 1 0) ?_ ?_
      · intro d _
        refine nodup_flatMap_of _ _ (fun x => x.getD 2 0) ?_ ?_
        · intro u _
          refine nodup_flatMap_of _ _ (fun x => x.getD 3 0) ?_ ?_
          · intro s _
            refine nodup_flatMap_of _ _ (fun x => x.getD 4 0) ?_ ?_
            · intro m _
              refine nodup_flatMap_of _ _ (fun x => x.getD 5 0) ?_ ?_
              · intro a _
                refine nodup_flatMap_of _ _ (fun x => x.getD 6 0) ?_ ?_
                · intro e _
                  refine nodup_flatMap_of _ _ (fun x => x.getD 7 0) ?_ ?_
                  · intro t _
                    refine nodup_flatMap_of _ _ (fun x => x.getD 10 0) ?_ ?_
                    · intro k _
                      refine nodup_flatMap_of _ _ (fun x => x.getD 9 0) ?_ ?_
                      · intro j _
                        apply List.Nodup.map _ List.nodup_range
                        intro x y h
                        simpa using h
                      · intro j _ x hx; simp only [List.mem_map] at hx; obtain ⟨_, -, rfl⟩ := hx; rfl
                    · intro k _ x hx
                      simp only [List.mem_flatMap, List.mem_map] at hx
                      obtain ⟨_, -, _, -, rfl⟩ := hx; rfl
                  · intro k _ x hx
                    simp only [List.mem_flatMap, List.mem_map] at hx
                    obtain ⟨_, -, _, -, _, -, rfl⟩ := hx; rfl
                · intro k _ x hx
                  simp only [List.mem_flatMap, List.mem_map] at hx
                  obtain ⟨_, -, _, -, _, -, _, -, rfl⟩ := hx; rfl
              · intro k _ x hx
                simp only [List.mem_flatMap, List.mem_map] at hx
                obtain ⟨_, -, _, -, _, -, _, -, _, -, rfl⟩ := hx; rfl
            · intro k _ x hx
              simp only [List.mem_flatMap, List.mem_map] at hx
              obtain ⟨_, -, _, -, _, -, _, -, _, -, _, -, rfl⟩ := hx; rfl
          · intro k _ x hx
            simp only [List.mem_flatMap, List.mem_map] at hx
            obtain ⟨_, -, _, -, _, -, _, -, _, -, _, -, _, -, rfl⟩ := hx; rfl
        · intro k _ x hx
          simp only [List.mem_flatMap, List.mem_map] at hx
          obtain ⟨_, -, _, -, _, -, _, -, _, -, _, -, _, -, _, -, rfl⟩ := hx; rfl
      · intro k _ x hx
        simp only [List.mem_flatMap, List.mem_map] at hx
        obtain ⟨_, -, _, -, _, -, _, -, _, -, _, -, _, -, _, -, _, -, rfl⟩ := hx; rfl
    · intro k _ x hx
      simp only [List.mem_flatMap, List.mem_map] at hx
      obtain ⟨_, -, _, -, _, -, _, -, _, -, _, -, _, -, _, -, _, -, _, -, rfl⟩ := hx; rfl
  · simp

/-! ### the loop -/

/-- successive assignments of `val 0, val 1, …` (proof) -/
def assign : List (List Nat) → (Nat → Num × Num) → (List Nat → Num × Num) → (List Nat → Num × Num)
  | [], _, v => v
  | i :: is, val, v => assign is (fun n => val (n + 1)) (fun x => if x = i then val 0 else v x)

theorem assign_not_mem (is : List (List Nat)) (val : Nat → Num × Num) (v : List Nat → Num × Num)
    (x : List Nat) (h : x ∉ is) : assign is val v x = v x := by
  induction is generalizing val v with
  | nil => rfl
  | cons i is ih =>
    rw [List.mem_cons, not_or] at h
    simp only [assign]
    rw [ih _ _ h.2, if_neg h.1]

theorem assign_get (is : List (List Nat)) (hn : is.Nodup) (val : Nat → Num × Num)
    (v : List Nat → Num × Num) (k : Nat) (x : List Nat) (h : is[k]? = some x) :
    assign is val v x = val k := by
  induction is generalizing val v k with
  | nil => simp at h
  | cons i is ih =>
    obtain ⟨h1, h2⟩ := List.nodup_cons.mp hn
    simp only [assign]
    cases k with
    | zero =>
      simp at h
      subst h
      rw [assign_not_mem _ _ _ _ h1, if_pos rfl]
    | succ k =>
      simp only [List.getElem?_cons_succ] at h
      exact ih h2 _ _ k h

theorem assign_append (is js : List (List Nat)) (val : Nat → Num × Num) (v : List Nat → Num × Num) :
    assign (is ++ js) val v = assign js (fun n => val (is.length + n)) (assign is val v) := by
  induction is generalizing val v with
  | nil => simp [assign]
  | cons i is ih =>
    simp only [List.cons_append, assign, ih, List.length_cons]
    congr 1
    funext n
    congr 1
    omega

theorem assign_congr (is : List (List Nat)) (val val' : Nat → Num × Num) (v : List Nat → Num × Num)
    (h : ∀ n, n < is.length → val n = val' n) : assign is val v = assign is val' v := by
  induction is generalizing val val' v with
  | nil => rfl
  | cons i is ih =>
    simp only [assign]
    rw [h 0 (by simp)]
    exact ih _ _ _ (fun n hn => h (n + 1) (by simpa using hn))

theorem valueLoop_append (num : ParseNum) (is js : List (List Nat)) {r r' : Reader}
    {v v' : List Nat → Num × Num} (h : valueLoop num is r v = .ok (r', v')) :
    valueLoop num (is ++ js) r v = valueLoop num js r' v' := by
  induction is generalizing r v with
  | nil => simp only [valueLoop] at h; cases h; rfl
  | cons i is ih =>
    simp only [valueLoop, List.cons_append] at h ⊢
    cases hs : valueStep num i r v with
    | error e => rw [hs] at h; cases h
    | ok p =>
      obtain ⟨r1, v1⟩ := p
      rw [hs] at h
      exact ih h

theorem pairAt_ok (num : ParseNum) (fld : List Str) (f : Nat) (h : f + 1 < fld.length) :
    pairAt num fld f = .ok (pairOf num (fld.getD f []) (fld.getD (f + 1) [])) := by
  have h0 : f < fld.length := by omega
  unfold pairAt pairOf
  simp only [List.getD, List.getElem?_eq_getElem h0, List.getElem?_eq_getElem h, Option.getD_some]
  cases num fld[f] with
  | none => simp
  | some x => cases num fld[f + 1] <;> simp

/-- inside a line -/
theorem valueLoop_within (num : ParseNum) (p : Nat) (is : List (List Nat)) (q : Nat) (r : Reader)
    (v : List Nat → Num × Num) (hf : r.f = 2 * q) (hn : r.nFld = 2 * p - 1)
    (hl : r.fld.length = 2 * p) (ht : r.line.take 3 ≠ "tfc".toList) (hq : q + is.length ≤ p) :
    valueLoop num is r v =
      .ok ({ r with f := 2 * ((q + is.length : ℕ) : ℤ) }, assign is (fun n => pairNo num r.fld (q + n)) v) := by
  induction is generalizing q r v with
  | nil =>
    simp only [valueLoop, List.length_nil, Nat.add_zero, assign, ← hf]
  | cons i is ih =>
    rw [List.length_cons] at hq
    have hr : r.refill = r := by
      unfold Reader.refill
      rw [if_neg (by omega)]
    have hs : valueStep num i r v = .ok ({ r with f := r.f + 2 },
        fun x => if x = i then pairNo num r.fld q else v x) := by
      unfold valueStep
      simp only [hr]
      rw [if_neg ht]
      have e : r.f.toNat = 2 * q := by omega
      rw [e, pairAt_ok num r.fld (2 * q) (by omega)]
      rfl
    simp only [valueLoop, hs]
    rw [ih (q + 1) { r with f := r.f + 2 } _ (by simp only [hf]; push_cast; ring) hn hl ht (by omega)]
    simp only [assign, List.length_cons, Nat.add_zero]
    have e1 : ((q + 1 + is.length : ℕ) : ℤ) = ((q + (is.length + 1) : ℕ) : ℤ) := by push_cast; ring
    rw [e1]
    have e2 : (fun n => pairNo num r.fld (q + 1 + n)) = (fun n => pairNo num r.fld (q + (n + 1))) := by
      funext n; congr 1; omega
    rw [e2]

theorem pairNo_append_left (num : ParseNum) (a b : List Str) (n : Nat) (h : 2 * n + 1 < a.length) :
    pairNo num (a ++ b) n = pairNo num a n := by
  unfold pairNo
  simp only [List.getD]
  rw [List.getElem?_append_left (by omega), List.getElem?_append_left (by omega)]

theorem pairNo_append_right (num : ParseNum) (a b : List Str) (p n : Nat) (h : a.length = 2 * p) :
    pairNo num (a ++ b) (p + n) = pairNo num b n := by
  unfold pairNo
  simp only [List.getD]
  rw [List.getElem?_append_right (by omega), List.getElem?_append_right (by omega)]
  congr 3 <;> omega

/-- the words of the last line read (specification) -/
def lastLine (ls : List Str) (d : Str) : Str := (ls.getLast?.map strip).getD d

/-- whole lines -/
theorem valueLoop_lines (num : ParseNum) (ls : List Str) (hg : ∀ l ∈ ls, ValueLine l)
    (is : List (List Nat)) (r : Reader) (rest : List Str) (v : List Nat → Num × Num)
    (hr : r.rest = ls ++ rest) (hf : r.f > r.nFld) (hlen : 2 * is.length = (stream ls).length) :
    ∃ r', valueLoop num is r v = .ok (r', assign is (pairNo num (stream ls)) v) ∧ r'.rest = rest ∧
      r'.f > r'.nFld ∧ r'.line = lastLine ls r.line := by
  induction ls generalizing is r v with
  | nil =>
    simp [stream] at hlen
    subst hlen
    exact ⟨r, rfl, hr, hf, rfl⟩
  | cons l ls ih =>
    obtain ⟨g1, g2, g3⟩ := hg l (by simp)
    obtain ⟨p, hp⟩ : ∃ p, (tokens l).length = 2 * p := ⟨(tokens l).length / 2, by omega⟩
    have hp1 : 1 ≤ p := by
      have := List.length_pos_of_ne_nil g1; omega
    have hst : stream (l :: ls) = tokens l ++ stream ls := by simp [stream]
    rw [hst, List.length_append, hp] at hlen
    -- the bins of this line and the others
    obtain ⟨is1, is2, hsplit, hl1⟩ : ∃ a b, is = a ++ b ∧ a.length = p :=
      ⟨is.take p, is.drop p, (List.take_append_drop _ _).symm, by rw [List.length_take]; omega⟩
    obtain ⟨i0, is1', hi0⟩ : ∃ a b, is1 = a :: b := by
      cases is1 with
      | nil => simp at hl1; omega
      | cons a b => exact ⟨a, b, rfl⟩
    -- the state after reading the line
    let r1 : Reader := ⟨0, ((tokens (strip l)).length : ℤ) - 1, tokens (strip l), strip l, ls ++ rest⟩
    have hrefill : r.refill = r1 := by
      unfold Reader.refill
      rw [if_pos hf, hr]
      rfl
    have hrefill1 : r1.refill = r1 := by
      unfold Reader.refill
      rw [if_neg]
      simp only [r1]
      rw [tokens_strip, hp]; omega
    have hfirst : valueLoop num is1 r v = valueLoop num is1 r1 v := by
      rw [hi0]
      simp only [valueLoop]
      have : valueStep num i0 r v = valueStep num i0 r1 v := by
        unfold valueStep
        rw [hrefill, hrefill1]
      rw [this]
    have hw := valueLoop_within num p is1 0 r1 v (by simp [r1])
      (by simp only [r1]; rw [tokens_strip, hp]; push_cast; rfl)
      (by simp only [r1]; rw [tokens_strip, hp]) g3 (by omega)
    rw [← hfirst] at hw
    have hlen2 : 2 * is2.length = (stream ls).length := by
      rw [hsplit, List.length_append] at hlen; omega
    obtain ⟨r', e1, e2, e3, e4⟩ := ih (fun m hm => hg m (List.mem_cons_of_mem _ hm)) is2
      { r1 with f := 2 * ((0 + is1.length : ℕ) : ℤ) }
      (assign is1 (fun n => pairNo num r1.fld (0 + n)) v) rfl
      (show 2 * ((0 + is1.length : ℕ) : ℤ) > r1.nFld by
        simp only [r1]; rw [tokens_strip, hp, hl1]; push_cast; omega) hlen2
    refine ⟨r', ?_, e2, e3, ?_⟩
    · rw [hsplit, valueLoop_append num is1 is2 hw, e1, assign_append, hst]
      congr 2
      have a1 : (fun n => pairNo num (tokens l ++ stream ls) (is1.length + n)) = pairNo num (stream ls) := by
        funext n
        rw [hl1, pairNo_append_right num _ _ p n hp]
      rw [a1]
      congr 1
      apply assign_congr
      intro n hn
      rw [Nat.zero_add, pairNo_append_left num _ _ n (by omega)]
      simp only [r1, tokens_strip]
    · rw [e4]
      unfold lastLine
      cases ls with
      | nil => simp [r1]
      | cons b bs =>
        rw [List.getLast?_cons_cons, List.getLast?_eq_some_getLast (List.cons_ne_nil b bs)]
        rfl

theorem forall₂_11 {shape idx : List Nat} (h : IsBin shape idx) :
    ∃ nC nD nU nS nM nA nE nT nI nJ nK c d u s m a e t i j k,
      shape = [nC, nD, nU, nS, nM, nA, nE, nT, nI, nJ, nK] ∧ idx = [c, d, u, s, m, a, e, t, i, j, k] ∧
      c < nC ∧ d < nD ∧ u < nU ∧ s < nS ∧ m < nM ∧ a < nA ∧ e < nE ∧ t < nT ∧ i < nI ∧ j < nJ ∧ k < nK := by
  obtain ⟨h1, h2⟩ := h
  match shape, h1 with
  | [nC, nD, nU, nS, nM, nA, nE, nT, nI, nJ, nK], _ =>
    have hl := h2.length_eq
    match idx, hl with
    | [c, d, u, s, m, a, e, t, i, j, k], _ =>
      simp only [List.forall₂_cons, List.forall₂_nil_left_iff, and_true] at h2
      exact ⟨nC, nD, nU, nS, nM, nA, nE, nT, nI, nJ, nK, c, d, u, s, m, a, e, t, i, j, k, rfl, rfl, h2⟩

/-- **C36.** When the value section consists of lines with an even number of words, as many pairs in
total as there are bins, then every bin gets the pair whose number is the position of the bin — in
whatever way the words are broken into lines — and reading stops right after the section. -/
theorem values_exact (num : ParseNum) (empty : List Nat → Num × Num) (shape : List Nat)
    (ls rest : List Str) (hg : ∀ l ∈ ls, ValueLine l)
    (hlen : (stream ls).length = 2 * (binOrder shape).length) :
    ∃ v, readValues num empty shape (ls ++ rest) = .ok (v, lastLine ls [], rest) ∧
      ∀ idx, IsBin shape idx → v idx = pairNo num (stream ls) (position shape idx) := by
  obtain ⟨r', e1, e2, e3, e4⟩ := valueLoop_lines num ls hg (binOrder shape)
    { f := 1, nFld := 0, fld := [], line := [], rest := ls ++ rest } rest empty rfl (by simp)
    hlen.symm
  refine ⟨assign (binOrder shape) (pairNo num (stream ls)) empty, ?_, ?_⟩
  · unfold readValues
    rw [e1]
    simp only [e2, e4]
  · intro idx hi
    obtain ⟨nC, nD, nU, nS, nM, nA, nE, nT, nI, nJ, nK, c, d, u, s, m, a, e, t, i, j, k, rfl, rfl,
      b1, b2, b3, b4, b5, b6, b7, b8, b9, b10, b11⟩ := forall₂_11 hi
    exact assign_get _ (binOrder_nodup _) _ _ _ _
      (binOrder_get b1 b2 b3 b4 b5 b6 b7 b8 b9 b10 b11)

/-- **C36 (layout).** Two layouts of the same words give the same values. -/
theorem values_layout (num : ParseNum) (empty : List Nat → Num × Num) (shape : List Nat)
    (ls ls' rest : List Str) (hg : ∀ l ∈ ls, ValueLine l) (hg' : ∀ l ∈ ls', ValueLine l)
    (hs : stream ls = stream ls') (hlen : (stream ls).length = 2 * (binOrder shape).length) :
    ((readValues num empty shape (ls ++ rest)).toOption.map (fun r => (r.1, r.2.2))) =
      ((readValues num empty shape (ls' ++ rest)).toOption.map (fun r => (r.1, r.2.2))) := by
  obtain ⟨r', e1, e2, e3, e4⟩ := valueLoop_lines num ls hg (binOrder shape)
    { f := 1, nFld := 0, fld := [], line := [], rest := ls ++ rest } rest empty rfl (by simp)
    hlen.symm
  obtain ⟨r'', f1, f2, f3, f4⟩ := valueLoop_lines num ls' hg' (binOrder shape)
    { f := 1, nFld := 0, fld := [], line := [], rest := ls' ++ rest } rest empty rfl (by simp)
    (by rw [← hs]; exact hlen.symm)
  unfold readValues
  rw [e1, f1]
  simp only [Except.toOption, Option.map_some, e2, f2, hs]

/-- the last value of a line with an odd number of words is refused -/
theorem values_odd (num : ParseNum) (empty : List Nat → Num × Num) (v : Num)
    (l : Str) (rest : List Str) (p : Nat) (hp : (tokens l).length = 2 * p + 1)
    (ht : (strip l).take 3 ≠ "tfc".toList) (hv : num ((tokens l).getD (2 * p) []) = some v)
    (shape : List Nat) (hs : p < (binOrder shape).length) :
    readValues num empty shape (l :: rest) = .error .indexError := by
  obtain ⟨is1, is2, hsplit, hl1⟩ : ∃ a b, binOrder shape = a ++ b ∧ a.length = p :=
    ⟨(binOrder shape).take p, (binOrder shape).drop p, (List.take_append_drop _ _).symm,
      by rw [List.length_take]; omega⟩
  obtain ⟨i0, is2', hi2⟩ : ∃ a b, is2 = a :: b := by
    cases is2 with
    | nil => rw [hsplit] at hs; simp at hs; omega
    | cons a b => exact ⟨a, b, rfl⟩
  have tl : tokens (strip l) = tokens l := tokens_strip l
  let r1 : Reader := ⟨0, ((tokens (strip l)).length : ℤ) - 1, tokens (strip l), strip l, rest⟩
  have inner : ∀ (is : List (List Nat)) (q : Nat) (v : List Nat → Num × Num), q + is.length = p →
      ∃ v', valueLoop num is { r1 with f := 2 * (q : ℤ) } v = .ok ({ r1 with f := 2 * (p : ℤ) }, v') := by
    intro is
    induction is with
    | nil =>
      intro q v hq
      simp at hq
      subst hq
      exact ⟨v, rfl⟩
    | cons i is ih =>
      intro q v hq
      rw [List.length_cons] at hq
      have hr : Reader.refill { r1 with f := 2 * (q : ℤ) } = { r1 with f := 2 * (q : ℤ) } := by
        unfold Reader.refill
        rw [if_neg]
        simp only [r1, tl, hp]
        push_cast; omega
      simp only [valueLoop, valueStep, hr]
      rw [if_neg ht]
      have e : (2 * (q : ℤ)).toNat = 2 * q := by omega
      rw [e, pairAt_ok num r1.fld (2 * q) (by simp only [r1, tl, hp]; omega)]
      simp only
      have := ih (q + 1) (fun x => if x = i then pairOf num (r1.fld.getD (2 * q) []) (r1.fld.getD (2 * q + 1) []) else v x)
        (by omega)
      push_cast at this
      rw [mul_add] at this
      exact this
  have last : ∀ (v0 : List Nat → Num × Num),
      valueLoop num is2 { r1 with f := 2 * (p : ℤ) } v0 = .error .indexError := by
    intro v0
    have hr : Reader.refill { r1 with f := 2 * (p : ℤ) } = { r1 with f := 2 * (p : ℤ) } := by
      unfold Reader.refill
      rw [if_neg]
      simp only [r1, tl, hp]
      push_cast; omega
    rw [hi2]
    simp only [valueLoop, valueStep, hr]
    rw [if_neg ht]
    have e : (2 * (p : ℤ)).toNat = 2 * p := by omega
    have ep : pairAt num r1.fld (2 * p) = .error .indexError := by
      unfold pairAt
      simp only [r1, tl]
      rw [List.getElem?_eq_getElem (by omega)]
      simp only
      have : num (tokens l)[2 * p] = some v := by
        rw [← hv, List.getD, List.getElem?_eq_getElem (by omega)]; rfl
      rw [this]
      simp only
      rw [List.getElem?_eq_none (by omega)]
    rw [e, ep]
  have hrefill : Reader.refill { f := 1, nFld := 0, fld := [], line := [], rest := l :: rest } = r1 := rfl
  have hrefill1 : r1.refill = r1 := by
    unfold Reader.refill
    rw [if_neg]
    simp only [r1, tl, hp]
    push_cast; omega
  have hfirst : ∀ (is : List (List Nat)) (v : List Nat → Num × Num), is ≠ [] →
      valueLoop num is { f := 1, nFld := 0, fld := [], line := [], rest := l :: rest } v =
      valueLoop num is r1 v := by
    intro is v hne
    cases is with
    | nil => exact absurd rfl hne
    | cons i is =>
      have : valueStep num i { f := 1, nFld := 0, fld := [], line := [], rest := l :: rest } v =
          valueStep num i r1 v := by
        unfold valueStep
        rw [hrefill, hrefill1]
      simp only [valueLoop, this]
  unfold readValues
  have hne : binOrder shape ≠ [] := by intro hc; rw [hc] at hs; simp at hs
  rw [hfirst _ _ hne, hsplit]
  obtain ⟨v', hv'⟩ := inner is1 0 empty (by omega)
  have hr1 : { r1 with f := 2 * ((0 : ℕ) : ℤ) } = r1 := by simp [r1]
  rw [hr1] at hv'
  rw [valueLoop_append num is1 is2 hv', last]

/-- a concrete layout: two cells, two energies and a total, in lines of four and two words -/
example : (∀ l ∈ ["  1. .1  2. .2\n".toList, " 3. .3\n".toList, "4. .4 5. .5 6. .6\n".toList], ValueLine l) ∧
    (stream ["  1. .1  2. .2\n".toList, " 3. .3\n".toList, "4. .4 5. .5 6. .6\n".toList]).length =
      2 * (binOrder [2, 1, 1, 1, 1, 1, 3, 1, 1, 1, 1]).length ∧
    position [2, 1, 1, 1, 1, 1, 3, 1, 1, 1, 1] [1, 0, 0, 0, 0, 0, 2, 0, 0, 0, 0] = 5 := by
  decide +kernel

end F4Enix.Mctal
