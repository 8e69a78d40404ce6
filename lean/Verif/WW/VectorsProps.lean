import Verif.WW.Vectors
import Mathlib.Tactic.Linarith
import Mathlib.Tactic.Ring
import Mathlib.Tactic.FieldSimp
import Mathlib.Tactic.NormNum
import Mathlib.Algebra.BigOperators.Group.List.Basic
import Mathlib.Algebra.Order.BigOperators.Group.List
/-!
# Properties of the weight-window mesh vectors (C01, C02)
-/
namespace F4Enix.WW
open F4Enix

/-! ## Specification -/

/-- The block-2 format of a WWINP file: the first position, then for every coarse interval its
fine count, its end position and the constant `1`. (specification) -/
def b2Of (c0 : ℚ) (ivs : List (ℤ × ℚ)) : List ℚ :=
  c0 :: (ivs.map (fun p => [(p.1 : ℚ), p.2, 1])).flatten

/-! ## Lemmas -/

theorem coarseOf_cons3 (a b c : ℚ) (r : List ℚ) : coarseOf (a :: b :: c :: r) = a :: coarseOf r := by
  unfold coarseOf
  have h : (a :: b :: c :: r).length = 3 + r.length := by simp; omega
  rw [h, List.range_add]
  simp only [List.filter_append, List.filterMap_append]
  have h0 : ((List.range 3).filter (fun i => decide (i % 3 = 0))) = [0] := by decide
  rw [h0, List.filter_map, List.filterMap_map]
  have h1 : (fun i => decide (i % 3 = 0)) ∘ (fun x => 3 + x) = fun i : Nat => decide (i % 3 = 0) := by
    funext i; simp
  rw [h1]
  have h2 : (fun i => (a :: b :: c :: r)[i]?) ∘ (fun x => 3 + x) = fun i : Nat => r[i]? := by
    funext i; simp [show 3 + i = i + 3 by omega]
  rw [h2]; simp

theorem fineOf_cons3 (a b c : ℚ) (r : List ℚ) :
    fineOf (a :: b :: c :: r) = truncQ c :: fineOf r := by
  unfold fineOf
  have h : (a :: b :: c :: r).length = 3 + r.length := by simp; omega
  rw [h, List.range_add]
  simp only [List.filter_append, List.filterMap_append]
  have h0 : ((List.range 3).filter (fun i => decide (i % 3 = 0 ∧ i + 2 < 3 + r.length))) = [0] := by
    have : List.range 3 = [0, 1, 2] := rfl
    rw [this]
    have e : 0 + 2 < 3 + r.length := by omega
    rw [List.filter_cons_of_pos (by simp; omega), List.filter_cons_of_neg (by simp),
      List.filter_cons_of_neg (by simp), List.filter_nil]
  rw [h0, List.filter_map, List.filterMap_map]
  have h1 : (fun i => decide (i % 3 = 0 ∧ i + 2 < 3 + r.length)) ∘ (fun x => 3 + x) =
      fun i : Nat => decide (i % 3 = 0 ∧ i + 2 < r.length) := by
    funext i
    simp only [Function.comp, Nat.add_mod_left]
    congr 2
    apply propext; omega
  rw [h1]
  have h2 : (fun j => ((a :: b :: c :: r)[j + 2]?).map truncQ) ∘ (fun x => 3 + x) =
      fun i : Nat => (r[i + 2]?).map truncQ := by
    funext i
    simp only [Function.comp, show 3 + i + 2 = (i + 2) + 3 by omega, List.getElem?_cons_succ]
  rw [h2]; simp

theorem truncQ_int (n : ℤ) : truncQ (n : ℚ) = n := by simp [truncQ]

/-- the vector after `np.insert`: triples and a final pair -/
theorem insert_b2 (c0 : ℚ) (ivs : List (ℤ × ℚ)) :
    coarseOf (c0 :: 1 :: (ivs.map (fun p => [(p.1 : ℚ), p.2, 1])).flatten) = c0 :: ivs.map Prod.snd ∧
    fineOf (c0 :: 1 :: (ivs.map (fun p => [(p.1 : ℚ), p.2, 1])).flatten) = ivs.map Prod.fst := by
  induction ivs generalizing c0 with
  | nil => simp only [List.map_nil, List.flatten_nil]; constructor <;> rfl
  | cons p ivs ih =>
    obtain ⟨h1, h2⟩ := ih p.2
    simp only [List.map_cons, List.flatten_cons, List.cons_append, List.nil_append]
    rw [coarseOf_cons3, fineOf_cons3, h1, h2, truncQ_int]
    exact ⟨rfl, rfl⟩

theorem composeLoop_spec (c0 : ℚ) (ivs : List (ℤ × ℚ)) (extra : List ℤ) :
    ∃ r l, composeLoop (c0 :: ivs.map Prod.snd) (ivs.map Prod.fst ++ extra) = .ok r ∧
      (c0 :: ivs.map Prod.snd).getLast? = some l ∧
      r ++ [l, 1] = c0 :: 1 :: (ivs.map (fun p => [(p.1 : ℚ), p.2, 1])).flatten := by
  induction ivs generalizing c0 with
  | nil => exact ⟨[], c0, rfl, rfl, rfl⟩
  | cons p ivs ih =>
    obtain ⟨r, l, h1, h2, h3⟩ := ih p.2
    refine ⟨c0 :: 1 :: (p.1 : ℚ) :: r, l, ?_, ?_, ?_⟩
    · simp only [List.map_cons, List.cons_append, composeLoop, h1]
    · simpa using h2
    · simp only [List.cons_append, h3, List.map_cons, List.flatten_cons, List.nil_append]

theorem erase_marker (c0 : ℚ) (r : List ℚ) : (c0 :: 1 :: r).erase 1 = c0 :: r := by
  by_cases h : c0 = 1
  · subst h; simp
  · rw [List.erase_cons_tail (by simpa using h)]; simp

/-! ## C01 -/

/-- **C01** (composition). Composing gives exactly the block-2 format, whatever the values are —
also when a coarse point or a count equals 1, the marker the code removes. Superfluous counts are
ignored. -/
theorem c01_compose_format (c0 : ℚ) (ivs : List (ℤ × ℚ)) (extra : List ℤ) :
    compose (c0 :: ivs.map Prod.snd) (ivs.map Prod.fst ++ extra) = .ok (b2Of c0 ivs) := by
  obtain ⟨r, l, h1, h2, h3⟩ := composeLoop_spec c0 ivs extra
  unfold compose
  rw [h1]
  simp only [h2, h3, erase_marker, b2Of]

/-- **C01** (round trip). Decomposing the composed vector gives back the coarse points and the fine
counts. -/
theorem c01_decompose_compose (coarse : List ℚ) (fine : List ℤ)
    (h : coarse.length = fine.length + 1) :
    ∃ v, compose coarse fine = .ok v ∧ decompose v = .ok (coarse, fine) := by
  cases coarse with
  | nil => simp at h
  | cons c0 cs =>
    have hl : fine.length = cs.length := by simpa using h.symm
    have e1 : (fine.zip cs).map Prod.snd = cs := List.map_snd_zip (by omega)
    have e2 : (fine.zip cs).map Prod.fst = fine := List.map_fst_zip (by omega)
    refine ⟨b2Of c0 (fine.zip cs), ?_, ?_⟩
    · have := c01_compose_format c0 (fine.zip cs) []
      rwa [e1, e2, List.append_nil] at this
    · obtain ⟨h1, h2⟩ := insert_b2 c0 (fine.zip cs)
      simp only [decompose, insertOne, b2Of, h1, h2, e1, e2]

/-- **C01** (converse round trip). Every well-formed block-2 vector is rebuilt from its two halves. -/
theorem c01_compose_decompose (c0 : ℚ) (ivs : List (ℤ × ℚ)) :
    ∃ coarse fine, decompose (b2Of c0 ivs) = .ok (coarse, fine) ∧
      compose coarse fine = .ok (b2Of c0 ivs) := by
  obtain ⟨h1, h2⟩ := insert_b2 c0 ivs
  refine ⟨c0 :: ivs.map Prod.snd, ivs.map Prod.fst, by simp only [decompose, insertOne, b2Of, h1, h2], ?_⟩
  simpa using c01_compose_format c0 ivs []

/-- A block-2 vector that starts at 1 and uses counts 1: the marker is ambiguous, the result right. -/
example : compose [1, 2, 1] [1, 1] = .ok [1, 1, 2, 1, 1, 1, 1] ∧
    decompose [1, 1, 2, 1, 1, 1, 1] = .ok ([1, 2, 1], [1, 1]) := by decide

/-! ## C02 -/

theorem linspace_length (a b : ℚ) (n : Nat) : (linspace a b n).length = n := by simp [linspace]

theorem linspace_tail_get (a b : ℚ) (n i : Nat) (hi : i < n) :
    (linspace a b (n + 1)).tail[i]? = some (a + ((i + 1 : ℕ) : ℚ) * ((b - a) / n)) := by
  have hn : n ≠ 0 := by omega
  rw [List.getElem?_tail]
  simp only [linspace, List.getElem?_map]
  rw [List.getElem?_range (by omega)]
  simp only [Option.map_some, Nat.add_eq_right, hn, if_false]
  push_cast; ring_nf

theorem buildLoop_length (coarse : List ℚ) (fine : List ℤ) (r : List ℚ)
    (hl : coarse.length = fine.length + 1) (hpos : ∀ f ∈ fine, 0 ≤ f)
    (h : buildLoop coarse fine = .ok r) : (r.length : ℤ) = fine.sum := by
  induction fine generalizing coarse r with
  | nil =>
    match coarse, hl with
    | [c], _ => simp [buildLoop] at h; subst h; rfl
  | cons f fs ih =>
    match coarse, hl with
    | c :: c' :: cs, hl =>
      have hf := hpos f (by simp)
      simp only [buildLoop, show ¬ (f + 1 < 0) by omega, if_false] at h
      cases hr : buildLoop (c' :: cs) fs with
      | error e => simp [hr] at h
      | ok r' =>
        simp only [hr, Except.ok.injEq] at h
        have := ih (c' :: cs) r' (by simpa using hl) (fun g hg => hpos g (by simp [hg])) hr
        subst h
        simp only [List.length_append, List.length_tail, linspace_length, List.sum_cons]
        omega

theorem buildLoop_ok (coarse : List ℚ) (fine : List ℤ)
    (hl : coarse.length = fine.length + 1) (hpos : ∀ f ∈ fine, 0 ≤ f) :
    ∃ r, buildLoop coarse fine = .ok r := by
  induction fine generalizing coarse with
  | nil =>
    match coarse, hl with
    | [c], _ => exact ⟨[], rfl⟩
  | cons f fs ih =>
    match coarse, hl with
    | c :: c' :: cs, hl =>
      have hf := hpos f (by simp)
      obtain ⟨r, hr⟩ := ih (c' :: cs) (by simpa using hl) (fun g hg => hpos g (by simp [hg]))
      exact ⟨_, by simp only [buildLoop, show ¬ (f + 1 < 0) by omega, if_false, hr]; rfl⟩

/-- **C02** (size). The 1-D vector has one entry per fine interval plus one, and starts at the first
coarse point — for all counts ≥ 0. -/
theorem c02_length (coarse : List ℚ) (fine : List ℤ) (hl : coarse.length = fine.length + 1)
    (hpos : ∀ f ∈ fine, 0 ≤ f) :
    ∃ v, build1d coarse fine = .ok v ∧ (v.length : ℤ) = ints fine + 1 ∧ v.head? = coarse.head? := by
  obtain ⟨r, hr⟩ := buildLoop_ok coarse fine hl hpos
  have hlen := buildLoop_length coarse fine r hl hpos hr
  cases coarse with
  | nil => simp at hl
  | cons c cs =>
    refine ⟨c :: r, by simp only [build1d, hr], ?_, rfl⟩
    simp only [List.length_cons, ints]; push_cast; omega

theorem build1d_at_aux (fine : List ℤ) (c : ℚ) (cs r : List ℚ)
    (hl : cs.length = fine.length) (hpos : ∀ f ∈ fine, 1 ≤ f)
    (h : buildLoop (c :: cs) fine = .ok r) (m : Nat) (hm : m ≤ fine.length) :
    (c :: r)[((fine.take m).sum).toNat]? = (c :: cs)[m]? := by
  induction m generalizing fine c cs r with
  | zero => simp
  | succ m ih =>
    match fine, cs, hl, hm with
    | f :: fs, c' :: cs, hl, hm =>
      have hf := hpos f (by simp)
      simp only [buildLoop, show ¬ (f + 1 < 0) by omega, if_false] at h
      cases hr : buildLoop (c' :: cs) fs with
      | error e => simp [hr] at h
      | ok r' =>
        simp only [hr, Except.ok.injEq] at h
        have hi := ih fs c' cs r' (by simpa using hl) (fun g hg => hpos g (by simp [hg])) hr
          (by simpa using hm)
        have hs : 0 ≤ (fs.take m).sum := by
          apply List.sum_nonneg
          intro x hx
          have := hpos x (by simp [List.mem_of_mem_take hx]); omega
        obtain ⟨n, hn⟩ : ∃ n : Nat, f = (n : ℤ) + 1 := ⟨(f - 1).toNat, by omega⟩
        obtain ⟨s, hs'⟩ : ∃ s : Nat, (fs.take m).sum = (s : ℤ) := ⟨_, (Int.toNat_of_nonneg hs).symm⟩
        have hlt : (linspace c c' (f + 1).toNat).tail.length = n + 1 := by
          rw [List.length_tail, linspace_length]; omega
        rw [hs', Int.toNat_natCast] at hi
        simp only [List.take_succ_cons, List.sum_cons, List.getElem?_cons_succ]
        rw [hs', hn, show ((n : ℤ) + 1 + (s : ℤ)).toNat = (n + s) + 1 by omega,
          List.getElem?_cons_succ, ← h, ← hi]
        rw [hn] at hlt ⊢
        cases s with
        | zero =>
          rw [List.getElem?_append_left (by omega)]
          rw [show ((n : ℤ) + 1 + 1).toNat = (n + 1) + 1 by omega,
            linspace_tail_get _ _ _ _ (by omega)]
          simp only [List.getElem?_cons_zero, Option.some.injEq]
          have : ((n : ℚ) + 1) ≠ 0 := by positivity
          push_cast; field_simp; ring
        | succ s =>
          rw [List.getElem?_append_right (by omega), hlt,
            show n + (s + 1) - (n + 1) = s by omega]
          simp

/-- **C02** (positions). When all counts are positive, the `m`-th coarse point is found at the
position given by the sum of the first `m` counts: every coarse point is a mesh boundary, in
particular the last entry is the last coarse point. -/
theorem c02_coarse_points (coarse : List ℚ) (fine : List ℤ) (hl : coarse.length = fine.length + 1)
    (hpos : ∀ f ∈ fine, 1 ≤ f) :
    ∃ v, build1d coarse fine = .ok v ∧ v.getLast? = coarse.getLast? ∧
      ∀ m, m ≤ fine.length → v[((fine.take m).sum).toNat]? = coarse[m]? := by
  obtain ⟨r, hr⟩ := buildLoop_ok coarse fine hl (fun f hf => by have := hpos f hf; omega)
  cases coarse with
  | nil => simp at hl
  | cons c cs =>
    have hl' : cs.length = fine.length := by simpa using hl
    have key := fun m hm => build1d_at_aux fine c cs r hl' hpos hr m hm
    refine ⟨c :: r, by simp only [build1d, hr], ?_, key⟩
    have hlen := buildLoop_length _ fine r hl (fun f hf => by have := hpos f hf; omega) hr
    have := key fine.length (le_refl _)
    rw [List.take_length] at this
    rw [List.getLast?_eq_getElem?, List.getLast?_eq_getElem?]
    simp only [List.length_cons, Nat.add_sub_cancel, hl']
    rw [← this]
    congr 1
    omega

theorem linspace_chain (a b : ℚ) (hab : a < b) (n : Nat) (hn : 0 < n) :
    (a :: (linspace a b (n + 1)).tail).Pairwise (· < ·) ∧
      (∀ x ∈ (linspace a b (n + 1)).tail, x ≤ b) := by
  have hq : (0 : ℚ) < n := by exact_mod_cast hn
  have hstep : 0 < (b - a) / n := div_pos (by linarith) hq
  have hmem : ∀ x ∈ (linspace a b (n + 1)).tail, ∃ i : Nat, i < n ∧
      x = a + ((i + 1 : ℕ) : ℚ) * ((b - a) / n) := by
    intro x hx
    obtain ⟨i, hi⟩ := List.mem_iff_getElem?.mp hx
    have hlt : i < n := by
      obtain ⟨h1, _⟩ := List.getElem?_eq_some_iff.mp hi
      rw [List.length_tail, linspace_length] at h1; omega
    rw [linspace_tail_get a b n i hlt] at hi
    exact ⟨i, hlt, (Option.some.inj hi).symm⟩
  constructor
  · rw [List.pairwise_cons]
    constructor
    · intro x hx
      obtain ⟨i, _, rfl⟩ := hmem x hx
      have : (0 : ℚ) < ((i + 1 : ℕ) : ℚ) := by positivity
      nlinarith
    · rw [List.pairwise_iff_getElem]
      intro i j hi hj hij
      have hlen : (linspace a b (n + 1)).tail.length = n := by rw [List.length_tail, linspace_length]; omega
      have e1 := linspace_tail_get a b n i (by omega)
      have e2 := linspace_tail_get a b n j (by omega)
      rw [List.getElem?_eq_getElem hi] at e1
      rw [List.getElem?_eq_getElem hj] at e2
      rw [Option.some.inj e1, Option.some.inj e2]
      have : ((i + 1 : ℕ) : ℚ) < ((j + 1 : ℕ) : ℚ) := by exact_mod_cast (by omega : i + 1 < j + 1)
      nlinarith
  · intro x hx
    obtain ⟨i, hi, rfl⟩ := hmem x hx
    have : ((i + 1 : ℕ) : ℚ) ≤ n := by exact_mod_cast hi
    have h3 : (n : ℚ) * ((b - a) / n) = b - a := by field_simp
    nlinarith

theorem buildLoop_sorted (fine : List ℤ) (c : ℚ) (cs r : List ℚ)
    (hl : cs.length = fine.length) (hpos : ∀ f ∈ fine, 1 ≤ f)
    (hs : (c :: cs).Pairwise (· < ·)) (h : buildLoop (c :: cs) fine = .ok r) :
    (c :: r).Pairwise (· < ·) := by
  induction fine generalizing c cs r with
  | nil =>
    have : cs = [] := by simpa using hl
    subst this
    simp [buildLoop] at h; subst h; simp
  | cons f fs ih =>
    match cs, hl with
    | c' :: cs, hl =>
      have hf := hpos f (by simp)
      simp only [buildLoop, show ¬ (f + 1 < 0) by omega, if_false] at h
      cases hr : buildLoop (c' :: cs) fs with
      | error e => simp [hr] at h
      | ok r' =>
        simp only [hr, Except.ok.injEq] at h
        rw [List.pairwise_cons] at hs
        have hi := ih c' cs r' (by simpa using hl) (fun g hg => hpos g (by simp [hg])) hs.2 hr
        have hcc : c < c' := hs.1 c' (by simp)
        obtain ⟨n, hn⟩ : ∃ n : Nat, f = (n : ℤ) + 1 := ⟨(f - 1).toNat, by omega⟩
        have he : (f + 1).toNat = (n + 1) + 1 := by omega
        obtain ⟨l1, l2⟩ := linspace_chain c c' hcc (n + 1) (by omega)
        rw [he] at h
        rw [← h]
        rw [← List.cons_append, List.pairwise_append]
        rw [List.pairwise_cons] at hi
        refine ⟨l1, hi.2, ?_⟩
        intro x hx y hy
        have hy' := hi.1 y hy
        simp only [List.mem_cons] at hx
        rcases hx with rfl | hx
        · linarith
        · exact lt_of_le_of_lt (l2 x hx) hy'

/-- **C02** (order). With increasing coarse points and positive counts the 1-D vector is strictly
increasing. -/
theorem c02_increasing (coarse : List ℚ) (fine : List ℤ) (hl : coarse.length = fine.length + 1)
    (hpos : ∀ f ∈ fine, 1 ≤ f) (hs : coarse.Pairwise (· < ·)) :
    ∃ v, build1d coarse fine = .ok v ∧ v.Pairwise (· < ·) := by
  obtain ⟨r, hr⟩ := buildLoop_ok coarse fine hl (fun f hf => by have := hpos f hf; omega)
  cases coarse with
  | nil => simp at hl
  | cons c cs =>
    exact ⟨c :: r, by simp only [build1d, hr],
      buildLoop_sorted fine c cs r (by simpa using hl) hpos hs hr⟩

/-- A zero count makes the code skip that coarse boundary (so positivity is needed). -/
example : build1d [0, 1, 3] [2, 0] = .ok [0, 1/2, 1] ∧ build1d [0, 1, 3] [2, 1] = .ok [0, 1/2, 1, 3] ∧
    ([0, 1, 3] : List ℚ).Pairwise (· < ·) := by
  refine ⟨?_, ?_, ?_⟩ <;> norm_num [build1d, buildLoop, linspace, List.range, List.range.loop,
    show Int.toNat 3 = 3 from rfl, show Int.toNat 2 = 2 from rfl, show Int.toNat 1 = 1 from rfl]

end F4Enix.WW
