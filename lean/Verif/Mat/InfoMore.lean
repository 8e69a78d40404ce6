import Verif.Mat.InfoTables
/-!
# The shares and the complete table of `get_info` (C170, C171)
-/
namespace F4Enix.MatInfo
open F4Enix F4Enix.Mat

theorem sumOf_zipIdx {α : Type} (g : α → ℚ) (ss : List α) (k i : ℕ) (s : α) (h : ss[i]? = some s) :
    sumOf (ss.zipIdx k) (fun p => if p.2 = k + i then g p.1 else 0) = g s := by
  induction ss generalizing k i with
  | nil => simp at h
  | cons a ss ih =>
    rw [List.zipIdx_cons, sumOf_cons]
    cases i with
    | zero =>
      simp only [List.getElem?_cons_zero, Option.some.injEq] at h
      subst h
      simp only [Nat.add_zero, if_true]
      have : sumOf (ss.zipIdx (k + 1)) (fun p => if p.2 = k then g p.1 else 0) = 0 := by
        rw [sumOf_congr (h' := fun _ => 0)]
        · simp [sumOf]
        · intro p hp
          have := List.le_snd_of_mem_zipIdx hp
          rw [if_neg (by omega)]
      rw [this, add_zero]
    | succ i =>
      rw [List.getElem?_cons_succ] at h
      have h1 : (if k = k + (i + 1) then g a else 0) = 0 := if_neg (by omega)
      simp only
      rw [h1, zero_add]
      have := ih (k + 1) i h
      rw [show k + 1 + i = k + (i + 1) by omega] at this
      exact this

theorem names_sum_sub {lm : LibMan} {zaids : Bool} {s : SubMat} (hf : SubFacts lm zaids s) (w : ℚ) :
    sumOf (rowNames (rowsOf lm zaids s.zaids)) (fun n => rowSum (ofName n (rowsOf lm zaids s.zaids)) / w) = total s.zaids / w := by
  rw [sumOf_div]
  congr 1
  rw [← hf.2.1]
  exact names_total _

/-- **C170.** The shares of the elements of a submaterial add up to one (if its fractions do not add up to zero). -/
theorem shares_sub {m : Material} {lm : LibMan} {zaids : Bool} (hc : ∀ z ∈ m.zaids, Canon z) (hcons : m.tot = 0 → Consistent m)
    {c : List CRow} {e : List ERow} (h : getInfo m lm zaids = .ok (c, e)) {i : ℕ} {s : SubMat} (hs : m.subs[i]? = some s)
    (h0 : total s.zaids ≠ 0) : ((e.filter (fun r => decide (r.sub = i + 1))).map (fun r => r.subShare.getD 0)).sum = 1 := by
  obtain ⟨-, hf, -, he⟩ := getInfo_ok hc hcons h
  have hfilter : ∀ l : List ERow, ((l.filter (fun r => decide (r.sub = i + 1))).map (fun r => r.subShare.getD 0)).sum =
      sumOf l (fun r => if r.sub = i + 1 then r.subShare.getD 0 else 0) := by
    intro l
    induction l with
    | nil => rfl
    | cons r l ih =>
      rw [sumOf_cons, ← ih]
      by_cases hr : r.sub = i + 1 <;> simp [hr]
  rw [hfilter, he]
  unfold elementTable
  rw [sumOf_flatMap, sumOf_map]
  have hg : ∀ p ∈ m.subs.zipIdx, sumOf ((rowNames (rowsOf lm zaids p.1.zaids)).map (fun n =>
      (⟨m.name, p.2 + 1, n, rowSum (ofName n (rowsOf lm zaids p.1.zaids)),
        share (rowSum (ofName n (rowsOf lm zaids p.1.zaids))) (rowSum (rowsOf lm zaids p.1.zaids)),
        share (rowSum (ofName n (rowsOf lm zaids p.1.zaids)))
          (((m.subs.zipIdx.map (fun p => (p.2 + 1, rowsOf lm zaids p.1.zaids))).map (fun u => rowSum u.2)).sum)⟩ : ERow)))
      (fun r => if r.sub = i + 1 then r.subShare.getD 0 else 0) =
      (if p.2 = 0 + i then (fun s : SubMat => (share (total s.zaids) (total s.zaids)).getD 0) p.1 else 0) := by
    intro p hp
    have hmem : p.1 ∈ m.subs := List.mem_iff_getElem?.2 ⟨_, List.mem_zipIdx_iff_getElem?.1 hp⟩
    rw [sumOf_map]
    by_cases hpi : p.2 = i
    · simp only [hpi, if_true, Nat.zero_add]
      unfold share
      rw [(hf p.1 hmem).2.1]
      by_cases ht : total p.1.zaids = 0
      · simp [ht, sumOf]
      · simp only [ht, if_false, Option.getD_some]
        exact names_sum_sub (hf p.1 hmem) _
    · rw [if_neg (by omega)]
      rw [sumOf_congr (h' := fun _ => 0)]
      · simp [sumOf]
      · intro n _
        rw [if_neg (by simp only; omega)]
  have := sumOf_zipIdx (fun s : SubMat => (share (total s.zaids) (total s.zaids)).getD 0) m.subs 0 i s hs
  rw [sumOf_congr hg, this]
  unfold share
  rw [if_neg h0, Option.getD_some, div_self h0]

/-- **C170.** The shares of all rows in the material add up to one (if its fractions do not add up to zero). -/
theorem shares_material {m : Material} {lm : LibMan} {zaids : Bool} (hc : ∀ z ∈ m.zaids, Canon z) (h0 : m.tot ≠ 0)
    {c : List CRow} {e : List ERow} (h : getInfo m lm zaids = .ok (c, e)) : (e.map (fun r => r.matShare.getD 0)).sum = 1 := by
  have hcons : m.tot = 0 → Consistent m := fun h => absurd h h0
  obtain ⟨-, hf, -, he⟩ := getInfo_ok hc hcons h
  obtain ⟨h1, -, -⟩ := info_elements hc hcons h
  have hs : e.map (fun r => r.matShare.getD 0) = e.map (fun r => r.fraction / m.tot) := by
    apply List.map_congr_left
    intro r hr
    obtain ⟨-, i, s, -, -, -, -, -, hm⟩ := h1 r hr
    rw [hm, if_neg h0, Option.getD_some]
  rw [hs]
  have : sumOf e (fun r => r.fraction / m.tot) = 1 := by
    rw [sumOf_div]
    have : sumOf e ERow.fraction = m.tot := by
      rw [he]
      unfold elementTable
      rw [sumOf_flatMap, sumOf_map]
      have hg : ∀ p ∈ m.subs.zipIdx, sumOf ((rowNames (rowsOf lm zaids p.1.zaids)).map (fun n =>
          (⟨m.name, p.2 + 1, n, rowSum (ofName n (rowsOf lm zaids p.1.zaids)),
            share (rowSum (ofName n (rowsOf lm zaids p.1.zaids))) (rowSum (rowsOf lm zaids p.1.zaids)),
            share (rowSum (ofName n (rowsOf lm zaids p.1.zaids)))
              (((m.subs.zipIdx.map (fun p => (p.2 + 1, rowsOf lm zaids p.1.zaids))).map (fun u => rowSum u.2)).sum)⟩ : ERow))) ERow.fraction =
          total p.1.zaids := by
        intro p hp
        have hmem : p.1 ∈ m.subs := List.mem_iff_getElem?.2 ⟨_, List.mem_zipIdx_iff_getElem?.1 hp⟩
        rw [sumOf_map]
        have := names_sum_sub (hf p.1 hmem) 1
        simp only [div_one] at this
        exact this
      rw [sumOf_congr hg]
      have h2 : sumOf m.subs.zipIdx (fun p => total p.1.zaids) = sumOf (m.subs.zipIdx.map Prod.fst) (fun s : SubMat => total s.zaids) := by
        rw [sumOf_map]
      rw [h2, List.zipIdx_map_fst, tot_eq_sumOf]
      unfold Material.zaids
      rw [sumOf_flatMap]
      rfl
    rw [this, div_self h0]
  exact this

theorem lexLe_antisymm : ∀ {a b : Str}, Path.lexLe a b = true → Path.lexLe b a = true → a = b
  | [], [], _, _ => rfl
  | [], _ :: _, _, h => by simp [Path.lexLe] at h
  | _ :: _, [], h, _ => by simp [Path.lexLe] at h
  | a :: as, b :: bs, h1, h2 => by
    unfold Path.lexLe at h1 h2
    by_cases hab : a = b
    · subst hab
      simp only [if_true] at h1 h2
      rw [lexLe_antisymm h1 h2]
    · rw [if_neg hab] at h1
      rw [if_neg (fun h => hab h.symm)] at h2
      have := of_decide_eq_true h1
      have := of_decide_eq_true h2
      omega

/-- **C170.** The table of elements is the same with and without the zaids. -/
theorem info_same {m : Material} {lm : LibMan} (hc : ∀ z ∈ m.zaids, Canon z) (hcons : m.tot = 0 → Consistent m)
    {c c' : List CRow} {e e' : List ERow} (h : getInfo m lm true = .ok (c, e)) (h' : getInfo m lm false = .ok (c', e')) : e = e' := by
  obtain ⟨-, hf, -, he⟩ := getInfo_ok hc hcons h
  obtain ⟨-, hf', -, he'⟩ := getInfo_ok hc hcons h'
  have hnames : ∀ s ∈ m.subs, rowNames (rowsOf lm true s.zaids) = rowNames (rowsOf lm false s.zaids) := by
    intro s hs
    have h1 := hf s hs
    have h2 := hf' s hs
    have hp : (rowNames (rowsOf lm true s.zaids)).Perm (rowNames (rowsOf lm false s.zaids)) := by
      rw [List.perm_ext_iff_of_nodup (rowNames_nodup _) (rowNames_nodup _)]
      intro n
      rw [mem_rowNames, mem_rowNames, h1.2.2.1, h2.2.2.1]
    refine List.Perm.eq_of_pairwise ?_ (rowNames_sorted _) (rowNames_sorted _) hp
    intro a b _ _ h3 h4
    exact lexLe_antisymm h3 h4
  rw [he, he']
  unfold elementTable
  rw [List.flatMap_map, List.flatMap_map, List.map_map, List.map_map]
  have hsum : m.subs.zipIdx.map ((fun u : ℕ × List Row => rowSum u.2) ∘ fun p : SubMat × ℕ => (p.2 + 1, rowsOf lm true p.1.zaids)) =
      m.subs.zipIdx.map ((fun u : ℕ × List Row => rowSum u.2) ∘ fun p : SubMat × ℕ => (p.2 + 1, rowsOf lm false p.1.zaids)) := by
    apply List.map_congr_left
    intro p hp
    have hmem : p.1 ∈ m.subs := List.mem_iff_getElem?.2 ⟨_, List.mem_zipIdx_iff_getElem?.1 hp⟩
    simp only [Function.comp]
    rw [(hf p.1 hmem).2.1, (hf' p.1 hmem).2.1]
  rw [hsum]
  apply List.flatMap_congr
  intro p hp
  have hmem : p.1 ∈ m.subs := List.mem_iff_getElem?.2 ⟨_, List.mem_zipIdx_iff_getElem?.1 hp⟩
  simp only
  rw [hnames p.1 hmem]
  apply List.map_congr_left
  intro n _
  rw [(hf p.1 hmem).1, (hf' p.1 hmem).1, (hf p.1 hmem).2.1, (hf' p.1 hmem).2.1]

end F4Enix.MatInfo
