import Verif.Out.MctalFrame
import Mathlib.Data.List.Forall2
import Mathlib.Data.List.Nodup
import Mathlib.Tactic.Linarith
import Mathlib.Tactic.NormNum
/-!
# Theorems about the data frames of a MCTAL file (C62-C65)
-/
namespace F4Enix.Mctal
open F4Enix

/-! ### specification -/

/-- `v` is the label of bin `i` on an axis with the labels `ls`; an axis without labels has one bin,
labelled NaN (specification) -/
def HasLabel (ls : List Val) (i : Nat) (v : Val) : Prop :=
  (ls = [] ∧ i = 0 ∧ v = .num none) ∨ ls[i]? = some v

/-- the number of segment bins without the total one (specification) -/
def segCount (t : Tally) : ℤ :=
  (if t.nSeg = 0 then 1 else t.nSeg) - (if t.segTC = some 't' then 1 else 0)

/-- a bin of a tally: its position on the eleven axes and its labels (specification) -/
structure BinOf where
  (f d u s m c e n i j k : Nat)
  (fn dn un mn cn en nn an bn kn : Val)

/-- the labels belong to the positions: cells `cs` (as labelled), direct, user, multiplier, cosine,
energy, time and the three mesh axes; the segments are counted from one (specification) -/
structure BinOf.Ok (b : BinOf) (t : Tally) (cs : List Val) : Prop where
  f : HasLabel cs b.f b.fn
  d : HasLabel (rangeLabels t.nDir) b.d b.dn
  u : HasLabel (t.usr.map Val.num) b.u b.un
  s : (b.s : ℤ) < segCount t
  m : HasLabel (rangeLabels t.nMul) b.m b.mn
  c : HasLabel (t.cos.map Val.num) b.c b.cn
  e : HasLabel (t.erg.map Val.num) b.e b.en
  n : HasLabel (t.tim.map Val.num) b.n b.nn
  i : HasLabel (t.cora.map Val.num) b.i b.an
  j : HasLabel (t.corb.map Val.num) b.j b.bn
  k : HasLabel (t.corc.map Val.num) b.k b.kn

/-- the position as used by the value array (specification) -/
def BinOf.idx (b : BinOf) : List Nat := [b.f, b.d, b.u, b.s, b.m, b.c, b.e, b.n, b.i, b.j, b.k]

/-- the label a column should show for the bin; the mesh coordinates are listed apart (specification) -/
def BinOf.label (b : BinOf) : Col → Val
  | .cells => b.fn
  | .dir => b.dn
  | .user => b.un
  | .segments => .num (some ((b.s : ℚ) + 1))
  | .multiplier => b.mn
  | .cosine => b.cn
  | .energy => b.en
  | .time => b.nn
  | .corA => b.an
  | .corB => b.bn
  | .corC => b.kn
  | .value => .num none
  | .error => .num none

/-- the columns that are not mesh coordinates, value or error (specification) -/
def Col.plain : Col → Bool
  | .corA | .corC | .value | .error => false
  | _ => true

/-! ### the raw rows -/

/-- the loop-order combination of a bin (proof) -/
def BinOf.comb (b : BinOf) : List (Nat × Val) :=
  [(b.f, b.fn), (b.d, b.dn), (b.u, b.un), (b.s, .num (some ((b.s : ℚ) + 1))), (b.m, b.mn), (b.c, b.cn),
   (b.e, b.en), (b.n, b.nn), (b.k, b.kn), (b.j, b.bn), (b.i, b.an)]

theorem mem_enum {l : List Val} {i : Nat} {v : Val} : (i, v) ∈ enum l ↔ l[i]? = some v := by
  unfold enum
  simp [List.mem_zipIdx_iff_getElem?]

theorem mem_enum_orNan {l : List Val} {i : Nat} {v : Val} : (i, v) ∈ enum (orNan l) ↔ HasLabel l i v := by
  rw [mem_enum]
  unfold orNan HasLabel
  by_cases h : l = []
  · subst h
    rw [if_pos rfl]
    cases i with
    | zero => simp [eq_comm]
    | succ i => simp
  · rw [if_neg h]
    simp [h]

theorem mem_segAxis {t : Tally} {i : Nat} {v : Val} :
    (i, v) ∈ segAxis t ↔ (i : ℤ) < segCount t ∧ v = .num (some ((i : ℚ) + 1)) := by
  unfold segAxis segCount atLeast1
  simp only [List.mem_map, List.mem_range, Prod.mk.injEq]
  constructor
  · rintro ⟨a, ha, rfl, rfl⟩
    refine ⟨?_, rfl⟩
    split_ifs at ha ⊢ <;> omega
  · rintro ⟨ha, rfl⟩
    refine ⟨i, ?_, rfl, rfl⟩
    split_ifs at ha ⊢ <;> omega

theorem mem_product {axes : List (List (Nat × Val))} {b : List (Nat × Val)} :
    b ∈ product axes ↔ List.Forall₂ (fun p ax => p ∈ ax) b axes := by
  induction axes generalizing b with
  | nil => simp [product]
  | cons ax axs ih =>
    simp only [product, List.mem_flatMap, List.mem_map]
    constructor
    · rintro ⟨p, hp, c, hc, rfl⟩
      exact List.Forall₂.cons hp (ih.1 hc)
    · intro h
      cases h with
      | cons h1 h2 => exact ⟨_, h1, _, ih.2 h2, rfl⟩

theorem mem_bins {t : Tally} {f : Nat} {fn : Val} {b : List (Nat × Val)} (cs : List Val) (hf : HasLabel cs f fn) :
    b ∈ product ([(f, fn)] :: innerAxes t) ↔ ∃ a : BinOf, a.Ok t cs ∧ a.f = f ∧ a.fn = fn ∧ b = a.comb := by
  rw [mem_product]
  unfold innerAxes
  constructor
  · intro h
    obtain ⟨p0, b0, h0, h, e0⟩ := List.forall₂_cons_right_iff.1 h
    obtain ⟨p1, b1, h1, h, e1⟩ := List.forall₂_cons_right_iff.1 h
    obtain ⟨p2, b2, h2, h, e2⟩ := List.forall₂_cons_right_iff.1 h
    obtain ⟨p3, b3, h3, h, e3⟩ := List.forall₂_cons_right_iff.1 h
    obtain ⟨p4, b4, h4, h, e4⟩ := List.forall₂_cons_right_iff.1 h
    obtain ⟨p5, b5, h5, h, e5⟩ := List.forall₂_cons_right_iff.1 h
    obtain ⟨p6, b6, h6, h, e6⟩ := List.forall₂_cons_right_iff.1 h
    obtain ⟨p7, b7, h7, h, e7⟩ := List.forall₂_cons_right_iff.1 h
    obtain ⟨p8, b8, h8, h, e8⟩ := List.forall₂_cons_right_iff.1 h
    obtain ⟨p9, b9, h9, h, e9⟩ := List.forall₂_cons_right_iff.1 h
    obtain ⟨p10, b10, h10, h, e10⟩ := List.forall₂_cons_right_iff.1 h
    rw [List.forall₂_nil_right_iff] at h
    subst h
    subst e10 e9 e8 e7 e6 e5 e4 e3 e2 e1 e0
    obtain ⟨i0, v0⟩ := p0
    obtain ⟨i1, v1⟩ := p1
    obtain ⟨i2, v2⟩ := p2
    obtain ⟨i3, v3⟩ := p3
    obtain ⟨i4, v4⟩ := p4
    obtain ⟨i5, v5⟩ := p5
    obtain ⟨i6, v6⟩ := p6
    obtain ⟨i7, v7⟩ := p7
    obtain ⟨i8, v8⟩ := p8
    obtain ⟨i9, v9⟩ := p9
    obtain ⟨i10, v10⟩ := p10
    simp only [List.mem_singleton, Prod.mk.injEq] at h0
    obtain ⟨rfl, rfl⟩ := h0
    rw [mem_segAxis] at h3
    obtain ⟨h3, rfl⟩ := h3
    rw [mem_enum_orNan] at h1 h2 h4 h5 h6 h7 h8 h9 h10
    exact ⟨⟨i0, i1, i2, i3, i4, i5, i6, i7, i10, i9, i8, v0, v1, v2, v4, v5, v6, v7, v10, v9, v8⟩,
      ⟨hf, h1, h2, h3, h4, h5, h6, h7, h10, h9, h8⟩, rfl, rfl, rfl⟩
  · rintro ⟨a, ha, rfl, rfl, rfl⟩
    unfold BinOf.comb
    refine .cons (by simp) (.cons (mem_enum_orNan.2 ha.d) (.cons (mem_enum_orNan.2 ha.u)
      (.cons (mem_segAxis.2 ⟨ha.s, rfl⟩) (.cons (mem_enum_orNan.2 ha.m) (.cons (mem_enum_orNan.2 ha.c)
      (.cons (mem_enum_orNan.2 ha.e) (.cons (mem_enum_orNan.2 ha.n) (.cons (mem_enum_orNan.2 ha.k)
      (.cons (mem_enum_orNan.2 ha.j) (.cons (mem_enum_orNan.2 ha.i) .nil))))))))))

/-- the row of a bin, as the code writes it (proof) -/
def BinOf.row (b : BinOf) (t : Tally) : Row :=
  mkRow b.fn b.dn b.un (.num (some ((b.s : ℚ) + 1))) b.mn b.cn b.en b.nn b.an b.bn b.kn (t.vals b.idx)

theorem binRow_comb (a : BinOf) (t : Tally) : binRow a.comb (t.vals (binIdx a.comb)) = a.row t := rfl

theorem binRows_ok {t : Tally} {bs : List (List (Nat × Val))} {rs : List Row} (h : binRows t bs = .ok rs) :
    rs = bs.map (fun b => binRow b (t.vals (binIdx b))) := by
  induction bs generalizing rs with
  | nil => simp only [binRows, Except.ok.injEq] at h; rw [← h]; rfl
  | cons b bs ih =>
    simp only [binRows] at h
    cases hg : getVal t (binIdx b) with
    | error e => rw [hg] at h; simp at h
    | ok v =>
      have hv : v = t.vals (binIdx b) := by
        unfold getVal at hg
        split_ifs at hg
        exact (Except.ok.inj hg).symm
      rw [hg] at h
      cases hb : binRows t bs with
      | error e => rw [hb] at h; simp at h
      | ok r =>
        rw [hb] at h
        simp only [Except.ok.injEq] at h
        rw [← h, ih hb, hv]
        rfl

theorem innerVars_idem (axes : List (List (Nat × Val)))
    (old : Option (Val × Val × Val × Val × Val × Val × Val × Val)) :
    innerVars axes (innerVars axes old) = innerVars axes old := by
  match axes with
  | [_, _, sg, mu, co, er, ti, cC, cB, cA] =>
    simp only [innerVars]
    split_ifs <;> rfl
  | [] => rfl
  | [_] => rfl
  | [_, _] => rfl
  | [_, _, _] => rfl
  | [_, _, _, _] => rfl
  | [_, _, _, _, _] => rfl
  | [_, _, _, _, _, _] => rfl
  | [_, _, _, _, _, _, _] => rfl
  | [_, _, _, _, _, _, _, _] => rfl
  | [_, _, _, _, _, _, _, _, _] => rfl
  | _ :: _ :: _ :: _ :: _ :: _ :: _ :: _ :: _ :: _ :: _ :: _ => rfl

/-- the total row of a cell (proof) -/
def TotalRowOf (t : Tally) (axes : List (List (Nat × Val))) (lk : Leak) (p : Nat × Val) (r : Row) : Prop :=
  ∃ c x, totalCol t = some c ∧ innerVars axes lk.inner = some x ∧
    r = totalRow p.2 (lastLabel (axes.getD 0 [])) (lastLabel (axes.getD 1 [])) x c (t.vals (totalIdx t p.1))

theorem cellPass_ok {t : Tally} {axes : List (List (Nat × Val))} {p : Nat × Val} {lk lk' : Leak} {rs : List Row}
    (h : cellPass t axes p lk = .ok (rs, lk')) :
    (∀ r, r ∈ rs ↔ (∃ b ∈ product ([p] :: axes), r = binRow b (t.vals (binIdx b))) ∨ TotalRowOf t axes lk p r) ∧
    lk'.inner = innerVars axes lk.inner ∧
    lk'.total = (match totalCol t with | none => lk.total | some c => some c) := by
  unfold cellPass at h
  cases hb : binRows t (product ([p] :: axes)) with
  | error e => rw [hb] at h; simp at h
  | ok r =>
    rw [hb] at h
    have hr := binRows_ok hb
    cases hg : getTotal t p.1 with
    | error e => rw [hg] at h; simp at h
    | ok v =>
      have hv : v = t.vals (totalIdx t p.1) := by
        unfold getTotal at hg
        split_ifs at hg
        exact (Except.ok.inj hg).symm
      rw [hg] at h
      simp only at h
      cases hc : totalCol t with
      | none =>
        rw [hc] at h
        simp only [Except.ok.injEq, Prod.mk.injEq] at h
        obtain ⟨rfl, rfl⟩ := h
        refine ⟨?_, rfl, rfl⟩
        intro q
        rw [hr]
        simp only [List.mem_map, TotalRowOf, hc]
        constructor
        · rintro ⟨b, h1, h2⟩; exact Or.inl ⟨b, h1, h2.symm⟩
        · rintro (⟨b, h1, h2⟩ | ⟨c, x, h1, _⟩)
          · exact ⟨b, h1, h2.symm⟩
          · simp at h1
      | some c =>
        rw [hc] at h
        simp only at h
        cases hi : innerVars axes lk.inner with
        | none => rw [hi] at h; simp at h
        | some x =>
          rw [hi] at h
          simp only [Except.ok.injEq, Prod.mk.injEq] at h
          obtain ⟨rfl, rfl⟩ := h
          refine ⟨?_, rfl, rfl⟩
          intro q
          rw [hr]
          simp only [List.mem_append, List.mem_map, List.mem_singleton]
          constructor
          · rintro (⟨b, h1, h2⟩ | h)
            · exact Or.inl ⟨b, h1, h2.symm⟩
            · exact Or.inr ⟨c, x, hc, hi, by rw [h, hv]⟩
          · rintro (⟨b, h1, h2⟩ | ⟨c', x', h1, h2, h3⟩)
            · exact Or.inl ⟨b, h1, h2.symm⟩
            · right
              rw [hc] at h1
              rw [hi] at h2
              cases h1
              cases h2
              rw [h3, hv]

theorem cellLoop_ok {t : Tally} {axes : List (List (Nat × Val))} {ps : List (Nat × Val)} {lk lk' : Leak}
    {rs : List Row} (h : cellLoop t axes ps lk = .ok (rs, lk')) :
    (∀ r, r ∈ rs ↔ ∃ p ∈ ps, (∃ b ∈ product ([p] :: axes), r = binRow b (t.vals (binIdx b))) ∨
      TotalRowOf t axes lk p r) ∧
    (ps ≠ [] → lk'.total = (match totalCol t with | none => lk.total | some c => some c)) := by
  induction ps generalizing lk rs with
  | nil =>
    simp only [cellLoop, Except.ok.injEq, Prod.mk.injEq] at h
    obtain ⟨rfl, rfl⟩ := h
    exact ⟨by simp, by simp⟩
  | cons p ps ih =>
    simp only [cellLoop] at h
    cases hp : cellPass t axes p lk with
    | error e => rw [hp] at h; simp at h
    | ok q =>
      obtain ⟨r1, lk1⟩ := q
      rw [hp] at h
      simp only at h
      cases hl : cellLoop t axes ps lk1 with
      | error e => rw [hl] at h; simp at h
      | ok q =>
        obtain ⟨r2, lk2⟩ := q
        rw [hl] at h
        simp only [Except.ok.injEq, Prod.mk.injEq] at h
        obtain ⟨rfl, rfl⟩ := h
        obtain ⟨a1, a2, a3⟩ := cellPass_ok hp
        obtain ⟨b1, b2⟩ := ih hl
        have htr : ∀ p r, TotalRowOf t axes lk1 p r ↔ TotalRowOf t axes lk p r := by
          intro p r
          unfold TotalRowOf
          rw [a2, innerVars_idem]
        constructor
        · intro r
          rw [List.mem_append, a1, b1]
          simp only [List.mem_cons, exists_eq_or_imp, htr]
        · intro _
          by_cases hps : ps = []
          · subst hps
            simp only [cellLoop, Except.ok.injEq, Prod.mk.injEq] at hl
            rw [← hl.2, a3]
          · rw [b2 hps, a3]
            cases totalCol t <;> rfl

theorem enum_ne_nil (l : List Val) : enum (orNan l) ≠ [] := by
  unfold enum orNan
  split_ifs with h
  · simp
  · simpa using h

/-! ### the column and row reductions -/

theorem mem_dedup {cols : List Col} {seen : List Row} {rs : List (Nat × Row)} {r : Nat × Row}
    (h : r ∈ dedup cols seen rs) : r ∈ rs := by
  induction rs generalizing seen with
  | nil => simp [dedup] at h
  | cons a rs ih =>
    simp only [dedup] at h
    split_ifs at h
    · exact List.mem_cons_of_mem _ (ih h)
    · rcases List.mem_cons.1 h with h | h
      · rw [h]; simp
      · exact List.mem_cons_of_mem _ (ih h)

theorem same_refl (cols : List Col) (r : Row) : same cols r r = true := by simp [same]

theorem same_iff {cols : List Col} {r s : Row} : same cols r s = true ↔ ∀ c ∈ cols, r c = s c := by
  simp [same]

theorem dedup_keeps {cols : List Col} {seen : List Row} {rs : List (Nat × Row)} {r : Nat × Row}
    (h : r ∈ rs) : (∃ s ∈ seen, same cols r.2 s = true) ∨ ∃ s ∈ dedup cols seen rs, same cols r.2 s.2 = true := by
  induction rs generalizing seen with
  | nil => simp at h
  | cons a rs ih =>
    simp only [dedup]
    rcases List.mem_cons.1 h with h | h
    · subst h
      split_ifs with hs
      · left
        rw [List.any_eq_true] at hs
        exact hs
      · right; exact ⟨r, by simp, same_refl _ _⟩
    · split_ifs with hs
      · exact ih h
      · rcases ih (seen := seen ++ [a.2]) h with ⟨s, h1, h2⟩ | ⟨s, h1, h2⟩
        · rcases List.mem_append.1 h1 with h1 | h1
          · exact Or.inl ⟨s, h1, h2⟩
          · right
            rw [List.mem_singleton.1 h1] at h2
            exact ⟨a, by simp, h2⟩
        · exact Or.inr ⟨s, List.mem_cons_of_mem _ h1, h2⟩

theorem dedup_pairwise (cols : List Col) (seen : List Row) (rs : List (Nat × Row)) :
    (dedup cols seen rs).Pairwise (fun r s => same cols r.2 s.2 = false) ∧
      ∀ r ∈ dedup cols seen rs, ∀ s ∈ seen, same cols r.2 s = false := by
  induction rs generalizing seen with
  | nil => simp [dedup]
  | cons a rs ih =>
    simp only [dedup]
    split_ifs with hs
    · exact ih seen
    · obtain ⟨h1, h2⟩ := ih (seen ++ [a.2])
      constructor
      · refine List.Pairwise.cons ?_ h1
        intro b hb
        have := h2 b hb a.2 (by simp)
        by_contra hc
        rw [Bool.not_eq_false, same_iff] at hc
        rw [Bool.eq_false_iff] at this
        exact this (same_iff.2 (fun c hcc => (hc c hcc).symm))
      · intro r hr s hsm
        rcases List.mem_cons.1 hr with hr | hr
        · subst hr
          by_contra hc
          rw [Bool.not_eq_false] at hc
          exact hs (List.any_eq_true.2 ⟨s, hsm, hc⟩)
        · exact h2 r hr s (List.mem_append_left _ hsm)

theorem mkFrame_rows (rs : List Row) (r : Row) : (∃ n, (n, r) ∈ (mkFrame rs).rows) ↔ r ∈ rs := by
  unfold mkFrame
  simp only [List.mem_map, Prod.mk.injEq]
  constructor
  · rintro ⟨n, p, hp, h1, h2⟩
    rw [← h2]
    exact List.fst_mem_of_mem_zipIdx hp
  · intro h
    obtain ⟨n, hn⟩ := List.getElem?_of_mem h
    exact ⟨n, (r, n), by rw [List.mem_zipIdx_iff_getElem?]; exact hn, rfl, rfl⟩

theorem mkFrame_length (rs : List Row) : (mkFrame rs).rows.length = rs.length := by simp [mkFrame]

theorem allCols_mem (c : Col) : c ∈ allCols := by cases c <;> decide

/-- the reductions as a whole (proof) -/
def reduced (rs : List Row) : Frame := (mkFrame rs).dropna.dropConst.dropDuplicates

theorem dropConst_rows (f : Frame) : f.dropConst.rows = f.rows := by unfold Frame.dropConst; split_ifs <;> rfl

theorem reduced_mem {rs : List Row} {r : Nat × Row} (h : r ∈ (reduced rs).rows) : r.2 ∈ rs := by
  unfold reduced Frame.dropDuplicates at h
  rw [← mkFrame_rows]
  split_ifs at h
  · rw [dropConst_rows] at h
    exact ⟨r.1, h⟩
  · have := mem_dedup h
    rw [dropConst_rows] at this
    exact ⟨r.1, this⟩

theorem reduced_keeps {rs : List Row} {r : Row} (h : r ∈ rs) :
    ∃ s ∈ (reduced rs).rows, ∀ c ∈ (reduced rs).cols, s.2 c = r c := by
  obtain ⟨n, hn⟩ := (mkFrame_rows rs r).2 h
  unfold reduced Frame.dropDuplicates
  split_ifs with hc
  · refine ⟨(n, r), by rw [dropConst_rows]; exact hn, ?_⟩
    rw [hc]; simp
  · have hm : (n, r) ∈ (mkFrame rs).dropna.dropConst.rows := by rw [dropConst_rows]; exact hn
    rcases dedup_keeps (cols := (mkFrame rs).dropna.dropConst.cols) (seen := []) hm with ⟨s, h1, _⟩ | ⟨s, h1, h2⟩
    · simp at h1
    · exact ⟨s, h1, fun c hcc => (same_iff.1 h2 c hcc).symm⟩

theorem constCol_iff {rs : List Row} {c : Col} :
    constCol (mkFrame rs).rows c = true ↔ ∀ r ∈ rs, ∀ s ∈ rs, r c = s c := by
  cases rs with
  | nil => simp [mkFrame, constCol]
  | cons a rs =>
    have hh : ∃ tl, (mkFrame (a :: rs)).rows = (0, a) :: tl := ⟨_, rfl⟩
    obtain ⟨tl, htl⟩ := hh
    have hm := mkFrame_rows (a :: rs)
    rw [htl] at hm
    rw [htl]
    simp only [constCol, List.all_eq_true, decide_eq_true_eq]
    constructor
    · intro h r hr s hs
      obtain ⟨n1, h1⟩ := (hm r).2 hr
      obtain ⟨n2, h2⟩ := (hm s).2 hs
      exact (h (n1, r) h1).trans (h (n2, s) h2).symm
    · intro h x hx
      exact h x.2 ((hm x.2).1 ⟨x.1, hx⟩) a (by simp)

/-- which columns survive -/
theorem reduced_cols {rs : List Row} {c : Col} :
    c ∈ (reduced rs).cols ↔ (∀ r ∈ rs, (r c).isNaN = false) ∧
      (c = .value ∨ c = .error ∨ rs.length ≤ 1 ∨ ∃ r ∈ rs, ∃ s ∈ rs, r c ≠ s c) := by
  have hna : c ∈ (mkFrame rs).dropna.cols ↔ ∀ r ∈ rs, (r c).isNaN = false := by
    unfold Frame.dropna
    simp only [List.mem_filter, List.all_eq_true, Bool.not_eq_true']
    constructor
    · rintro ⟨_, h⟩ r hr
      obtain ⟨n, hn⟩ := (mkFrame_rows rs r).2 hr
      exact h _ hn
    · intro h
      exact ⟨allCols_mem c, fun x hx => h x.2 ((mkFrame_rows rs x.2).1 ⟨x.1, hx⟩)⟩
  have hd : (reduced rs).cols = (mkFrame rs).dropna.dropConst.cols := by
    unfold reduced Frame.dropDuplicates
    split_ifs <;> rfl
  rw [hd]
  unfold Frame.dropConst
  have hlen : (mkFrame rs).dropna.rows.length = rs.length := mkFrame_length rs
  rw [hlen]
  split_ifs with hl
  · simp only [List.mem_filter, hna, Bool.or_eq_true, decide_eq_true_eq, Bool.not_eq_true']
    have hcc : constCol (mkFrame rs).dropna.rows c = false ↔ ∃ r ∈ rs, ∃ s ∈ rs, r c ≠ s c := by
      rw [← Bool.not_eq_true]
      have := constCol_iff (rs := rs) (c := c)
      rw [show (mkFrame rs).dropna.rows = (mkFrame rs).rows from rfl, this]
      push Not
      rfl
    rw [hcc]
    constructor
    · rintro ⟨h1, (h2 | h2) | h2⟩
      · exact ⟨h1, Or.inl h2⟩
      · exact ⟨h1, Or.inr (Or.inl h2)⟩
      · exact ⟨h1, Or.inr (Or.inr (Or.inr h2))⟩
    · rintro ⟨h1, h2 | h2 | h2 | h2⟩
      · exact ⟨h1, Or.inl (Or.inl h2)⟩
      · exact ⟨h1, Or.inl (Or.inr h2)⟩
      · omega
      · exact ⟨h1, Or.inr h2⟩
  · rw [hna]
    constructor
    · intro h; exact ⟨h, Or.inr (Or.inr (Or.inl (by omega)))⟩
    · intro h; exact h.1

/-- what `tallyFrame` gives -/
theorem tallyFrame_ok {t : Tally} {lk lk' : Leak} {fr : Frame} {tf : Option Frame}
    (h : tallyFrame t lk = .ok (fr, tf, lk')) :
    ∃ cs rs, cellLabels 0 t.cells = .ok cs ∧ fr = reduced rs ∧ tf = totalFrame fr lk'.total ∧
      lk'.total = (match totalCol t with | none => lk.total | some c => some c) ∧
      ∀ r, r ∈ rs ↔ (∃ b : BinOf, b.Ok t cs ∧ r = b.row t) ∨
        ∃ f fn, HasLabel cs f fn ∧ TotalRowOf t (innerAxes t) lk (f, fn) r := by
  unfold tallyFrame at h
  cases hc : cellLabels 0 t.cells with
  | error e => rw [hc] at h; simp at h
  | ok cs =>
    rw [hc] at h
    simp only at h
    cases hl : cellLoop t (innerAxes t) (enum (orNan cs)) lk with
    | error e => rw [hl] at h; simp at h
    | ok q =>
      obtain ⟨rs, lk1⟩ := q
      rw [hl] at h
      simp only [Except.ok.injEq, Prod.mk.injEq] at h
      obtain ⟨rfl, rfl, rfl⟩ := h
      obtain ⟨a1, a2⟩ := cellLoop_ok hl
      refine ⟨cs, rs, rfl, rfl, rfl, a2 (enum_ne_nil cs), ?_⟩
      intro r
      rw [a1]
      constructor
      · rintro ⟨⟨f, fn⟩, hp, (⟨b, hb, rfl⟩ | hp')⟩
        · rw [mem_enum_orNan] at hp
          obtain ⟨a, ha, _, _, rfl⟩ := (mem_bins cs hp).1 hb
          exact Or.inl ⟨a, ha, binRow_comb a t⟩
        · rw [mem_enum_orNan] at hp
          exact Or.inr ⟨f, fn, hp, hp'⟩
      · rintro (⟨a, ha, rfl⟩ | ⟨f, fn, hp, hr⟩)
        · refine ⟨(a.f, a.fn), mem_enum_orNan.2 ha.f, Or.inl ⟨a.comb, ?_, (binRow_comb a t).symm⟩⟩
          exact (mem_bins cs ha.f).2 ⟨a, ha, rfl, rfl, rfl⟩
        · exact ⟨(f, fn), mem_enum_orNan.2 hp, Or.inr hr⟩

theorem row_plain (b : BinOf) (t : Tally) (c : Col) (h : c.plain = true) : b.row t c = b.label c := by
  cases c <;> first | rfl | simp [Col.plain] at h

/-! ### C62 -/

/-- **C62 (nothing lost).** Every bin of the tally has a row in its frame that shows, in every plain
column still present, the label of the bin, and the value and error of the bin. -/
theorem frame_complete {t : Tally} {lk lk' : Leak} {fr : Frame} {tf : Option Frame} {cs : List Val}
    (h : tallyFrame t lk = .ok (fr, tf, lk')) (hcs : cellLabels 0 t.cells = .ok cs) (b : BinOf) (hb : b.Ok t cs) :
    ∃ r ∈ fr.rows, (∀ c ∈ fr.cols, c.plain = true → r.2 c = b.label c) ∧
      (.value ∈ fr.cols → r.2 .value = .num (t.vals b.idx).1) ∧
      (.error ∈ fr.cols → r.2 .error = .num (t.vals b.idx).2) := by
  obtain ⟨cs', rs, e1, rfl, _, _, hrs⟩ := tallyFrame_ok h
  rw [hcs] at e1
  cases e1
  obtain ⟨s, hs, hsc⟩ := reduced_keeps ((hrs (b.row t)).2 (Or.inl ⟨b, hb, rfl⟩))
  refine ⟨s, hs, ?_, ?_, ?_⟩
  · intro c hc hp
    rw [hsc c hc, row_plain b t c hp]
  · intro hc; rw [hsc _ hc]; rfl
  · intro hc; rw [hsc _ hc]; rfl

/-- **C62 (nothing invented, nothing twice).** Every row of the frame is the row of a bin or a total row,
and no two rows agree in all columns. -/
theorem frame_sound {t : Tally} {lk lk' : Leak} {fr : Frame} {tf : Option Frame} {cs : List Val}
    (h : tallyFrame t lk = .ok (fr, tf, lk')) (hcs : cellLabels 0 t.cells = .ok cs) :
    (∀ r ∈ fr.rows,
      (∃ b : BinOf, b.Ok t cs ∧ (∀ c, c.plain = true → r.2 c = b.label c) ∧
        r.2 .value = .num (t.vals b.idx).1 ∧ r.2 .error = .num (t.vals b.idx).2) ∨
      (∃ c f fn, totalCol t = some c ∧ HasLabel cs f fn ∧ r.2 c = totalVal ∧ r.2 .cells = fn ∧
        r.2 .value = .num (t.vals (totalIdx t f)).1 ∧ r.2 .error = .num (t.vals (totalIdx t f)).2)) ∧
    (fr.cols ≠ [] → fr.rows.Pairwise (fun r s => ∃ c ∈ fr.cols, r.2 c ≠ s.2 c)) := by
  obtain ⟨cs', rs, e1, rfl, _, _, hrs⟩ := tallyFrame_ok h
  rw [hcs] at e1
  cases e1
  constructor
  · intro r hr
    rcases (hrs r.2).1 (reduced_mem hr) with ⟨b, hb, e⟩ | ⟨f, fn, hf, c, x, h1, h2, h3⟩
    · left
      refine ⟨b, hb, ?_, ?_, ?_⟩
      · intro c hc; rw [e, row_plain b t c hc]
      · rw [e]; rfl
      · rw [e]; rfl
    · right
      have hne : ∀ k : Col, k = .cells ∨ k = .value ∨ k = .error → k ≠ c := by
        intro k hk hkc
        subst hkc
        unfold totalCol at h1
        split_ifs at h1 <;> (rcases hk with hk | hk | hk <;> subst hk <;> simp at h1)
      refine ⟨c, f, fn, h1, hf, ?_, ?_, ?_, ?_⟩
      · rw [h3]; simp [totalRow]
      · rw [h3]; simp only [totalRow]; rw [if_neg (hne _ (Or.inl rfl))]; rfl
      · rw [h3]; simp only [totalRow]; rw [if_neg (hne _ (Or.inr (Or.inl rfl)))]; rfl
      · rw [h3]; simp only [totalRow]; rw [if_neg (hne _ (Or.inr (Or.inr rfl)))]; rfl
  · intro hne
    unfold reduced Frame.dropDuplicates at hne ⊢
    split_ifs at hne ⊢ with hc
    · exact absurd hc hne
    · refine (dedup_pairwise _ [] _).1.imp ?_
      intro a b hab
      by_contra hcon
      push Not at hcon
      rw [Bool.eq_false_iff] at hab
      exact hab (same_iff.2 hcon)

end F4Enix.Mctal
