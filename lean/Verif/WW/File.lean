import Verif.WW.ParserProps
import Verif.WW.StateProps
import Verif.WW.VectorsProps
/-!
# Weight windows and their files: `load_from_ww_file` and `write_to_ww_file`

src/f4enix/input/ww_gvr/weight_window.py:54-74, 104-107, 401-454 and
src/f4enix/input/ww_gvr/geometry.py:25-58. The object made from the text of a file, and the text
written from the object. The grid made by the constructor is modelled in `WW/Meshgrids`; here only the
failures of `build_1d_vectors` are kept.
-/
namespace F4Enix.WW
open F4Enix

/-- one axis of the geometry: coarse points and fine counts (geometry.py:40-41) -/
structure Axis where
  coarse : List ℚ
  fine : List ℤ
  deriving DecidableEq

/-- `Geometry` (geometry.py:25-58): cylindrical exactly if the directors are there -/
structure Geo where
  i : Axis
  j : Axis
  k : Axis
  origin : List ℚ
  directors : Option (List ℚ × List ℚ)
  deriving DecidableEq

/-- `decompose_b2_vectors` (utils.py:12-64) and `build_1d_vectors` (utils.py:102-138, called when the grid is created,
geometry.py:60-72) for one axis -/
def axisOf (b2 : List ℚ) : Except PyErr Axis :=
  match decompose b2 with
  | .error e => .error e
  | .ok (c, f) =>
    match build1d c f with
    | .error e => .error e
    | .ok _ => .ok ⟨c, f⟩

/-- `WW._create_geometry` (weight_window.py:114-116) -/
def geoOf (r : ParseResult) : Except PyErr Geo :=
  match axisOf r.b2i with
  | .error e => .error e
  | .ok i =>
    match axisOf r.b2j with
    | .error e => .error e
    | .ok j =>
      match axisOf r.b2k with
      | .error e => .error e
      | .ok k => .ok ⟨i, j, k, r.header.origin, r.header.directors⟩

/-- `WW.load_from_ww_file` (weight_window.py:54-74) on the text of the file. Simplification: negative numbers of meshes
in the third line count as zero (numpy takes -1 as "whatever fits"). -/
def load (f : NumFmt) (text : Str) : Except PyErr (Geo × Window) :=
  match parse f text with
  | .error e => .error e
  | .ok r =>
    match geoOf r with
    | .error e => .error e
    | .ok g =>
      match nested r.header.ni r.header.nfz.toNat r.header.nfy.toNat r.header.nfx.toNat r.energies r.values with
      | .error e => .error e
      | .ok v =>
        match newWW g.directors.isSome v with
        | .error e => .error e
        | .ok s => .ok (g, s)

/-- `WW._build_header` (weight_window.py:429-454) -/
def buildHeader (g : Geo) (s : Window) : Header where
  if_ := 1
  iv := 1
  ni := ((particlesOf s.values).length : ℤ)
  nr := if g.directors.isSome then 16 else 10
  probid := "Created by f4enix_ww".toList
  ne := (particlesOf s.values).map (fun p => ((Dict.keys ((s.values.get? p).getD [])).length : ℤ))
  nfx := ints g.i.fine
  nfy := ints g.j.fine
  nfz := ints g.k.fine
  origin := g.origin
  ncx := coarseInts g.i.coarse
  ncy := coarseInts g.j.coarse
  ncz := coarseInts g.k.coarse
  directors := g.directors

/-- `WW.write_to_ww_file` (weight_window.py:401-427): the text of the file -/
def save (f : NumFmt) (g : Geo) (s : Window) : Except PyErr Str :=
  match compose g.i.coarse g.i.fine with
  | .error e => .error e
  | .ok bi =>
    match compose g.j.coarse g.j.fine with
    | .error e => .error e
    | .ok bj =>
      match compose g.k.coarse g.k.fine with
      | .error e => .error e
      | .ok bk =>
        write f ⟨buildHeader g s, bi, bj, bk, (formatNested s.values).1, (formatNested s.values).2⟩

/-! ### specification -/

/-- **Specification**: an axis: one coarse point more than fine counts, no count below one, and all
numbers are printed (`NumOk`), the counts exactly. -/
structure AxisOk (f : NumFmt) (rg : ℚ → ℚ) (a : Axis) : Prop where
  len : a.coarse.length = a.fine.length + 1
  pos : ∀ n ∈ a.fine, 1 ≤ n
  coarse : ∀ q ∈ a.coarse, NumOk f f.g rg q
  fine : ∀ n ∈ a.fine, NumOk f f.g rg n ∧ rg n = n
  total : NumOk f f.g rg (a.fine.sum : ℤ) ∧ rg (a.fine.sum : ℤ) = (a.fine.sum : ℤ)
  intervals : NumOk f f.g rg (a.fine.length : ℤ) ∧ rg (a.fine.length : ℤ) = (a.fine.length : ℤ)

/-- **Specification**: a window whose mesh is that of the geometry and whose numbers can be printed: `rg` is the value
of a number printed with five digits (`#.5g`), `re` that of one printed as `#.4E`. -/
structure Printable (f : NumFmt) (rg re : ℚ → ℚ) (g : Geo) (s : Window) : Prop where
  i : AxisOk f rg g.i
  j : AxisOk f rg g.j
  k : AxisOk f rg g.k
  one : NumOk f f.g rg 1 ∧ rg 1 = 1
  two : NumOk f f.g rg 2
  origin : g.origin.length = 3 ∧ ∀ q ∈ g.origin, NumOk f f.g rg q
  directors : ∀ d1 d2, g.directors = some (d1, d2) → d1.length = 3 ∧ d2.length = 3 ∧ ∀ q ∈ d1 ++ d2, NumOk f f.g rg q
  numbers : ∀ p d, (p, d) ∈ s.values → d.length < 10 ^ 8 ∧ ∀ e a, (e, a) ∈ d → NumOk f f.g rg e ∧ ∀ q ∈ a.data, NumOk f f.e re q

/-- the shape of the arrays of a geometry (weight_window.py:140-155) -/
def Geo.shape (g : Geo) : ℕ × ℕ × ℕ := (g.k.fine.sum.toNat, g.j.fine.sum.toNat, g.i.fine.sum.toNat)

/-- an axis as printed (specification) -/
def Axis.printed (rg : ℚ → ℚ) (a : Axis) : Axis := ⟨a.coarse.map rg, a.fine⟩

/-- the geometry as printed: the same counts, every number as printed (specification) -/
def Geo.printed (rg : ℚ → ℚ) (g : Geo) : Geo :=
  ⟨g.i.printed rg, g.j.printed rg, g.k.printed rg, g.origin.map rg, g.directors.map (fun d => (d.1.map rg, d.2.map rg))⟩

/-- the values as printed: same particles and energies in the same order, every number as printed (specification) -/
def printedValues (rg re : ℚ → ℚ) (v : Values) : Values :=
  v.map (fun pd => (pd.1, pd.2.map (fun ea => (rg ea.1, ea.2.map re))))

/-- no two energies of a particle are printed alike (specification) -/
def EnergiesDiffer (rg : ℚ → ℚ) (v : Values) : Prop :=
  ∀ p d, (p, d) ∈ v → ((Dict.keys d).map rg).Nodup

/-! ### lemmas -/

theorem natStrFuel_len (f n k : ℕ) (h : n < 10 ^ (k + 1)) : (natStrFuel f n).length ≤ k + 1 := by
  induction f generalizing n k with
  | zero => simp [natStrFuel]
  | succ f ih =>
    rw [natStrFuel]
    split
    · simp
    · cases k with
      | zero => simp at h; omega
      | succ k =>
        have : n / 10 < 10 ^ (k + 1) := by
          rw [Nat.div_lt_iff_lt_mul (by norm_num)]
          rw [pow_succ] at h; omega
        have := ih (n / 10) k this
        simp; omega

theorem small_int {n : ℕ} (h : n < 10 ^ 8) : (intStr (n : ℤ)).length < 10 := by
  have : intStr (n : ℤ) = natStr n := rfl
  rw [this]
  have := natStrFuel_len n n 7 h
  unfold natStr; omega

theorem flatten_triples (l : List (ℤ × ℚ)) : ((l.map (fun p => [(p.1 : ℚ), p.2, 1])).flatten).length = 3 * l.length := by
  induction l with
  | nil => rfl
  | cons a l ih => simp only [List.map_cons, List.flatten_cons, List.length_append, ih, List.length_cons, List.length_nil]; omega

/-- composing, printing and decomposing an axis -/
theorem axis_roundtrip {f : NumFmt} {rg : ℚ → ℚ} {a : Axis} (h : AxisOk f rg a) (h1 : rg 1 = 1) (o1 : NumOk f f.g rg 1) :
    ∃ b2, compose a.coarse a.fine = .ok b2 ∧ (b2.length : ℤ) = 3 * (a.fine.length : ℤ) + 1 ∧
      (∀ q ∈ b2, NumOk f f.g rg q) ∧ axisOf (b2.map rg) = .ok (a.printed rg) := by
  obtain ⟨coarse, fine⟩ := a
  obtain ⟨hlen, hpos, hc, hfi, -, -⟩ := h
  simp only at hlen hpos hc hfi ⊢
  cases coarse with
  | nil => simp at hlen
  | cons c0 cs =>
    have hl : fine.length = cs.length := by simpa using hlen.symm
    have e1 : (fine.zip cs).map Prod.snd = cs := List.map_snd_zip (by omega)
    have e2 : (fine.zip cs).map Prod.fst = fine := List.map_fst_zip (by omega)
    have hcomp := c01_compose_format c0 (fine.zip cs) []
    rw [e1, e2, List.append_nil] at hcomp
    have hzl : (fine.zip cs).length = fine.length := by simp [hl]
    refine ⟨_, hcomp, ?_, ?_, ?_⟩
    · simp only [b2Of, List.length_cons, flatten_triples, hzl]; push_cast; ring
    · intro q hq
      simp only [b2Of, List.mem_cons, List.mem_flatten, List.mem_map] at hq
      rcases hq with rfl | ⟨l, ⟨p, hp, rfl⟩, hq⟩
      · exact hc q (by simp)
      · have hpz : p.1 ∈ fine ∧ p.2 ∈ cs := by
          obtain ⟨a, b⟩ := p
          exact List.of_mem_zip hp
        simp only [List.mem_cons, List.not_mem_nil, or_false] at hq
        rcases hq with rfl | rfl | rfl
        · exact (hfi _ hpz.1).1
        · exact hc _ (by simp [hpz.2])
        · exact o1
    · have hmap : (b2Of c0 (fine.zip cs)).map rg = b2Of (rg c0) (fine.zip (cs.map rg)) := by
        clear hcomp e1 e2 hlen hzl hc
        unfold b2Of
        simp only [List.map_cons]
        congr 1
        induction fine generalizing cs with
        | nil => simp
        | cons n fine ih =>
          cases cs with
          | nil => simp at hl
          | cons c cs =>
            simp only [List.zip_cons_cons, List.map_cons, List.flatten_cons, List.map_append, List.map_nil]
            rw [ih (fun m hm => hpos m (by simp [hm])) (fun m hm => hfi m (by simp [hm])) cs (by simpa using hl),
              (hfi n (by simp)).2, h1]
      obtain ⟨d1, d2⟩ := insert_b2 (rg c0) (fine.zip (cs.map rg))
      have e1' : (fine.zip (cs.map rg)).map Prod.snd = cs.map rg := List.map_snd_zip (by simp; omega)
      have e2' : (fine.zip (cs.map rg)).map Prod.fst = fine := List.map_fst_zip (by simp; omega)
      rw [e1'] at d1
      rw [e2'] at d2
      have hdec : decompose (b2Of (rg c0) (fine.zip (cs.map rg))) = .ok (rg c0 :: cs.map rg, fine) := by
        simp only [decompose, insertOne, b2Of, d1, d2]
      obtain ⟨v, hv, -⟩ := c02_length (rg c0 :: cs.map rg) fine (by simp [hl]) (fun n hn => by have := hpos n hn; omega)
      unfold axisOf
      rw [hmap, hdec]
      simp only [hv]
      rfl

theorem set_fresh {κ ν : Type} [DecidableEq κ] (d : Dict κ ν) (k : κ) (v : ν) (h : k ∉ Dict.keys d) : d.set k v = d ++ [(k, v)] := by
  induction d with
  | nil => rfl
  | cons a d ih =>
    simp only [Dict.keys, List.map_cons, List.mem_cons, not_or] at h
    have hd : k ∉ Dict.keys d := h.2
    unfold Dict.set
    rw [if_neg (fun e => h.1 e.symm)]
    simp only [List.cons_append]
    rw [ih hd]

/-- the arrays of a particle, joined and cut again -/
theorem fill_cut (nk nj ni : ℕ) (d acc : Dict ℚ Arr3) (pre : List ℚ) (j : ℕ)
    (hs : ∀ e a, (e, a) ∈ d → a.WF ∧ a.shape = (nk, nj, ni)) (hpre : pre.length = j * (nk * nj * ni))
    (hn : (Dict.keys acc ++ Dict.keys d).Nodup) :
    fillEnergies nk nj ni (pre ++ (d.map (fun ea => ea.2.data)).flatten) j (Dict.keys d) acc = acc ++ d := by
  induction d generalizing acc pre j with
  | nil => simp [Dict.keys, fillEnergies]
  | cons x d ih =>
    obtain ⟨e, a⟩ := x
    obtain ⟨hw, hsh⟩ := hs e a (by simp)
    simp only [Arr3.shape, Prod.mk.injEq] at hsh
    obtain ⟨h1, h2, h3⟩ := hsh
    have hlen : a.data.length = nk * nj * ni := by rw [← h1, ← h2, ← h3]; exact hw
    have hkeys : Dict.keys ((e, a) :: d) = e :: Dict.keys d := rfl
    rw [hkeys] at hn ⊢
    have hblock : blockOf nk nj ni (pre ++ (((e, a) :: d).map (fun ea => ea.2.data)).flatten) j = a := by
      unfold blockOf
      rw [List.map_cons, List.flatten_cons, ← hpre, List.drop_left, ← hlen, List.take_left]
      cases a
      simp_all
    have hnot : e ∉ Dict.keys acc := by
      intro he
      have := List.nodup_append.mp hn
      exact this.2.2 e he e (by simp) rfl
    rw [fillEnergies, hblock, set_fresh acc e a hnot]
    have hassoc : pre ++ (((e, a) :: d).map (fun ea => ea.2.data)).flatten = (pre ++ a.data) ++ (d.map (fun ea => ea.2.data)).flatten := by
      simp
    rw [hassoc, ih (acc ++ [(e, a)]) (pre ++ a.data) (j + 1) (fun e' a' h => hs e' a' (by simp [h])) ?_ ?_]
    · simp
    · rw [List.length_append, hpre, hlen]; ring
    · have : Dict.keys (acc ++ [(e, a)]) = Dict.keys acc ++ [e] := by simp [Dict.keys]
      rw [this]; simpa using hn

theorem flatten_data_length {sh : ℕ × ℕ × ℕ} {d : Dict ℚ Arr3} (h : ∀ e a, (e, a) ∈ d → a.WF ∧ a.shape = sh) :
    ((d.map (fun ea => ea.2.data)).flatten).length = d.length * sh.1 * sh.2.1 * sh.2.2 := by
  induction d with
  | nil => simp
  | cons x d ih =>
    obtain ⟨e, a⟩ := x
    obtain ⟨hw, hs⟩ := h e a (by simp)
    subst hs
    simp only [List.map_cons, List.flatten_cons, List.length_append, List.length_cons]
    rw [ih (fun e' a' h' => h e' a' (by simp [h'])), show a.data.length = a.nk * a.nj * a.ni from hw]
    simp only [Arr3.shape]; ring

/-- the values of one particle after printing and cutting -/
theorem nested1_printed {sh : ℕ × ℕ × ℕ} (rg re : ℚ → ℚ) {d : Dict ℚ Arr3} (h : ∀ e a, (e, a) ∈ d → a.WF ∧ a.shape = sh)
    (hn : ((Dict.keys d).map rg).Nodup) :
    nested1 sh.1 sh.2.1 sh.2.2 ((Dict.keys d).map rg) (((d.map (fun ea => ea.2.data)).flatten).map re) =
      .ok (d.map (fun ea => (rg ea.1, ea.2.map re))) := by
  unfold nested1
  rw [if_pos (by rw [List.length_map, flatten_data_length h, List.length_map]; simp [Dict.keys])]
  have hk : Dict.keys (d.map (fun ea => (rg ea.1, ea.2.map re))) = (Dict.keys d).map rg := by
    simp [Dict.keys, Function.comp_def]
  have hf : ((d.map (fun ea => ea.2.data)).flatten).map re =
      ((d.map (fun ea => (rg ea.1, ea.2.map re))).map (fun ea => ea.2.data)).flatten := by
    rw [List.map_flatten, List.map_map, List.map_map]; rfl
  have := fill_cut sh.1 sh.2.1 sh.2.2 (d.map (fun ea => (rg ea.1, ea.2.map re))) [] [] 0 ?_ (by simp) (by rw [hk]; simpa [Dict.keys] using hn)
  · rw [hk] at this
    rw [hf]
    simpa using this
  · intro e a hm
    obtain ⟨⟨e0, a0⟩, h0, h1⟩ := List.mem_map.mp hm
    simp only [Prod.mk.injEq] at h1
    obtain ⟨-, rfl⟩ := h1
    exact ⟨map_wf re (h e0 a0 h0).1, (h e0 a0 h0).2⟩

theorem sum_nonneg {l : List ℤ} (h : ∀ n ∈ l, (1 : ℤ) ≤ n) : 0 ≤ l.sum := by
  induction l with
  | nil => simp
  | cons a l ih =>
    have := h a (by simp)
    have := ih (fun n hn => h n (by simp [hn]))
    simp only [List.sum_cons]; omega

/-- what a window gives to the writer -/
theorem format_good {sh : ℕ × ℕ × ℕ} {s : Window} (h : Good sh s.values) :
    formatNested s.values = (s.values.map (fun pd => Dict.keys pd.2), s.values.map (fun pd => (pd.2.map (fun ea => ea.2.data)).flatten)) ∧
    (particlesOf s.values).map (fun p => ((Dict.keys ((s.values.get? p).getD [])).length : ℤ)) =
      s.values.map (fun pd => ((Dict.keys pd.2).length : ℤ)) ∧ (particlesOf s.values).length = s.values.length := by
  rcases good_cases h with ⟨d, hd⟩ | ⟨d, d', hd⟩
  · rw [hd]
    refine ⟨?_, ?_, ?_⟩ <;> simp [formatNested, particlesOf, Dict.get?]
  · rw [hd]
    refine ⟨?_, ?_, ?_⟩ <;> simp [formatNested, particlesOf, Dict.get?]

/-- the data given to the writer can be written -/
theorem save_writable {f : NumFmt} {rg re : ℚ → ℚ} {g : Geo} {s : Window} (hg : Good g.shape s.values)
    (hp : Printable f rg re g s) :
    ∃ bi bj bk, compose g.i.coarse g.i.fine = .ok bi ∧ compose g.j.coarse g.j.fine = .ok bj ∧ compose g.k.coarse g.k.fine = .ok bk ∧
      axisOf (bi.map rg) = .ok (g.i.printed rg) ∧ axisOf (bj.map rg) = .ok (g.j.printed rg) ∧ axisOf (bk.map rg) = .ok (g.k.printed rg) ∧
      Writable f rg re ⟨buildHeader g s, bi, bj, bk, (formatNested s.values).1, (formatNested s.values).2⟩ := by
  obtain ⟨bi, i1, i2, i3, i4⟩ := axis_roundtrip hp.i hp.one.2 hp.one.1
  obtain ⟨bj, j1, j2, j3, j4⟩ := axis_roundtrip hp.j hp.one.2 hp.one.1
  obtain ⟨bk, k1, k2, k3, k4⟩ := axis_roundtrip hp.k hp.one.2 hp.one.1
  obtain ⟨f1, f2, f3⟩ := format_good hg
  have ci : ∀ a : Axis, a.coarse.length = a.fine.length + 1 → coarseInts a.coarse = (a.fine.length : ℤ) := by
    intro a ha; unfold coarseInts; rw [ha]; push_cast; ring
  refine ⟨bi, bj, bk, i1, j1, k1, i4, j4, k4, ⟨?_, ?_, ?_, hp.origin, ?_, ⟨hp.one.1, hp.two⟩, ⟨?_, i3⟩, ⟨?_, j3⟩, ⟨?_, k3⟩, ?_, ?_, ?_, ?_, ?_⟩⟩
  · intro n hn
    simp only [buildHeader, List.mem_append, List.mem_cons, List.not_mem_nil, or_false] at hn
    rcases hn with (rfl | rfl | rfl | rfl) | hn
    · decide
    · decide
    · rw [f3]; apply small_int
      rcases good_cases hg with ⟨d, hd⟩ | ⟨d, d', hd⟩ <;> rw [hd] <;> norm_num
    · split <;> decide
    · rw [f2] at hn
      obtain ⟨⟨p, d⟩, hm, rfl⟩ := List.mem_map.mp hn
      apply small_int
      have := (hp.numbers p d hm).1
      simpa [Dict.keys] using this
  · exact ⟨["Created".toList, "by".toList, "f4enix_ww".toList], by decide, by simp only [buildHeader]; decide, by simp only [buildHeader]; decide⟩
  · intro n hn
    simp only [buildHeader, List.mem_cons, List.not_mem_nil, or_false] at hn
    rcases hn with rfl | rfl | rfl | rfl | rfl | rfl
    · exact hp.i.total
    · exact hp.j.total
    · exact hp.k.total
    · rw [ci _ hp.i.len]; exact hp.i.intervals
    · rw [ci _ hp.j.len]; exact hp.j.intervals
    · rw [ci _ hp.k.len]; exact hp.k.intervals
  · cases hd : g.directors with
    | none => left; simp [buildHeader, hd]
    | some dd =>
      obtain ⟨d1, d2⟩ := dd
      obtain ⟨l1, l2, l3⟩ := hp.directors d1 d2 hd
      right
      refine ⟨by simp [buildHeader, hd], d1, d2, by simp [buildHeader, hd], l1, l2, l3⟩
  · simp only [buildHeader, ci _ hp.i.len]; exact i2
  · simp only [buildHeader, ci _ hp.j.len]; exact j2
  · simp only [buildHeader, ci _ hp.k.len]; exact k2
  · simp only [buildHeader, f1, f3, List.length_map]
  · simp only [buildHeader, f1, f2, List.map_map]; rfl
  · simp only [buildHeader, f1, List.map_map]
    apply List.map_congr_left
    rintro ⟨p, d⟩ hm
    have h3 := flatten_data_length (hg.each p d hm).2.2
    simp only [Function.comp_apply]
    rw [h3]
    have ni := sum_nonneg hp.i.pos
    have nj := sum_nonneg hp.j.pos
    have nk := sum_nonneg hp.k.pos
    simp only [Geo.shape, ints]
    push_cast
    rw [Int.toNat_of_nonneg ni, Int.toNat_of_nonneg nj, Int.toNat_of_nonneg nk]
    have : (Dict.keys d).length = d.length := by simp [Dict.keys]
    rw [this]; ring
  · simp only [f1]
    intro es hes q hq
    obtain ⟨⟨p, d⟩, hm, rfl⟩ := List.mem_map.mp hes
    obtain ⟨⟨e, a⟩, hea, rfl⟩ := List.mem_map.mp hq
    exact ((hp.numbers p d hm).2 e a hea).1
  · simp only [f1]
    intro es hes q hq
    obtain ⟨⟨p, d⟩, hm, rfl⟩ := List.mem_map.mp hes
    obtain ⟨l, hl, hq⟩ := List.mem_flatten.mp hq
    obtain ⟨⟨e, a⟩, hea, rfl⟩ := List.mem_map.mp hl
    exact ((hp.numbers p d hm).2 e a hea).2 q hq

/-- loading what was written, up to the making of the values -/
theorem load_save {f : NumFmt} {rg re : ℚ → ℚ} {g : Geo} {s : Window} (hg : Good g.shape s.values)
    (hp : Printable f rg re g s) :
    ∃ text, save f g s = .ok text ∧ load f text =
      match nested (s.values.length : ℤ) g.shape.1 g.shape.2.1 g.shape.2.2
        (s.values.map (fun pd => (Dict.keys pd.2).map rg)) (s.values.map (fun pd => ((pd.2.map (fun ea => ea.2.data)).flatten).map re)) with
      | .error e => .error e
      | .ok v => match newWW g.directors.isSome v with
        | .error e => .error e
        | .ok s' => .ok (g.printed rg, s') := by
  obtain ⟨bi, bj, bk, i1, j1, k1, i4, j4, k4, hw⟩ := save_writable hg hp
  obtain ⟨text, h1, h2⟩ := c03_roundtrip f rg re _ hw
  obtain ⟨f1, f2, f3⟩ := format_good hg
  refine ⟨text, ?_, ?_⟩
  · unfold save; rw [i1, j1, k1]; exact h1
  · have hgeo : geoOf (rounded rg re ⟨buildHeader g s, bi, bj, bk, (formatNested s.values).1, (formatNested s.values).2⟩) = .ok (g.printed rg) := by
      unfold geoOf
      simp only [rounded, i4, j4, k4]
      rfl
    have hsome : (g.printed rg).directors.isSome = g.directors.isSome := by simp [Geo.printed]
    unfold load
    simp only [h2, hgeo, hsome]
    have hn : (rounded rg re ⟨buildHeader g s, bi, bj, bk, (formatNested s.values).1, (formatNested s.values).2⟩).header.ni = (s.values.length : ℤ) := by
      show ((particlesOf s.values).length : ℤ) = _
      rw [f3]
    rw [hn]
    simp only [rounded, f1, List.map_map]
    rfl

/-! ### C185: a window and its file -/

/-- **C185**. A window that is consistent — as every window is after any history of operations
(`c07_history`) — written to a file and loaded again is the same window: the same axes with the same counts, origin and directors,
the same particles and energies in the same order, and at every voxel the same value, each number as it was printed. -/
theorem saved_and_loaded {f : NumFmt} {rg re : ℚ → ℚ} {g : Geo} {s : Window} (hi : Inv g.shape s)
    (hp : Printable f rg re g s) (hd : EnergiesDiffer rg s.values) :
    ∃ text s', save f g s = .ok text ∧ load f text = .ok (g.printed rg, s') ∧
      s'.values = printedValues rg re s.values ∧ Inv g.shape s' := by
  obtain ⟨text, h1, h2⟩ := load_save hi.good hp
  have hgood : Good g.shape (printedValues rg re s.values) := by
    refine ⟨?_, ?_⟩
    · have : Dict.keys (printedValues rg re s.values) = Dict.keys s.values := by simp [printedValues, Dict.keys, Function.comp_def]
      rw [this]; exact hi.good.keys
    · intro p d hm
      obtain ⟨⟨p0, d0⟩, h0, e0⟩ := List.mem_map.mp hm
      simp only [Prod.mk.injEq] at e0
      obtain ⟨rfl, rfl⟩ := e0
      obtain ⟨a1, a2, a3⟩ := hi.good.each p0 d0 h0
      refine ⟨by simpa using a1, ?_, ?_⟩
      · have := hd p0 d0 h0
        simpa [Dict.WF, Dict.keys, Function.comp_def] using this
      · intro e a hea
        obtain ⟨⟨e1, a'⟩, h3, e3⟩ := List.mem_map.mp hea
        simp only [Prod.mk.injEq] at e3
        obtain ⟨rfl, rfl⟩ := e3
        exact ⟨map_wf re (a3 e1 a' h3).1, (a3 e1 a' h3).2⟩
  have hnest : nested (s.values.length : ℤ) g.shape.1 g.shape.2.1 g.shape.2.2
        (s.values.map (fun pd => (Dict.keys pd.2).map rg)) (s.values.map (fun pd => ((pd.2.map (fun ea => ea.2.data)).flatten).map re)) =
      .ok (printedValues rg re s.values) := by
    rcases good_cases hi.good with ⟨d, hv⟩ | ⟨d, d', hv⟩
    · have e1 := nested1_printed rg re (hi.good.each .neutron d (by simp [hv])).2.2 (hd .neutron d (by simp [hv]))
      simp only [hv, nested, printedValues, List.map_cons, List.map_nil, List.getElem?_cons_zero, e1]
      rw [if_neg (by simp)]
    · have e1 := nested1_printed rg re (hi.good.each .neutron d (by simp [hv])).2.2 (hd .neutron d (by simp [hv]))
      have e2 := nested1_printed rg re (hi.good.each .photon d' (by simp [hv])).2.2 (hd .photon d' (by simp [hv]))
      simp only [hv, nested, printedValues, List.map_cons, List.map_nil, List.getElem?_cons_zero, List.getElem?_cons_succ, e1, e2]
      rw [if_pos (by simp)]
  rw [hnest] at h2
  obtain ⟨s', n1, n2, -, n4⟩ := inv_set { values := [], ratios := [], grid := [], cyl := g.directors.isSome } hgood
  have n1' : newWW g.directors.isSome (printedValues rg re s.values) = .ok s' := n1
  simp only [n1'] at h2
  exact ⟨text, s', h1, h2, n2, n4⟩

/-- **C185**, read voxel by voxel, after any history of operations on a window: the file holds the window as it is then. -/
theorem history_saved_and_loaded {f : NumFmt} {rg re : ℚ → ℚ} {g : Geo} (pw : ℚ → ℚ → ℚ) (hpw : ∀ x, pw x 1 = x) {s : Window}
    (hi : Inv g.shape s) (ops : List Op) (hp : Printable f rg re g (run pw s ops))
    (hd : EnergiesDiffer rg (run pw s ops).values) :
    ∃ text s', save f g (run pw s ops) = .ok text ∧ load f text = .ok (g.printed rg, s') ∧
      present s' = present (run pw s ops) ∧
      ∀ p e k j i v, (look (run pw s ops).values p e).bind (fun a => a.get k j i) = some v →
        (look s'.values p (rg e)).bind (fun a => a.get k j i) = some (re v) := by
  have hinv := c07_history pw hpw s hi ops
  obtain ⟨text, s', h1, h2, h3, h4⟩ := saved_and_loaded hinv hp hd
  refine ⟨text, s', h1, h2, ?_, ?_⟩
  · unfold present; rw [h3]; simp [printedValues, Dict.keys, Function.comp_def]
  · intro p e k j i v hv
    obtain ⟨a, ha, hg⟩ := Option.bind_eq_some_iff.mp hv
    obtain ⟨d, m1, m2⟩ := look_mem ha
    have : look s'.values p (rg e) = some (a.map re) := by
      apply mem_look h4.good (d := d.map (fun ea => (rg ea.1, ea.2.map re)))
      · rw [h3]; exact List.mem_map.mpr ⟨(p, d), m1, rfl⟩
      · exact List.mem_map.mpr ⟨(e, a), m2, rfl⟩
    rw [this, Option.bind_some, map_get, hg]
    rfl

/-- **C185**, the condition is needed: if two neutron energies are printed alike (they agree in five digits), the window loaded
from the file has fewer neutron energies than the one that was written. -/
theorem energies_merged {f : NumFmt} {rg re : ℚ → ℚ} {g : Geo} {s : Window} (hi : Inv g.shape s)
    (hp : Printable f rg re g s) {d : Dict ℚ Arr3} (hm : (Particle.neutron, d) ∈ s.values) (hd : ¬ ((Dict.keys d).map rg).Nodup)
    {text : Str} {g' : Geo} {s' : Window} (hs : save f g s = .ok text) (hl : load f text = .ok (g', s')) :
    ∃ d', (Particle.neutron, d') ∈ s'.values ∧ d'.length < d.length := by
  obtain ⟨t, h1, h2⟩ := load_save hi.good hp
  rw [hs] at h1
  obtain rfl := Except.ok.inj h1
  rw [hl] at h2
  have hv : ∃ rest, s.values = (.neutron, d) :: rest := by
    rcases good_cases hi.good with ⟨d0, hv⟩ | ⟨d0, d1, hv⟩
    · rw [hv] at hm; simp only [List.mem_cons, List.not_mem_nil, or_false, Prod.mk.injEq, true_and] at hm; subst hm; exact ⟨_, hv⟩
    · rw [hv] at hm
      simp only [List.mem_cons, List.not_mem_nil, or_false, Prod.mk.injEq, true_and, reduceCtorEq, false_and] at hm
      subst hm; exact ⟨_, hv⟩
  obtain ⟨rest, hv⟩ := hv
  split at h2
  · simp at h2
  rename_i v hnest
  split at h2
  · simp at h2
  rename_i s0 hnew
  simp only [Except.ok.injEq, Prod.mk.injEq] at h2
  obtain ⟨-, rfl⟩ := h2
  have hvals : s'.values = v := by
    unfold newWW setValues at hnew
    split at hnew
    · simp at hnew
    split at hnew
    · simp at hnew
    exact (Except.ok.inj hnew) ▸ rfl
  rw [hvals]
  unfold nested at hnest
  simp only [hv, List.map_cons, List.getElem?_cons_zero] at hnest
  split at hnest
  · simp at hnest
  rename_i d0 hd0
  have hin : (Particle.neutron, d0) ∈ v := by
    split at hnest
    · split at hnest
      · split at hnest
        · simp at hnest
        · simp only [Except.ok.injEq] at hnest; rw [← hnest]; simp
      · simp at hnest
    · simp only [Except.ok.injEq] at hnest; rw [← hnest]; simp
  refine ⟨d0, hin, ?_⟩
  unfold nested1 at hd0
  split at hd0
  swap
  · simp at hd0
  rename_i hlen
  simp only [Except.ok.injEq] at hd0
  obtain ⟨w1, -, w3⟩ := fillEnergies_spec g.shape.1 g.shape.2.1 g.shape.2.2 _ _ hlen ((Dict.keys d).map rg) 0 (by simp) []
    ⟨by simp [Dict.WF, Dict.keys], by simp⟩
  rw [hd0] at w1 w3
  have hsub : Dict.keys d0 ⊆ (Dict.keys d).map rg := by
    intro e he
    simpa [Dict.keys] using (w3 e).mp he
  have hsp := w1.subperm hsub
  have hle := hsp.length_le
  have e1 : (Dict.keys d0).length = d0.length := by simp [Dict.keys]
  have e2 : ((Dict.keys d).map rg).length = d.length := by simp [Dict.keys]
  rw [e1, e2] at hle
  rcases Nat.lt_or_ge d0.length d.length with h | h
  · exact h
  · exfalso
    have hperm := hsp.perm_of_length_le (by rw [e1, e2]; exact h)
    exact hd (hperm.nodup_iff.mp w1)

/-! ### concrete cases -/

/-- the toy runtime prints any number as its whole part -/
theorem toy_trunc (q : ℚ) (h : (intStr (truncQ q)).length < 13) :
    NumOk toyFmt toyFmt.g (fun q => (truncQ q : ℚ)) q ∧ NumOk toyFmt toyFmt.e (fun q => (truncQ q : ℚ)) q := by
  refine ⟨⟨?_, ?_, ?_⟩, ⟨?_, ?_, ?_⟩⟩ <;> simp only [toyFmt, parseInt_intStr, Option.map_some]
  · exact intStr_isWord _
  · exact h
  · exact intStr_isWord _
  · exact h

/-- a cylindrical mesh: two radial intervals with one and two cells, two cells in height (example) -/
def sampleGeo : Geo where
  i := ⟨[0, 10, 20], [1, 2]⟩
  j := ⟨[0, 5], [2]⟩
  k := ⟨[0, 1], [1]⟩
  origin := [0, 0, -5]
  directors := some ([0, 0, 1], [1, 0, 0])

/-- two neutron energies and one photon energy; `e` is the first neutron energy (example) -/
def sampleValues (e : ℚ) : Values :=
  [(.neutron, [(e, ⟨1, 2, 3, [1, 2, 3, 4, 5, 6]⟩), (20, ⟨1, 2, 3, [7, 0, 9, 10, 11, 70000]⟩)]),
    (.photon, [(100, ⟨1, 2, 3, [1, 1, 1, 1, 1, 1]⟩)])]

theorem sample_good (e : ℚ) (he : e ≠ 20) : Good sampleGeo.shape (sampleValues e) := by
  refine ⟨Or.inr rfl, ?_⟩
  intro p d hm
  simp only [sampleValues, List.mem_cons, List.not_mem_nil, or_false, Prod.mk.injEq] at hm
  rcases hm with ⟨rfl, rfl⟩ | ⟨rfl, rfl⟩
  · refine ⟨by simp, by simp [Dict.WF, Dict.keys, he], ?_⟩
    intro e' a hm
    simp only [List.mem_cons, List.not_mem_nil, or_false, Prod.mk.injEq] at hm
    rcases hm with ⟨-, rfl⟩ | ⟨-, rfl⟩ <;> exact ⟨rfl, by decide⟩
  · refine ⟨by simp, by simp [Dict.WF, Dict.keys], ?_⟩
    intro e' a hm
    simp only [List.mem_cons, List.not_mem_nil, or_false, Prod.mk.injEq] at hm
    obtain ⟨-, rfl⟩ := hm
    exact ⟨rfl, by decide⟩

theorem trunc_int (n : ℤ) : truncQ (n : ℚ) = n := by simp [truncQ]

theorem sample_printable (e : ℚ) (he : (intStr (truncQ e)).length < 13) {s : Window} (hs : s.values = sampleValues e) :
    Printable toyFmt (fun q => (truncQ q : ℚ)) (fun q => (truncQ q : ℚ)) sampleGeo s := by
  have hg : ∀ l : List ℚ, l.all (fun q => decide ((intStr (truncQ q)).length < 13)) = true →
      ∀ q ∈ l, NumOk toyFmt toyFmt.g (fun q => (truncQ q : ℚ)) q := by
    intro l h q hq; exact (toy_trunc q (by simpa using List.all_eq_true.mp h q hq)).1
  have hev : ∀ l : List ℚ, l.all (fun q => decide ((intStr (truncQ q)).length < 13)) = true →
      ∀ q ∈ l, NumOk toyFmt toyFmt.e (fun q => (truncQ q : ℚ)) q := by
    intro l h q hq; exact (toy_trunc q (by simpa using List.all_eq_true.mp h q hq)).2
  have hi : ∀ n : ℤ, (intStr n).length < 13 → NumOk toyFmt toyFmt.g (fun q => (truncQ q : ℚ)) n ∧ ((truncQ (n : ℚ) : ℤ) : ℚ) = n := by
    intro n h; exact ⟨(toy_trunc n (by rw [trunc_int]; exact h)).1, by rw [trunc_int]⟩
  have h1 := hi 1 (by decide)
  have h2 := hi 2 (by decide)
  have h3 := hi 3 (by decide)
  have c12 : ∀ l : List ℤ, (∀ n ∈ l, n = 1 ∨ n = 2) → ∀ n ∈ l, NumOk toyFmt toyFmt.g (fun q => (truncQ q : ℚ)) n ∧ ((truncQ (n : ℚ) : ℤ) : ℚ) = n := by
    intro l h n hn; rcases h n hn with rfl | rfl <;> assumption
  refine ⟨⟨rfl, by decide, hg _ (by decide +kernel), c12 _ (by decide), h3, h2⟩, ⟨rfl, by decide, hg _ (by decide +kernel), c12 _ (by decide), h2, h1⟩,
    ⟨rfl, by decide, hg _ (by decide +kernel), c12 _ (by decide), h1, h1⟩, by simpa using h1, by simpa using h2.1, ⟨rfl, hg _ (by decide +kernel)⟩, ?_, ?_⟩
  · intro d1 d2 hd
    simp only [sampleGeo, Option.some.injEq, Prod.mk.injEq] at hd
    obtain ⟨rfl, rfl⟩ := hd
    exact ⟨rfl, rfl, hg _ (by decide +kernel)⟩
  · intro p d hm
    rw [hs] at hm
    simp only [sampleValues, List.mem_cons, List.not_mem_nil, or_false, Prod.mk.injEq] at hm
    rcases hm with ⟨rfl, rfl⟩ | ⟨rfl, rfl⟩
    · refine ⟨by norm_num, ?_⟩
      intro e' a hm
      simp only [List.mem_cons, List.not_mem_nil, or_false, Prod.mk.injEq] at hm
      rcases hm with ⟨rfl, rfl⟩ | ⟨rfl, rfl⟩
      · exact ⟨(toy_trunc e' he).1, hev _ (by decide +kernel)⟩
      · exact ⟨hg [20] (by decide +kernel) _ (by simp), hev _ (by decide +kernel)⟩
    · refine ⟨by norm_num, ?_⟩
      intro e' a hm
      simp only [List.mem_cons, List.not_mem_nil, or_false, Prod.mk.injEq] at hm
      obtain ⟨rfl, rfl⟩ := hm
      exact ⟨hg [100] (by decide +kernel) _ (by simp), hev _ (by decide +kernel)⟩

/-- the hypotheses of `saved_and_loaded` are met by a cylindrical window of two particles -/
example : ∃ s, newWW true (sampleValues 1) = .ok s ∧ Inv sampleGeo.shape s ∧
    Printable toyFmt (fun q => (truncQ q : ℚ)) (fun q => (truncQ q : ℚ)) sampleGeo s ∧ EnergiesDiffer (fun q => (truncQ q : ℚ)) s.values := by
  obtain ⟨s, h1, h2, -, h4⟩ := inv_set { values := [], ratios := [], grid := [], cyl := true } (sample_good 1 (by norm_num))
  refine ⟨s, h1, h4, sample_printable 1 (by decide +kernel) h2, ?_⟩
  intro p d hm
  rw [h2] at hm
  simp only [sampleValues, List.mem_cons, List.not_mem_nil, or_false, Prod.mk.injEq] at hm
  rcases hm with ⟨rfl, rfl⟩ | ⟨rfl, rfl⟩ <;> decide +kernel

/-- and those of `energies_merged` by one whose neutron energies 20.5 and 20 are printed alike -/
example : ∃ s, newWW true (sampleValues (41 / 2)) = .ok s ∧ Inv sampleGeo.shape s ∧
    Printable toyFmt (fun q => (truncQ q : ℚ)) (fun q => (truncQ q : ℚ)) sampleGeo s ∧
    ∃ d, (Particle.neutron, d) ∈ s.values ∧ ¬ ((Dict.keys d).map (fun q => (truncQ q : ℚ))).Nodup := by
  obtain ⟨s, h1, h2, -, h4⟩ := inv_set { values := [], ratios := [], grid := [], cyl := true } (sample_good (41 / 2) (by norm_num))
  refine ⟨s, h1, h4, sample_printable (41 / 2) (by decide +kernel) h2, _, by rw [h2]; exact List.mem_cons_self, by decide +kernel⟩

end F4Enix.WW
