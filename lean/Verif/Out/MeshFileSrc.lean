import Verif.Out.MeshFileCuv
import Verif.Out.MeshtalGridProps
/-!
# Whole source files (C169)
-/
namespace F4Enix.MeshFile
open F4Enix F4Enix.Mesh F4Enix.Find

/-- the parts of the text of a source (specification) -/
structure SrcText where
  id : Str
  comment : Str
  cooling : Str
  strength : Str
  etype : Str
  ecount : Str
  energies : List Str
  geom : Str
  counts : Str
  place : Str
  x1 : List Str
  x2 : List Str
  x3 : List Str
  start : Str
  data : List Str
  stop : Str

/-- the lines after the first one, up to the values (specification) -/
def SrcText.head (s : SrcText) : List Str :=
  s.comment :: s.cooling :: s.strength :: s.etype :: s.ecount :: (s.energies ++ s.geom :: s.counts :: s.place :: (s.x1 ++ (s.x2 ++ s.x3)))

/-- the lines of a source (specification) -/
def SrcText.lines (s : SrcText) : List Str := s.id :: (s.head ++ s.start :: (s.data ++ [s.stop]))

/-- word `i` of a line (specification) -/
def Word (l : Str) (i : Nat) (w : Str) : Prop := (tokens l)[i]? = some w

/-- the line that places a rectangular mesh: three triples of numbers in fixed columns (specification) -/
def PlaceLineRec (num : ParseNum) (l : Str) (o x y : Vec) : Prop :=
  ShowsNums num (slice 0 44 l) [o.x, o.y, o.z] ∧ ShowsNums num (slice 45 87 l) [x.x, x.y, x.z] ∧ ShowsNums num (l.drop 88) [y.x, y.y, y.z]

/-- geometry and place of a source (specification) -/
inductive SrcPlace (num : ParseNum) (geom l : Str) : Bool → Option Place → Prop
  | box {o x y : Vec} : Word geom 1 "rec".toList → PlaceLineRec num l o x y → getTransformationRec o x y = .ok none → SrcPlace num geom l false none
  | cyl {p : Option Place} : Word geom 1 "cyl".toList → ShowsPlace num true p [l] → SrcPlace num geom l true p

/-- the numbers of a source that stand before its geometry (specification) -/
structure SrcHead (num : ParseNum) (n : Nat) (es : EBin) (cool stren : ℚ) (s : SrcText) : Prop where
  id : "mesh_id".toList <+: s.id ∧ Word s.id 1 (natStr n)
  cooling : WordIs num s.cooling 1 cool
  strength : WordIs num s.strength 1 stren
  etype : ∃ w, Word s.etype 1 w ∧ es.tag = (if w = "bins".toList then .erg else .line)
  explicit : es.explicit = true
  ecount : WordIs num s.ecount 1 (es.data.length : ℚ)
  energies : IsMulti num es.data s.energies

/-- a source in the file: its bins `b`, cooling time, strength and the voxels listed with their cells (specification) -/
structure IsSource (num : ParseNum) (n : Nat) (b : Bounds) (cool stren : ℚ) (vs : List (Nat × List VCell)) (s : SrcText) : Prop where
  head : SrcHead num n b.ebin cool stren s
  geom : SrcPlace num s.geom s.place b.cyl b.place
  counts : Word s.counts 1 (natStr b.x1.length) ∧ Word s.counts 2 (natStr b.x2.length) ∧ Word s.counts 3 (natStr b.x3.length)
  x1 : IsMulti num b.x1 s.x1
  x2 : IsMulti num b.x2 s.x2
  x3 : IsMulti num b.x3 s.x3
  noTimes : b.tbin = noTime
  usable : Usable b
  values : Source num (if b.ne = 1 then b.ne else b.ne - 1) b.ne vs (s.data ++ [s.stop])
  ascending : vs.Pairwise (fun x y => x.1 < y.1)
  positive : ∀ x ∈ vs, 0 < x.1

/-- the marks by which a source is found (specification) -/
structure Marked (n : Nat) (s : SrcText) : Prop where
  id : "mesh_id".toList <+: s.id ∧ Word s.id 1 (natStr n)
  head : ∀ l ∈ s.head, ¬ "source_data".toList <+: l
  start : "source_data".toList <+: s.start
  data : ∀ l ∈ s.data, ¬ "end_source_data".toList <+: l
  stop : "end_source_data".toList <+: s.stop

/-- the lines of sources one after the other (specification) -/
def srcLines (ss : List (Nat × SrcText)) : List Str := (ss.map (fun x => x.2.lines)).flatten

/-- a source file: the number of sources, their strength, the sources, anything (specification) -/
structure IsSrcFile (num : ParseNum) (ss : List (Nat × SrcText)) (file : List Str) : Prop where
  marked : ∀ x ∈ ss, Marked x.1 x.2
  lines : ∃ l1 l2 rest q, file = l1 :: l2 :: (srcLines ss ++ rest) ∧ WordIs num l1 1 (ss.length : ℚ) ∧ WordIs num l2 1 q

/-! ### finding the sources -/

theorem take_eq_iff_prefix (w l : Str) : l.take w.length = w ↔ w <+: l := by
  rw [List.prefix_iff_eq_take]
  exact eq_comm

theorem untilLine_of {w : Str} {xs : List Str} (h : ∀ l ∈ xs, ¬ w <+: l) {k : Str} (hk : w <+: k) (rest : List Str) :
    untilLine w (xs ++ k :: rest) = .ok (k :: rest) := by
  induction xs with
  | nil => rw [List.nil_append, untilLine, if_pos ((take_eq_iff_prefix w k).2 hk)]
  | cons l xs ih =>
    rw [List.cons_append, untilLine, if_neg (fun hc => h l (by simp) ((take_eq_iff_prefix w l).1 hc))]
    exact ih (fun l hl => h l (List.mem_cons_of_mem _ hl))

/-- positions of a source that is followed by `rest` (proof) -/
def srcPlaces (s : SrcText) (rest : List Str) : List Str × List Str :=
  (s.lines ++ rest, s.start :: (s.data ++ s.stop :: rest))

/-- the dictionary of the sources found (proof) -/
def srcCatalog (rest : List Str) : List (Nat × SrcText) → Dict Str (List Str × List Str) → Dict Str (List Str × List Str)
  | [], d => d
  | x :: ss, d => srcCatalog rest ss (Dict.set d (natStr x.1) (srcPlaces x.2 (srcLines ss ++ rest)))

theorem scanCdgsLoop_of {ss : List (Nat × SrcText)} (h : ∀ x ∈ ss, Marked x.1 x.2) (rest : List Str) (d : Dict Str (List Str × List Str)) :
    scanCdgsLoop ss.length (srcLines ss ++ rest) d = .ok (srcCatalog rest ss d) := by
  induction ss generalizing d with
  | nil => rfl
  | cons x ss ih =>
    have hx := h x (by simp)
    have e : srcLines (x :: ss) ++ rest = x.2.lines ++ (srcLines ss ++ rest) := by simp [srcLines]
    have e2 : x.2.lines ++ (srcLines ss ++ rest) = x.2.id :: (x.2.head ++ x.2.start :: (x.2.data ++ x.2.stop :: (srcLines ss ++ rest))) := by
      simp [SrcText.lines]
    rw [e, List.length_cons, scanCdgsLoop]
    rw [e2, if_pos (show ((x.2.id :: (x.2.head ++ x.2.start :: (x.2.data ++ x.2.stop :: (srcLines ss ++ rest)))).headD []).take 7 = "mesh_id".toList from
      (take_eq_iff_prefix "mesh_id".toList x.2.id).2 hx.id.1)]
    simp only [List.headD_cons, List.tail_cons]
    have hw := hx.id.2
    unfold Word at hw
    rw [hw]
    simp only
    rw [untilLine_of hx.head hx.start]
    simp only [List.tail_cons]
    rw [untilLine_of hx.data hx.stop]
    simp only [List.tail_cons]
    rw [ih (fun y hy => h y (List.mem_cons_of_mem _ hy)), ← e2]
    rfl

theorem srcCatalog_keys (rest : List Str) (ss : List (Nat × SrcText)) (d : Dict Str (List Str × List Str)) (k : Str) :
    k ∈ Dict.keys (srcCatalog rest ss d) ↔ k ∈ Dict.keys d ∨ ∃ x ∈ ss, k = natStr x.1 := by
  induction ss generalizing d with
  | nil => simp [srcCatalog]
  | cons x ss ih =>
    simp only [srcCatalog]
    rw [ih, Dict.mem_keys_set]
    simp only [List.mem_cons, exists_eq_or_imp]
    constructor
    · rintro ((h | h) | h)
      · exact Or.inr (Or.inl h)
      · exact Or.inl h
      · exact Or.inr (Or.inr h)
    · rintro (h | h | h)
      · exact Or.inl (Or.inr h)
      · exact Or.inl (Or.inl h)
      · exact Or.inr h

theorem srcCatalog_wf (rest : List Str) (ss : List (Nat × SrcText)) (d : Dict Str (List Str × List Str)) (h : Dict.WF d) :
    Dict.WF (srcCatalog rest ss d) := by
  induction ss generalizing d with
  | nil => exact h
  | cons x ss ih => exact ih _ (Dict.WF_set h _ _)

theorem srcCatalog_get_other (rest : List Str) (ss : List (Nat × SrcText)) (d : Dict Str (List Str × List Str)) (n : Nat) (h : ∀ x ∈ ss, x.1 ≠ n) :
    Dict.get? (srcCatalog rest ss d) (natStr n) = Dict.get? d (natStr n) := by
  induction ss generalizing d with
  | nil => rfl
  | cons x ss ih =>
    simp only [srcCatalog]
    rw [ih _ (fun y hy => h y (List.mem_cons_of_mem _ hy)), Dict.get?_set_ne]
    intro he
    exact h x (by simp) (natStr_inj he)

theorem srcCatalog_get {rest : List Str} {as bs : List (Nat × SrcText)} {n : Nat} {s : SrcText} (d : Dict Str (List Str × List Str))
    (h : ∀ x ∈ bs, x.1 ≠ n) :
    Dict.get? (srcCatalog rest (as ++ (n, s) :: bs) d) (natStr n) = some (srcPlaces s (srcLines bs ++ rest)) := by
  induction as generalizing d with
  | nil =>
    simp only [List.nil_append, srcCatalog]
    rw [srcCatalog_get_other _ _ _ _ h, Dict.get?_set_self]
  | cons x as ih => exact ih _

theorem scanCdgs_file {num : ParseNum} {ss : List (Nat × SrcText)} {file : List Str} (h : IsSrcFile num ss file) :
    ∃ rest, scanCdgs num file = .ok (srcCatalog rest ss []) := by
  obtain ⟨hm, l1, l2, rest, q, rfl, h1, h2⟩ := h
  refine ⟨rest, ?_⟩
  unfold scanCdgs
  simp only [List.headD_cons, List.tail_cons]
  rw [wordNum_ok h1]
  simp only
  rw [wordNum_ok h2]
  simp only
  rw [trunc_nat, scanCdgsLoop_of hm]

/-- **C169.** A source file is opened, and the names listed are the numbers of its sources, each once. -/
theorem sources_listed {num : ParseNum} {ss : List (Nat × SrcText)} {file : List Str} (h : IsSrcFile num ss file) :
    ∃ d, scanCdgs num file = .ok d ∧ (meshList d).Nodup ∧ ∀ w, w ∈ meshList d ↔ ∃ x ∈ ss, w = natStr x.1 := by
  obtain ⟨rest, hr⟩ := scanCdgs_file h
  refine ⟨_, hr, ?_, ?_⟩
  · rw [(meshList_perm _).nodup_iff]
    exact srcCatalog_wf rest ss [] (by simp [Dict.WF, Dict.keys])
  · intro w
    rw [(meshList_perm _).mem_iff, srcCatalog_keys]
    simp [Dict.keys]

/-! ### a source -/

theorem source_append {num : ParseNum} {ner ne : Nat} {vs : List (Nat × List VCell)} {ls : List Str} (h : Source num ner ne vs ls) (rest : List Str) :
    Source num ner ne vs (ls ++ rest) := by
  induction h with
  | done l ws r h => exact .done l ws (r ++ rest) h
  | voxel index cells vs a b h ok t ih => rw [List.append_assoc]; exact .voxel index cells vs a (b ++ rest) h ok ih

theorem wordAt_of {l w : Str} {i : Nat} (h : Word l i w) : wordAt l i = .ok w := by
  unfold wordAt
  rw [show (tokens l)[i]? = some w from h]

theorem wordInt_of {l : Str} {i n : Nat} (h : Word l i (natStr n)) : wordInt l i = .ok (n : ℤ) := by
  unfold wordInt
  rw [show (tokens l)[i]? = some (natStr n) from h]
  simp only
  have := parseInt_intStr (n : ℤ)
  rw [show intStr (n : ℤ) = natStr n from rfl] at this
  rw [this]

theorem recPlace_of {num : ParseNum} {l : Str} {o x y : Vec} (h : PlaceLineRec num l o x y) :
    recPlace num l = (getTransformationRec o x y).map (fun t => t.map (fun t => ⟨t, x, none⟩)) := by
  obtain ⟨h1, h2, h3⟩ := h
  unfold recPlace
  rw [vec3_of h1, vec3_of h2, vec3_of h3]
  simp only [bind, Except.bind, pure, Except.pure]
  cases getTransformationRec o x y <;> rfl

theorem cylPlace_single {num : ParseNum} {c : Bool} {p : Option Place} {ls : List Str} {l : Str} (h : ShowsPlace num c p ls) (hc : c = true) (hl : ls = [l]) :
    cylPlace num l = .ok p := by
  cases h with
  | flat => simp at hc
  | cyl6 h hp =>
    simp only [List.cons.injEq, and_true] at hl
    subst hl
    exact cylPlace6 h hp
  | cyl5 h hp =>
    simp only [List.cons.injEq, and_true] at hl
    subst hl
    exact cylPlace5 h hp

theorem cdgsBoundaries_of {num : ParseNum} {n : Nat} {b : Bounds} {cool stren : ℚ} {vs : List (Nat × List VCell)} {s : SrcText}
    (h : IsSource num n b cool stren vs s) (rest : List Str) :
    ∃ g, cdgsBoundaries num (s.lines ++ rest) = .ok (g, b) ∧ (g = "rec".toList ∨ g = "cyl".toList) := by
  have e : (s.lines ++ rest).drop 4 = s.etype :: s.ecount :: (s.energies ++ s.geom :: s.counts :: s.place :: (s.x1 ++ (s.x2 ++ (s.x3 ++ (s.start :: (s.data ++ [s.stop]) ++ rest))))) := by
    simp [SrcText.lines, SrcText.head]
  obtain ⟨w, hw, htag⟩ := h.head.etype
  obtain ⟨g, hg, hp, hgc⟩ : ∃ g, Word s.geom 1 g ∧
      placeOf num g s.place = .ok b.place ∧
      ((g = "rec".toList ∧ b.cyl = false) ∨ (g = "cyl".toList ∧ b.cyl = true)) := by
    have hgeom := h.geom
    generalize b.cyl = c at hgeom ⊢
    generalize b.place = p at hgeom ⊢
    cases hgeom with
    | box hg hl ht =>
      refine ⟨_, hg, ?_, Or.inl ⟨rfl, rfl⟩⟩
      rw [placeOf, if_neg (by decide), recPlace_of hl, ht]
      rfl
    | cyl hg hl =>
      refine ⟨_, hg, ?_, Or.inr ⟨rfl, rfl⟩⟩
      rw [placeOf, if_pos rfl]
      exact cylPlace_single hl rfl rfl
  refine ⟨g, ?_, hgc.elim (fun h => Or.inl h.1) (fun h => Or.inr h.1)⟩
  unfold cdgsBoundaries
  rw [e]
  simp only [bind, Except.bind, pure, Except.pure, List.headD_cons, List.tail_cons]
  rw [wordAt_of hw]
  simp only
  rw [wordNum_ok h.head.ecount]
  simp only
  rw [trunc_nat, multinums_ok h.head.energies rfl]
  simp only [List.headD_cons, List.tail_cons]
  rw [wordAt_of hg]
  simp only
  rw [wordInt_of h.counts.1]
  simp only
  rw [wordInt_of h.counts.2.1]
  simp only
  rw [wordInt_of h.counts.2.2]
  simp only
  rw [hp]
  simp only [Int.toNat_natCast]
  rw [multinums_ok h.x1 rfl]
  simp only
  rw [multinums_ok h.x2 rfl]
  simp only
  rw [multinums_ok h.x3 rfl]
  simp only [Except.ok.injEq, Prod.mk.injEq, true_and]
  have hcyl : decide (g = "cyl".toList) = b.cyl := by
    rcases hgc with ⟨rfl, hc⟩ | ⟨rfl, hc⟩
    · rw [hc]; decide
    · rw [hc]; decide
  have heb : ({ data := b.ebin.data, tag := if w = "bins".toList then .erg else .line } : EBin) = b.ebin := by
    rw [← htag]
    have := h.head.explicit
    revert this
    generalize b.ebin = eb
    rcases eb with ⟨d, tg, ex⟩
    intro h
    simp only at h
    subst h
    rfl
  rw [hcyl, heb, ← h.noTimes]

theorem cdgsHeader_of {num : ParseNum} {n : Nat} {es : EBin} {cool stren : ℚ} {s : SrcText} (h : SrcHead num n es cool stren s) (rest : List Str) :
    cdgsHeader num (s.lines ++ rest) = .ok (s.comment, cool, stren) := by
  unfold cdgsHeader
  simp only [SrcText.lines, SrcText.head, List.cons_append, List.tail_cons, List.headD_cons]
  rw [wordNum_ok h.cooling]
  simp only
  rw [wordNum_ok h.strength]

/-- **C169.** A source of a file is read with its bins and place, its comment, cooling time and strength; the voxels it lists get their values, all the others
zero. -/
theorem source_exact_partial (cs sn : ℚ → ℚ) {num : ParseNum} (junk : Data) {pre post : List (Nat × SrcText)} {n : Nat} {s : SrcText} {file : List Str}
    (h : IsSrcFile num (pre ++ (n, s) :: post) file) (hn : ∀ x ∈ post, x.1 ≠ n) {b : Bounds} {cool stren : ℚ} {vs : List (Nat × List VCell)}
    (hs : IsSource num n b cool stren vs s) :
    ∃ d r m, scanCdgs num file = .ok d ∧ getCdgs cs sn num junk d (natStr n) = .ok r ∧
      mkFmesh cs sn (b.mesh m) (b.place.map (·.trsf)) none = .ok r.fm ∧ r.place = b.place ∧ r.particle = none ∧
      r.comments = some s.comment ∧ r.source = some (cool, stren) ∧
      ∀ e k3 k2 k1, e < b.ne → k3 < b.n3 → k2 < b.n2 → k1 < b.n1 → m [0, e, k3, k2, k1] = listed vs ((k1 * b.n2 + k2) * b.n3 + k3 + 1) e := by
  obtain ⟨rest, hr⟩ := scanCdgs_file h
  obtain ⟨g, hg, hgc⟩ := cdgsBoundaries_of hs (srcLines post ++ rest)
  obtain ⟨m, hm, hmv⟩ := cdgs_exact_partial junk (nx3 := b.n3) (nx2 := b.n2) (nx1 := b.n1) (head := [s.start]) hs.ascending hs.positive
    (source_append hs.values (srcLines post ++ rest))
  obtain ⟨f, hf⟩ := hs.usable.mkFmesh cs sn m (b.place.map (·.trsf))
  refine ⟨_, { fm := f, place := b.place, particle := none, comments := some s.comment, source := some (cool, stren) }, m, hr, ?_, hf, rfl, rfl, rfl, rfl, hmv⟩
  unfold getCdgs
  rw [srcCatalog_get [] hn]
  simp only [srcPlaces]
  rw [hg]
  simp only
  rw [if_neg (by rw [hs.usable.nonempty]; simp)]
  have e : s.start :: (s.data ++ s.stop :: (srcLines post ++ rest)) = [s.start] ++ (s.data ++ [s.stop] ++ (srcLines post ++ rest)) := by simp
  rw [e]
  rw [show (1 : Nat) = [s.start].length from rfl, hm]
  simp only
  rw [if_neg (by
    rintro ⟨h1, h2⟩
    rcases hgc with h | h
    · exact h1 h
    · exact h2 h)]
  rw [hf]
  simp only
  rw [cdgsHeader_of hs.head]

/-- **C169.** A number that is not of a source of the file is refused. -/
theorem source_unknown_refused (cs sn : ℚ → ℚ) (num : ParseNum) (junk : Data) {d : Dict Str (List Str × List Str)} {n : Str}
    (h : n ∉ meshList d) : getCdgs cs sn num junk d n = .error .keyError := by
  unfold getCdgs
  have : Dict.get? d n = none := by
    cases hg : Dict.get? d n with
    | none => rfl
    | some p =>
      exfalso
      apply h
      rw [(meshList_perm d).mem_iff]
      exact List.mem_map_of_mem (Dict.mem_of_get? hg)
  rw [this]

/-- **C169 fails.** A rectangular source that is moved from the origin is refused with an `UnboundLocalError`. -/
theorem source_moved_refused (cs sn : ℚ → ℚ) {num : ParseNum} (junk : Data) {pre post : List (Nat × SrcText)} {n : Nat} {s : SrcText} {file : List Str}
    (h : IsSrcFile num (pre ++ (n, s) :: post) file) (hn : ∀ x ∈ post, x.1 ≠ n) {es : EBin} {cool stren : ℚ} (hh : SrcHead num n es cool stren s)
    (hg : Word s.geom 1 "rec".toList) {m1 m2 m3 : Nat} (hc : Word s.counts 1 (natStr m1) ∧ Word s.counts 2 (natStr m2) ∧ Word s.counts 3 (natStr m3))
    {o x y : Vec} (hp : PlaceLineRec num s.place o x y) (ho : 1 / 1000000000000000000000000 ≤ o.dot o) :
    ∃ d, scanCdgs num file = .ok d ∧ getCdgs cs sn num junk d (natStr n) = .error .unboundLocal := by
  obtain ⟨rest, hr⟩ := scanCdgs_file h
  refine ⟨_, hr, ?_⟩
  unfold getCdgs
  rw [srcCatalog_get [] hn]
  simp only [srcPlaces]
  have hb : cdgsBoundaries num (s.lines ++ (srcLines post ++ rest)) = .error .unboundLocal := by
    have e : (s.lines ++ (srcLines post ++ rest)).drop 4 = s.etype :: s.ecount :: (s.energies ++ s.geom :: s.counts :: s.place ::
        (s.x1 ++ (s.x2 ++ (s.x3 ++ (s.start :: (s.data ++ [s.stop]) ++ (srcLines post ++ rest)))))) := by
      simp [SrcText.lines, SrcText.head]
    obtain ⟨w, hw, htag⟩ := hh.etype
    unfold cdgsBoundaries
    rw [e]
    simp only [bind, Except.bind, pure, Except.pure, List.headD_cons, List.tail_cons]
    rw [wordAt_of hw]
    simp only
    rw [wordNum_ok hh.ecount]
    simp only
    rw [trunc_nat, multinums_ok hh.energies rfl]
    simp only [List.headD_cons, List.tail_cons]
    rw [wordAt_of hg]
    simp only
    rw [wordInt_of hc.1]
    simp only
    rw [wordInt_of hc.2.1]
    simp only
    rw [wordInt_of hc.2.2]
    simp only
    rw [placeOf, if_neg (by decide), recPlace_of hp, moved_rec_refused o x y ho]
    rfl
  rw [hb]

theorem untilLine_diverges {w : Str} {xs : List Str} (h : ∀ l ∈ xs, ¬ w <+: l) : untilLine w xs = .error .diverges := by
  induction xs with
  | nil => rfl
  | cons l xs ih =>
    rw [untilLine, if_neg (fun hc => h l (by simp) ((take_eq_iff_prefix w l).1 hc))]
    exact ih (fun l hl => h l (List.mem_cons_of_mem _ hl))

/-- **C169 fails.** A source file that ends within its source is never opened: the loop over its lines goes on for ever. -/
theorem source_cut_diverges {num : ParseNum} {l1 l2 id : Str} {head : List Str} {n : Nat} {q : ℚ} {k : Nat} (h1 : WordIs num l1 1 ((k + 1 : Nat) : ℚ))
    (h2 : WordIs num l2 1 q) (hi : "mesh_id".toList <+: id ∧ Word id 1 (natStr n)) (hh : ∀ l ∈ head, ¬ "source_data".toList <+: l) :
    scanCdgs num (l1 :: l2 :: id :: head) = .error .diverges ∧
    ∀ start data, "source_data".toList <+: start → (∀ l ∈ data, ¬ "end_source_data".toList <+: l) →
      scanCdgs num (l1 :: l2 :: id :: (head ++ start :: data)) = .error .diverges := by
  have key : ∀ ls, scanCdgs num (l1 :: l2 :: id :: ls) = scanCdgsLoop (k + 1) (id :: ls) [] := by
    intro ls
    unfold scanCdgs
    simp only [List.headD_cons, List.tail_cons]
    rw [wordNum_ok h1]
    simp only
    rw [wordNum_ok h2]
    simp only
    rw [trunc_nat]
  have hw := hi.2
  unfold Word at hw
  constructor
  · rw [key, scanCdgsLoop, if_pos (show ((id :: head).headD []).take 7 = "mesh_id".toList from (take_eq_iff_prefix "mesh_id".toList id).2 hi.1)]
    simp only [List.headD_cons, List.tail_cons]
    rw [hw]
    simp only
    rw [untilLine_diverges hh]
  · intro start data hs hd
    rw [key, scanCdgsLoop,
      if_pos (show ((id :: (head ++ start :: data)).headD []).take 7 = "mesh_id".toList from (take_eq_iff_prefix "mesh_id".toList id).2 hi.1)]
    simp only [List.headD_cons, List.tail_cons]
    rw [hw]
    simp only
    rw [untilLine_of hh hs]
    simp only [List.tail_cons]
    rw [untilLine_diverges hd]

/-- A listed source mesh without any boundary on one of its axes is refused with `ValueError`, whatever its values. -/
theorem getCdgs_no_boundary (cs sn : ℚ → ℚ) (num : ParseNum) (junk : Data) (d : Dict Str (List Str × List Str)) (n : Str) (top data : List Str)
    (hd : Dict.get? d n = some (top, data)) (geom : Str) (b : Bounds) (hb : cdgsBoundaries num top = .ok (geom, b))
    (he : b.x1 = [] ∨ b.x2 = [] ∨ b.x3 = []) : getCdgs cs sn num junk d n = .error .valueError := by
  have : b.empty = true := by
    unfold Bounds.empty
    rcases he with h | h | h <;> simp [h]
  unfold getCdgs
  simp only [hd, hb, this, if_true]

end F4Enix.MeshFile
