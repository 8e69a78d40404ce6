import Verif.WW.GvrProps
import Verif.WW.File
import Verif.Out.MeshFileMore
import Verif.Out.MeshFileEx
/-!
# From a mesh tally file to a weight-window file (C191)

`create_gvr_from_meshtally_file` on the lines of a meshtal file (src/f4enix/input/ww_gvr/weight_window.py:76-112, ww_parser.py:186-208), with the
reading of these files of `Out/MeshFile` and the objects of `WW/File`.
-/
namespace F4Enix.WW
open F4Enix F4Enix.Mesh F4Enix.MeshFile

/-- what `read_meshtally_file` uses of a tally that was read: bins and values, and `trsf.origin`, `trsf.axis`, `trsf.vec`
(aux_meshtal_functions.py:566-573, 629-633) -/
def gtallyOf (t : Tally) : GTally := ⟨t.fm.mesh, t.place.map (fun p => (p.trsf.origin, p.axis, p.vec))⟩

/-- `meshtal.readMesh(mesh=tally_id)`, `meshtal.mesh[tally_id]` (ww_parser.py:193-194) on a new `Meshtal` -/
def takeTally (get : Str → Except PyErr Tally) (names : List Str) (k : ℤ) : Except PyErr GTally :=
  match afterRead get names [] (.one k) with
  | (_, some e) => .error e
  | (m, none) =>
    match Dict.get? m k with
    | none => .error .keyError
    | some t => .ok (gtallyOf t)

/-- `Meshtal(path)`, the choice of the tally, its reading (ww_parser.py:187-194) -/
def chooseTally (cs sn : ℚ → ℚ) (num : ParseNum) (junk : Data) (file : List Str) (id : ℤ) : Except PyErr GTally :=
  match scan .outside file [] with
  | .error e => .error e
  | .ok d =>
    if id = 0 then
      match meshIds (meshList d) with
      | .error e => .error e
      | .ok [] => .error .indexError
      | .ok (k :: _) => takeTally (getFMesh cs sn num junk d) (meshList d) k
    else takeTally (getFMesh cs sn num junk d) (meshList d) id

/-- the object made from a tally (weight_window.py:101-111) -/
def gvrObject (pw : ℚ → ℚ → ℚ) (t : GTally) (r soft : ℚ) : Except PyErr (Geo × Window) :=
  match gvrParse t with
  | .error e => .error e
  | .ok p =>
    match geoOf p with
    | .error e => .error e
    | .ok g =>
      match nested p.header.ni p.header.nfz.toNat p.header.nfy.toNat p.header.nfx.toNat p.energies p.values with
      | .error e => .error e
      | .ok v =>
        match createGvr pw g.directors.isSome ((Dict.get? v .neutron).getD []) r soft with
        | .error e => .error e
        | .ok w => .ok (g, w)

/-- `WW.create_gvr_from_meshtally_file` (weight_window.py:76-112) on the lines of the file -/
def createGvrFromMeshtal (pw : ℚ → ℚ → ℚ) (cs sn : ℚ → ℚ) (num : ParseNum) (junk : Data) (file : List Str) (id : ℤ) (r soft : ℚ) :
    Except PyErr (Geo × Window) :=
  match chooseTally cs sn num junk file id with
  | .error e => .error e
  | .ok t => gvrObject pw t r soft

/-! ### the object made from a tally -/

/-- the axis made from bins: the bins, with one interval between any two (specification) -/
def binAxis (x : List ℚ) : Axis := ⟨x, onesOf (x.length - 1)⟩

theorem axisOf_bins (x : List ℚ) (h : x ≠ []) : ∃ b, compose x (onesOf (x.length - 1)) = .ok b ∧ axisOf b = .ok (binAxis x) := by
  have hl : x.length = (onesOf (x.length - 1)).length + 1 := by
    unfold onesOf
    rw [List.length_replicate]
    have := List.length_pos_iff.2 h
    omega
  obtain ⟨b, h1, h2⟩ := c01_decompose_compose x (onesOf (x.length - 1)) hl
  refine ⟨b, h1, ?_⟩
  unfold axisOf
  rw [h2]
  cases x with
  | nil => exact absurd rfl h
  | cons c cs =>
    simp only [List.length_cons, Nat.add_sub_cancel, build1d, buildLoop_ones]
    rfl

theorem ones_sum (n : ℕ) : (onesOf n).sum = n := by
  unfold onesOf
  simp

/-- the object made from a tally with one group of energy: bins, place and values -/
theorem object_exact (pw : ℚ → ℚ → ℚ) (hpw : ∀ x, pw x 1 = x) (t : GTally) (h : OneGroup t.mesh) (hc : t.mesh.cyl = false ∨ t.trsf ≠ none)
    (r soft m : ℚ) (hr : -1 < r) (hpos : 0 < m)
    (hm : ∃ k j i, k < t.mesh.nx3 ∧ j < t.mesh.nx2 ∧ i < t.mesh.nx1 ∧ m = (t.mesh.data [0, 0, k, j, i]).1)
    (hmax : ∀ k j i, k < t.mesh.nx3 → j < t.mesh.nx2 → i < t.mesh.nx1 → (t.mesh.data [0, 0, k, j, i]).1 ≤ m) :
    ∃ hd g w a, gvrHeader t = .ok hd ∧ gvrObject pw t r soft = .ok (g, w) ∧ g.i = binAxis t.mesh.x1 ∧ g.j = binAxis t.mesh.x2 ∧ g.k = binAxis t.mesh.x3 ∧
      g.origin = hd.origin ∧ g.directors = hd.directors ∧ Inv g.shape w ∧ w.values.keys = [.neutron] ∧
      (∀ e, look w.values .neutron e = if e = 100 then some a else none) ∧
      ∀ k j i, k < t.mesh.nx3 → j < t.mesh.nx2 → i < t.mesh.nx1 →
        a.get k j i = some (pw ((t.mesh.data [0, 0, k, j, i]).1 * (2 / ((r + 1) * m))) soft) := by
  obtain ⟨hd, e1, e2, e3, e4, e5⟩ := header_any t h hc
  obtain ⟨b1, c1, g1⟩ := axisOf_bins t.mesh.x1 h.x1
  obtain ⟨b2, c2, g2⟩ := axisOf_bins t.mesh.x2 h.x2
  obtain ⟨b3, c3, g3⟩ := axisOf_bins t.mesh.x3 h.x3
  have hp : gvrParse t = .ok { header := hd, b2i := b1, b2j := b2, b2k := b3, energies := [[100]], values := [fluxValues t.mesh] } := by
    unfold gvrParse
    simp only [e1, MeshData.nx1, MeshData.nx2, MeshData.nx3, c1, c2, c3]
  have hw : (fluxValues t.mesh).length = t.mesh.nx3 * t.mesh.nx2 * t.mesh.nx1 := flux_wf t.mesh
  have hnest : nested hd.ni hd.nfz.toNat hd.nfy.toNat hd.nfx.toNat [[100]] [fluxValues t.mesh] =
      .ok [(.neutron, [(100, ⟨t.mesh.nx3, t.mesh.nx2, t.mesh.nx1, fluxValues t.mesh⟩)])] := by
    rw [e2, e3, e4, e5]
    simp only [Int.toNat_natCast]
    unfold nested
    simp only [List.getElem?_cons_zero]
    unfold nested1
    rw [if_pos (by rw [hw]; simp)]
    simp only [fillEnergies, Dict.set, blockOf, Nat.zero_mul, List.drop_zero]
    rw [List.take_of_length_le (by rw [hw])]
    rfl
  have hgeo : geoOf { header := hd, b2i := b1, b2j := b2, b2k := b3, energies := [[100]], values := [fluxValues t.mesh] } =
      .ok ⟨binAxis t.mesh.x1, binAxis t.mesh.x2, binAxis t.mesh.x3, hd.origin, hd.directors⟩ := by
    unfold geoOf
    simp only [g1, g2, g3]
  have hshape : (Geo.mk (binAxis t.mesh.x1) (binAxis t.mesh.x2) (binAxis t.mesh.x3) hd.origin hd.directors).shape =
      (t.mesh.nx3, t.mesh.nx2, t.mesh.nx1) := by
    unfold Geo.shape binAxis
    simp only [ones_sum, Int.toNat_natCast, MeshData.nx1, MeshData.nx2, MeshData.nx3]
  have hgood : Good (t.mesh.nx3, t.mesh.nx2, t.mesh.nx1)
      [(Particle.neutron, [((100 : ℚ), (⟨t.mesh.nx3, t.mesh.nx2, t.mesh.nx1, fluxValues t.mesh⟩ : Arr3))])] := by
    refine ⟨Or.inl rfl, ?_⟩
    intro p' d hd'
    simp only [List.mem_singleton, Prod.mk.injEq] at hd'
    rw [hd'.2]
    refine ⟨by simp, by simp [Dict.WF, Dict.keys], ?_⟩
    intro e' a' ha
    simp only [List.mem_singleton, Prod.mk.injEq] at ha
    rw [ha.2]
    exact ⟨flux_wf _, rfl⟩
  obtain ⟨w, w1, w2, w3, w4⟩ := c08_gvr_softened pw hpw hd.directors.isSome _ hgood r m soft
    (by
      simp only [List.map_cons, List.map_nil, List.flatten_cons, List.flatten_nil, List.append_nil]
      exact (flux_mem _ _).2 hm)
    (by
      intro x hx
      simp only [List.map_cons, List.map_nil, List.flatten_cons, List.flatten_nil, List.append_nil] at hx
      obtain ⟨k, j, i, hk, hj, hi, rfl⟩ := (flux_mem _ _).1 hx
      exact hmax k j i hk hj hi) hpos hr
  refine ⟨hd, _, w, (⟨t.mesh.nx3, t.mesh.nx2, t.mesh.nx1, fluxValues t.mesh⟩ : Arr3).map (fun x => pw (x * (2 / ((r + 1) * m))) soft), e1, ?_, rfl, rfl, rfl,
    rfl, rfl, by rw [hshape]; exact w2, w3, ?_, ?_⟩
  · unfold gvrObject
    simp only [hp, hgeo, hnest, Dict.get?, if_true, Option.getD_some, w1]
  · intro e
    rw [w4]
    by_cases he : e = 100
    · subst he; simp [Dict.get?]
    · rw [if_neg he]; simp [Dict.get?, Ne.symm he]
  · intro k j i hk hj hi
    have := flux_get t.mesh k j i hk hj hi
    unfold Arr3.get at this ⊢
    rw [if_pos ⟨hk, hj, hi⟩] at this
    rw [if_pos (by exact ⟨hk, hj, hi⟩)]
    show ((fluxValues t.mesh).map _)[_]? = _
    rw [List.getElem?_map]
    exact (congrArg (Option.map _) this)

/-! ### the choice of the tally -/

theorem takeTally_ok {get : Str → Except PyErr Tally} (names : List Str) {n : ℕ} (h0 : 0 < n) {t : Tally} (h : get (natStr n) = .ok t) :
    takeTally get names (n : ℤ) = .ok (gtallyOf t) := by
  have : afterRead get names [] (.one (n : ℤ)) = ([((n : ℤ), t)], none) := by
    have hm : readMesh get names (.one (n : ℤ)) = .ok [((n : ℤ), t)] := by
      show (if (n : ℤ) = 0 then readAll get names [] else readMany get [(n : ℤ)] []) = _
      rw [if_neg (by omega)]
      unfold readMany
      simp only [show intStr (n : ℤ) = natStr n from rfl, h]
      rfl
    unfold afterRead
    rw [hm]
  unfold takeTally
  rw [this]
  simp [Dict.get?]

/-- **C191 (the tally used).** Asked for its number, or for none if it has the smallest number of the file, the tally is read as the file shows it. -/
theorem chosen_tally (cs sn : ℚ → ℚ) {num : ParseNum} (junk : Data) {pre post : List (Nat × TallyText)} {n : Nat} {t : TallyText} {file : List Str}
    (h : IsFile (pre ++ (n, t) :: post) file) (hn : ∀ x ∈ post, x.1 ≠ n) {b : Bounds} (hb : ShowsBounds num b t.bins) (hu : Usable b)
    {v : Nat → Nat → Nat → Nat → Nat → ℚ × ℚ} (hv : ShowsValues num b v t.data) (h0 : 0 < n) {id : ℤ}
    (hid : id = n ∨ id = 0 ∧ ∀ x ∈ pre ++ (n, t) :: post, n ≤ x.1) :
    ∃ r, chooseTally cs sn num junk file id = .ok (gtallyOf r) ∧ ReadAs cs sn b v t r := by
  obtain ⟨d, r, hs, hg, hr⟩ := tally_exact cs sn junk h hn hb hu hv
  refine ⟨r, ?_, hr⟩
  unfold chooseTally
  simp only [hs]
  rcases hid with rfl | ⟨rfl, hmin⟩
  · rw [if_neg (by omega)]
    exact takeTally_ok _ h0 hg
  · rw [if_pos rfl]
    obtain ⟨d', ks, hs', hi, hp, hk⟩ := ids_exact h
    rw [hs] at hs'
    cases hs'
    simp only [hi]
    have hmem : (n : ℤ) ∈ ks := (hk n).2 ⟨(n, t), by simp, rfl⟩
    cases ks with
    | nil => simp at hmem
    | cons k ks =>
      have hkn : k = (n : ℤ) := by
        obtain ⟨x, hx, hxk⟩ := (hk k).1 (by simp)
        have h1 : (n : ℤ) ≤ k := by rw [hxk]; exact_mod_cast hmin x hx
        rcases List.mem_cons.1 hmem with h2 | h2
        · exact h2.symm
        · have := (List.pairwise_cons.1 hp).1 _ h2
          omega
      simp only [hkn]
      exact takeTally_ok _ h0 hg

/-- **C191 (nothing to use).** A file without mesh tallies is refused when no tally is asked for. -/
theorem no_tally_refused (pw : ℚ → ℚ → ℚ) (cs sn : ℚ → ℚ) (num : ParseNum) (junk : Data) {file : List Str} (h : IsFile [] file) (r soft : ℚ) :
    createGvrFromMeshtal pw cs sn num junk file 0 r soft = .error .indexError := by
  obtain ⟨d, ks, hs, hi, -, hk⟩ := ids_exact h
  have : ks = [] := by
    cases ks with
    | nil => rfl
    | cons k ks =>
      obtain ⟨x, hx, -⟩ := (hk k).1 (by simp)
      simp at hx
  subst this
  unfold createGvrFromMeshtal chooseTally
  simp only [hs, hi, if_true]

/-- **C191 (unknown tally).** Asked for a tally that the file does not have, the file is refused. -/
theorem unknown_tally_refused (pw : ℚ → ℚ → ℚ) (cs sn : ℚ → ℚ) (num : ParseNum) (junk : Data) {ts : List (Nat × TallyText)} {file : List Str}
    (h : IsFile ts file) {z : ℤ} (h0 : z ≠ 0) (hn : ∀ x ∈ ts, z ≠ x.1) (r soft : ℚ) :
    createGvrFromMeshtal pw cs sn num junk file z r soft = .error .keyError := by
  obtain ⟨d, hs, hg⟩ := unknown_refused cs sn num junk h hn
  have ha : afterRead (getFMesh cs sn num junk d) (meshList d) [] (.one z) = ([], some .keyError) := by
    have hm : readMesh (getFMesh cs sn num junk d) (meshList d) (.one z) = .error .keyError := by
      show (if z = 0 then readAll _ _ [] else readMany _ [z] []) = _
      rw [if_neg h0]
      unfold readMany
      simp only [hg]
    unfold afterRead
    rw [hm]
  unfold createGvrFromMeshtal chooseTally
  simp only [hs]
  rw [if_neg h0]
  unfold takeTally
  rw [ha]

/-! ### the window of a file -/

/-- **Specification**: the greatest value of the flux in the tally (its first energy and time) -/
def Greatest (b : Bounds) (v : Nat → Nat → Nat → Nat → Nat → ℚ × ℚ) (m : ℚ) : Prop :=
  (∃ k j i, k < b.n3 ∧ j < b.n2 ∧ i < b.n1 ∧ m = (v 0 0 k j i).1) ∧ ∀ k j i, k < b.n3 → j < b.n2 → i < b.n1 → (v 0 0 k j i).1 ≤ m

/-- **Specification**: a window with one map of neutrons, for energies up to 100, of the values `x k j i` in the voxels of the bins `x3`, `x2`, `x1` -/
structure IsWindow (x1 x2 x3 : List ℚ) (x : ℕ → ℕ → ℕ → ℚ) (g : Geo) (w : Window) : Prop where
  i : g.i = binAxis x1
  j : g.j = binAxis x2
  k : g.k = binAxis x3
  inv : Inv g.shape w
  particles : w.values.keys = [.neutron]
  values : ∃ a, (∀ e, look w.values .neutron e = if e = 100 then some a else none) ∧
    ∀ k j i, k < x3.length - 1 → j < x2.length - 1 → i < x1.length - 1 → a.get k j i = some (x k j i)

/-- **C191 (rectangular meshes).** The window made from a tally of a meshtal file has the bins of the tally, lies at zero, and has in every voxel the value
`flux * 2 / ((ratio + 1) * greatest flux)`, raised to the softening factor, whatever other tallies the file has. -/
theorem gvr_rect (pw : ℚ → ℚ → ℚ) (hpw : ∀ x, pw x 1 = x) (cs sn : ℚ → ℚ) {num : ParseNum} (junk : Data) {pre post : List (Nat × TallyText)} {n : Nat}
    {t : TallyText} {file : List Str} (h : IsFile (pre ++ (n, t) :: post) file) (hn : ∀ x ∈ post, x.1 ≠ n) {b : Bounds} (hb : ShowsBounds num b t.bins)
    (hu : Usable b) {v : Nat → Nat → Nat → Nat → Nat → ℚ × ℚ} (hv : ShowsValues num b v t.data) (h0 : 0 < n) {id : ℤ}
    (hid : id = n ∨ id = 0 ∧ ∀ x ∈ pre ++ (n, t) :: post, n ≤ x.1) (hc : b.cyl = false) (he : b.ebin.data.length ≤ 2) (hne : 0 < b.ne) (hnt : 0 < b.nt)
    {r soft m : ℚ} (hr : -1 < r) (hpos : 0 < m) (hm : Greatest b v m) :
    ∃ g w, createGvrFromMeshtal pw cs sn num junk file id r soft = .ok (g, w) ∧ g.origin = [0, 0, 0] ∧ g.directors = none ∧
      IsWindow b.x1 b.x2 b.x3 (fun k j i => pw ((v 0 0 k j i).1 * (2 / ((r + 1) * m))) soft) g w := by
  obtain ⟨tl, ht, hr'⟩ := chosen_tally cs sn junk h hn hb hu hv h0 hid
  obtain ⟨m1, m2, m3, m4, m5, m6, m7⟩ := tally_rect hr' hc
  have hg : OneGroup (gtallyOf tl).mesh := ⟨by show tl.fm.mesh.ebin.data.length ≤ 2; rw [m5]; exact he, by show tl.fm.mesh.x1 ≠ []; rw [m2]; exact hu.x1,
    by show tl.fm.mesh.x2 ≠ []; rw [m3]; exact hu.x2, by show tl.fm.mesh.x3 ≠ []; rw [m4]; exact hu.x3⟩
  have n1 : (gtallyOf tl).mesh.nx1 = b.n1 := by show tl.fm.mesh.x1.length - 1 = _; rw [m2]; rfl
  have n2 : (gtallyOf tl).mesh.nx2 = b.n2 := by show tl.fm.mesh.x2.length - 1 = _; rw [m3]; rfl
  have n3 : (gtallyOf tl).mesh.nx3 = b.n3 := by show tl.fm.mesh.x3.length - 1 = _; rw [m4]; rfl
  have hval : ∀ k j i, k < b.n3 → j < b.n2 → i < b.n1 → (gtallyOf tl).mesh.data [0, 0, k, j, i] = v 0 0 k j i :=
    fun k j i hk hj hi => m7 0 0 k j i hnt hne hk hj hi
  obtain ⟨⟨k0, j0, i0, hk0, hj0, hi0, hm0⟩, hmax⟩ := hm
  obtain ⟨hd, g, w, a, e1, e2, e3, e4, e5, e6, e7, e8, e9, e10, e11⟩ := object_exact pw hpw (gtallyOf tl) hg (Or.inl m1) r soft m hr hpos
    ⟨k0, j0, i0, by rw [n3]; exact hk0, by rw [n2]; exact hj0, by rw [n1]; exact hi0, by rw [hval k0 j0 i0 hk0 hj0 hi0]; exact hm0⟩
    (by rw [n1, n2, n3]; intro k j i hk hj hi; rw [hval k j i hk hj hi]; exact hmax k j i hk hj hi)
  obtain ⟨hd', q1, -, -, -, -, -, -, -, -, q2, q3, -⟩ := header_rect (gtallyOf tl) hg m1
  rw [e1] at q1
  cases q1
  refine ⟨g, w, ?_, by rw [e6, q2], by rw [e7, q3], ?_⟩
  · unfold createGvrFromMeshtal
    rw [ht]
    exact e2
  · refine ⟨by rw [e3]; exact congrArg binAxis m2, by rw [e4]; exact congrArg binAxis m3, by rw [e5]; exact congrArg binAxis m4, e8, e9, a, e10, ?_⟩
    intro k j i hk hj hi
    rw [e11 k j i (by rw [n3]; exact hk) (by rw [n2]; exact hj) (by rw [n1]; exact hi), hval k j i hk hj hi]

/-- **C191 (cylinders).** The same for a cylindrical tally that the file moves or turns: the directors are the axis of the file and the direction of zero angle
it gives; the origin has its coordinates in reversed order (C137). A first angular bin that ends beyond half a turn is divided at one half. -/
theorem gvr_cyl_partial (pw : ℚ → ℚ → ℚ) (hpw : ∀ x, pw x 1 = x) (cs sn : ℚ → ℚ) {num : ParseNum} (junk : Data) {pre post : List (Nat × TallyText)} {n : Nat}
    {t : TallyText} {file : List Str} (h : IsFile (pre ++ (n, t) :: post) file) (hn : ∀ x ∈ post, x.1 ≠ n) {b : Bounds} (hb : ShowsBounds num b t.bins)
    (hu : Usable b) {v : Nat → Nat → Nat → Nat → Nat → ℚ × ℚ} (hv : ShowsValues num b v t.data) (h0 : 0 < n) {id : ℤ}
    (hid : id = n ∨ id = 0 ∧ ∀ x ∈ pre ++ (n, t) :: post, n ≤ x.1) (hc : b.cyl = true) {p : Place} (hp : b.place = some p)
    (he : b.ebin.data.length ≤ 2) (hne : 0 < b.ne) (hnt : 0 < b.nt) {a0 a1 : ℚ} {as : List ℚ} (hx : b.x3 = a0 :: a1 :: as)
    {r soft m : ℚ} (hr : -1 < r) (hpos : 0 < m) (hm : Greatest b v m) :
    ∃ g w, createGvrFromMeshtal pw cs sn num junk file id r soft = .ok (g, w) ∧ g.origin = [p.trsf.origin.z, p.trsf.origin.y, p.trsf.origin.x] ∧
      (∃ d2, g.directors = some ([p.axis.x, p.axis.y, p.axis.z], d2) ∧ ∀ u, p.vec = some u → d2 = [u.x, u.y, u.z]) ∧
      (a1 ≤ 1 / 2 → IsWindow b.x1 b.x2 b.x3 (fun k j i => pw ((v 0 0 k j i).1 * (2 / ((r + 1) * m))) soft) g w) ∧
      (1 / 2 < a1 → IsWindow b.x1 b.x2 (a0 :: 1 / 2 :: a1 :: as) (fun k j i => pw ((v 0 0 (k - 1) j i).1 * (2 / ((r + 1) * m))) soft) g w) := by
  obtain ⟨tl, ht, hr'⟩ := chosen_tally cs sn junk h hn hb hu hv h0 hid
  obtain ⟨m1, m2, m3, m5, m6, mle, mgt⟩ := tally_cyl hr' hc hx
  have htr : (gtallyOf tl).trsf = some (p.trsf.origin, p.axis, p.vec) := by
    show tl.place.map _ = _
    rw [hr'.place, hp]
    rfl
  have n1 : (gtallyOf tl).mesh.nx1 = b.n1 := by show tl.fm.mesh.x1.length - 1 = _; rw [m2]; rfl
  have n2 : (gtallyOf tl).mesh.nx2 = b.n2 := by show tl.fm.mesh.x2.length - 1 = _; rw [m3]; rfl
  have hn3 : 0 < b.n3 := by show 0 < b.x3.length - 1; rw [hx]; simp
  -- the third axis and the values of the mesh
  obtain ⟨x3, s, hx3, hs, hval, hle, hgt⟩ : ∃ (x3 : List ℚ) (s : ℕ → ℕ), tl.fm.mesh.x3 = x3 ∧ (∀ k, k < x3.length - 1 → s k < b.n3) ∧
      (∀ k j i, k < x3.length - 1 → j < b.n2 → i < b.n1 → (gtallyOf tl).mesh.data [0, 0, k, j, i] = v 0 0 (s k) j i) ∧
      (a1 ≤ 1 / 2 → x3 = b.x3 ∧ s = fun k => k) ∧ (1 / 2 < a1 → x3 = a0 :: 1 / 2 :: a1 :: as ∧ s = fun k => k - 1) := by
    by_cases hh : a1 ≤ 1 / 2
    · obtain ⟨q1, q2⟩ := mle hh
      exact ⟨b.x3, fun k => k, q1, fun k hk => hk, fun k j i hk hj hi => q2 0 0 k j i hnt hne hk hj hi, fun _ => ⟨rfl, rfl⟩, fun h => absurd h (not_lt.2 hh)⟩
    · obtain ⟨q1, q2⟩ := mgt (not_le.1 hh)
      have hl : (a0 :: 1 / 2 :: a1 :: as).length - 1 = b.n3 + 1 := by
        show _ = b.x3.length - 1 + 1
        rw [hx]; simp
      refine ⟨_, fun k => k - 1, q1, fun k hk => ?_, fun k j i hk hj hi => q2 0 0 k j i hnt hne (by rw [hl] at hk; exact hk) hj hi, fun h => absurd h hh,
        fun _ => ⟨rfl, rfl⟩⟩
      rw [hl] at hk
      show k - 1 < b.n3
      omega
  have n3 : (gtallyOf tl).mesh.nx3 = x3.length - 1 := by show tl.fm.mesh.x3.length - 1 = _; rw [hx3]
  have hx3ne : x3 ≠ [] := by
    by_cases hh : a1 ≤ 1 / 2
    · rw [(hle hh).1]; exact hu.x3
    · rw [(hgt (not_le.1 hh)).1]; simp
  have hg : OneGroup (gtallyOf tl).mesh := ⟨by show tl.fm.mesh.ebin.data.length ≤ 2; rw [m5]; exact he, by show tl.fm.mesh.x1 ≠ []; rw [m2]; exact hu.x1,
    by show tl.fm.mesh.x2 ≠ []; rw [m3]; exact hu.x2, by show tl.fm.mesh.x3 ≠ []; rw [hx3]; exact hx3ne⟩
  obtain ⟨⟨k0, j0, i0, hk0, hj0, hi0, hm0⟩, hmax⟩ := hm
  have hreach : ∃ k, k < x3.length - 1 ∧ s k = k0 := by
    by_cases hh : a1 ≤ 1 / 2
    · obtain ⟨q1, q2⟩ := hle hh
      exact ⟨k0, by rw [q1]; exact hk0, by rw [q2]⟩
    · obtain ⟨q1, q2⟩ := hgt (not_le.1 hh)
      refine ⟨k0 + 1, ?_, by rw [q2]; rfl⟩
      have : k0 < b.x3.length - 1 := hk0
      rw [hx] at this
      rw [q1]
      simp at this ⊢
      omega
  obtain ⟨k1, hk1, hs1⟩ := hreach
  obtain ⟨hd, g, w, a, e1, e2, e3, e4, e5, e6, e7, e8, e9, e10, e11⟩ := object_exact pw hpw (gtallyOf tl) hg (Or.inr (by rw [htr]; simp)) r soft m hr hpos
    ⟨k1, j0, i0, by rw [n3]; exact hk1, by rw [n2]; exact hj0, by rw [n1]; exact hi0, by rw [hval k1 j0 i0 hk1 hj0 hi0, hs1]; exact hm0⟩
    (by rw [n1, n2, n3]; intro k j i hk hj hi; rw [hval k j i hk hj hi]; exact hmax _ j i (hs k hk) hj hi)
  obtain ⟨hd', q1, -, -, -, -, -, -, -, -, q2, q3, -⟩ := header_cyl (gtallyOf tl) hg m1 _ _ _ htr
  rw [e1] at q1
  cases q1
  have hwin : IsWindow b.x1 b.x2 x3 (fun k j i => pw ((v 0 0 (s k) j i).1 * (2 / ((r + 1) * m))) soft) g w := by
    refine ⟨by rw [e3]; exact congrArg binAxis m2, by rw [e4]; exact congrArg binAxis m3, by rw [e5]; exact congrArg binAxis hx3, e8, e9, a, e10, ?_⟩
    intro k j i hk hj hi
    rw [e11 k j i (by rw [n3]; exact hk) (by rw [n2]; exact hj) (by rw [n1]; exact hi), hval k j i hk hj hi]
  refine ⟨g, w, ?_, by rw [e6, q2], by rw [e7]; exact q3, fun hh => ?_, fun hh => ?_⟩
  · unfold createGvrFromMeshtal
    rw [ht]
    exact e2
  · obtain ⟨q1, q2⟩ := hle hh
    rw [q1, q2] at hwin
    exact hwin
  · obtain ⟨q1, q2⟩ := hgt hh
    rw [q1, q2] at hwin
    exact hwin

/-- **C191 (to the file and back).** A window made from a tally, written to a file and loaded again, has the bins and the values of the tally, each number as it
was printed. -/
theorem gvr_saved_and_loaded {f : NumFmt} {rg re : ℚ → ℚ} {x1 x2 x3 : List ℚ} {x : ℕ → ℕ → ℕ → ℚ} {g : Geo} {w : Window} (h : IsWindow x1 x2 x3 x g w)
    (hp : Printable f rg re g w) :
    ∃ text w', save f g w = .ok text ∧ load f text = .ok (g.printed rg, w') ∧ (g.printed rg).i = ⟨x1.map rg, onesOf (x1.length - 1)⟩ ∧
      (g.printed rg).j = ⟨x2.map rg, onesOf (x2.length - 1)⟩ ∧ (g.printed rg).k = ⟨x3.map rg, onesOf (x3.length - 1)⟩ ∧
      ∃ a, look w'.values .neutron (rg 100) = some a ∧
        ∀ k j i, k < x3.length - 1 → j < x2.length - 1 → i < x1.length - 1 → a.get k j i = some (re (x k j i)) := by
  obtain ⟨a, hl, hv⟩ := h.values
  have hd : EnergiesDiffer rg w.values := by
    intro p d hm
    obtain ⟨-, hwf, -⟩ := h.inv.good.each p d hm
    have hpn : p = .neutron := by
      have : p ∈ w.values.keys := List.mem_map.mpr ⟨(p, d), hm, rfl⟩
      rw [h.particles] at this
      simpa using this
    subst hpn
    have hall : ∀ e ∈ Dict.keys d, e = 100 := by
      intro e he
      obtain ⟨⟨e', a'⟩, hm', rfl⟩ := List.mem_map.mp he
      have := hl e'
      rw [mem_look h.inv.good hm hm'] at this
      by_contra hne
      rw [if_neg hne] at this
      cases this
    have hnd : (Dict.keys d).Nodup := hwf
    cases hk : Dict.keys d with
    | nil => simp
    | cons e es =>
      cases es with
      | nil => simp
      | cons e' es =>
        rw [hk] at hall hnd
        rw [hall e (by simp), hall e' (by simp)] at hnd
        simp at hnd
  obtain ⟨text, w', h1, h2, h3, h4⟩ := saved_and_loaded h.inv hp hd
  refine ⟨text, w', h1, h2, by simp [Geo.printed, Axis.printed, h.i, binAxis], by simp [Geo.printed, Axis.printed, h.j, binAxis],
    by simp [Geo.printed, Axis.printed, h.k, binAxis], a.map re, ?_, ?_⟩
  · have h100 := hl 100
    rw [if_pos rfl] at h100
    obtain ⟨d, m1, m2⟩ := look_mem h100
    apply mem_look h4.good (d := d.map (fun ea => (rg ea.1, ea.2.map re)))
    · rw [h3]; exact List.mem_map.mpr ⟨(.neutron, d), m1, rfl⟩
    · exact List.mem_map.mpr ⟨(100, a), m2, rfl⟩
  · intro k j i hk hj hi
    rw [map_get, hv k j i hk hj hi]
    rfl

/-! ### a concrete file -/

/-- a file with the tallies 14 and 4 meets the hypotheses of `gvr_rect`: asked for no tally, the window of tally 4 is made -/
example (cs sn : ℚ → ℚ) (junk : Data) : ∃ g w, createGvrFromMeshtal (fun x _ => x) cs sn digit junk (fileOf ["mcnp", ""] ++ allLines [(14, tally14), (4, tally4')])
    0 3 1 = .ok (g, w) ∧ g.origin = [0, 0, 0] ∧ g.directors = none ∧
    IsWindow [0, 1, 2] [0, 5] [0, 3] (fun k j i => (values4 0 0 k j i).1 * (2 / ((3 + 1) * 8))) g w :=
  gvr_rect (fun x _ => x) (fun _ => rfl) cs sn junk (pre := [(14, tally14)]) (post := []) (n := 4) (t := tally4')
    ⟨by
      intro x hx
      simp only [List.cons_append, List.nil_append, List.mem_cons, List.not_mem_nil, or_false] at hx
      rcases hx with rfl | rfl
      · exact isTally14
      · exact isTally4', _, rfl, by decide +kernel⟩
    (by simp) showsBounds4 usableBounds showsValues4 (by decide) (Or.inr ⟨rfl, by decide⟩) rfl (by decide) (by decide) (by decide) (by decide +kernel) (by decide +kernel)
    ⟨⟨0, 0, 1, by decide, by decide, by decide, by decide +kernel⟩, by
      intro k j i _ _ _
      unfold values4
      split <;> decide +kernel⟩

/-- a file with no tallies, and a file asked for a tally it does not have -/
example : createGvrFromMeshtal (fun x _ => x) id id digit (fun _ => (0, 0)) (fileOf ["mcnp", ""]) 0 3 1 = .error .indexError :=
  no_tally_refused _ _ _ _ _ ⟨by simp, _, (List.append_nil _).symm, by decide +kernel⟩ _ _
example : createGvrFromMeshtal (fun x _ => x) id id digit (fun _ => (0, 0)) theFile 24 3 1 = .error .keyError :=
  unknown_tally_refused _ _ _ _ _ isFile (z := 24) (by decide) (by decide +kernel) _ _

/-- the same file, run: asked for tally 14 -/
example : (createGvrFromMeshtal (fun x _ => x) id id digit (fun _ => (0, 0)) theFile 14 3 1).toOption.map
    (fun gw => (gw.1.i.coarse, (look gw.2.values .neutron 100).map (·.data))) =
  some ([0, 1, 2], some [4 * (2 / 20), 5 * (2 / 20)]) := by decide +kernel

end F4Enix.WW
