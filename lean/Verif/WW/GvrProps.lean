import Verif.WW.Gvr
import Verif.WW.VectorsProps
import Verif.WW.Tight
/-!
# Weight windows made from mesh tallies (C136-C138)
-/
namespace F4Enix.WW
open F4Enix F4Enix.Mesh

/-! ### vectors -/

theorem buildLoop_ones (c : ℚ) (cs : List ℚ) : buildLoop (c :: cs) (onesOf cs.length) = .ok cs := by
  induction cs generalizing c with
  | nil => rfl
  | cons c' cs ih =>
    unfold onesOf at ih ⊢
    rw [List.length_cons, List.replicate_succ, buildLoop, if_neg (by decide), ih c']
    have : linspace c c' ((1 : ℤ) + 1).toNat = [c, c'] := by
      unfold linspace
      rw [show ((1 : ℤ) + 1).toNat = 2 by decide]
      simp [List.range_succ]
      ring
    rw [this]
    rfl

/-- bins written as coarse points with one fine interval each come back as the bins -/
theorem geomVector_bins (x : List ℚ) (h : x ≠ []) :
    ∃ b, compose x (onesOf (x.length - 1)) = .ok b ∧ geomVector b = .ok x := by
  have hl : x.length = (onesOf (x.length - 1)).length + 1 := by
    unfold onesOf
    rw [List.length_replicate]
    have := List.length_pos_iff.2 h
    omega
  obtain ⟨b, h1, h2⟩ := c01_decompose_compose x (onesOf (x.length - 1)) hl
  refine ⟨b, h1, ?_⟩
  unfold geomVector
  rw [h2]
  cases x with
  | nil => exact absurd rfl h
  | cons c cs =>
    rw [List.length_cons, Nat.add_sub_cancel]
    simp only [build1d, buildLoop_ones]

/-! ### the array of the flux -/

theorem flux_wf (m : MeshData) : (⟨m.nx3, m.nx2, m.nx1, fluxValues m⟩ : Arr3).WF :=
  tab_wf m.nx3 m.nx2 m.nx1 (fun k j i => (m.data [0, 0, k, j, i]).1)

theorem flux_get (m : MeshData) (k j i : Nat) (hk : k < m.nx3) (hj : j < m.nx2) (hi : i < m.nx1) :
    (⟨m.nx3, m.nx2, m.nx1, fluxValues m⟩ : Arr3).get k j i = some (m.data [0, 0, k, j, i]).1 := by
  have := tab_get m.nx3 m.nx2 m.nx1 (fun k j i => (m.data [0, 0, k, j, i]).1) k j i
  rw [if_pos ⟨hk, hj, hi⟩] at this
  exact this

theorem flux_mem (m : MeshData) (x : ℚ) :
    x ∈ fluxValues m ↔ ∃ k j i, k < m.nx3 ∧ j < m.nx2 ∧ i < m.nx1 ∧ x = (m.data [0, 0, k, j, i]).1 := by
  constructor
  · intro h
    unfold fluxValues Arr3.tab at h
    simp only [List.mem_map, List.mem_range] at h
    obtain ⟨p, hp, rfl⟩ := h
    have h1 : 0 < m.nx1 := by
      rcases Nat.eq_zero_or_pos m.nx1 with e | e
      · rw [e] at hp; simp at hp
      · exact e
    have h2 : 0 < m.nx2 := by
      rcases Nat.eq_zero_or_pos m.nx2 with e | e
      · rw [e] at hp; simp at hp
      · exact e
    refine ⟨p / (m.nx2 * m.nx1), p / m.nx1 % m.nx2, p % m.nx1, ?_, Nat.mod_lt _ h2, Nat.mod_lt _ h1, rfl⟩
    rw [Nat.div_lt_iff_lt_mul (Nat.mul_pos h2 h1), ← Nat.mul_assoc]
    exact hp
  · rintro ⟨k, j, i, hk, hj, hi, rfl⟩
    have := flux_get m k j i hk hj hi
    unfold Arr3.get at this
    rw [if_pos ⟨hk, hj, hi⟩] at this
    exact List.mem_of_getElem? this

/-! ### reading -/

/-- one group of energy, and at least one boundary in each direction (specification) -/
structure OneGroup (m : MeshData) : Prop where
  e : m.ebin.data.length ≤ 2
  x1 : m.x1 ≠ []
  x2 : m.x2 ≠ []
  x3 : m.x3 ≠ []

theorem header_rect (t : GTally) (h : OneGroup t.mesh) (hc : t.mesh.cyl = false) :
    ∃ hd, gvrHeader t = .ok hd ∧ hd.ni = 1 ∧ hd.nfx = t.mesh.nx1 ∧ hd.nfy = t.mesh.nx2 ∧ hd.nfz = t.mesh.nx3 ∧
      hd.ncx = t.mesh.nx1 ∧ hd.ncy = t.mesh.nx2 ∧ hd.ncz = t.mesh.nx3 ∧ hd.nr = 10 ∧ hd.origin = [0, 0, 0] ∧ hd.directors = none ∧
      hd.ne = [1] := by
  have l1 := List.length_pos_iff.2 h.x1
  have l2 := List.length_pos_iff.2 h.x2
  have l3 := List.length_pos_iff.2 h.x3
  have he := h.e
  unfold gvrHeader
  rw [if_neg (by omega)]
  simp only [hc, if_true]
  refine ⟨_, rfl, rfl, ?_, ?_, ?_, ?_, ?_, ?_, rfl, rfl, rfl, rfl⟩ <;>
    (simp only [MeshData.nx1, MeshData.nx2, MeshData.nx3]; omega)

theorem header_cyl (t : GTally) (h : OneGroup t.mesh) (hc : t.mesh.cyl = true) (o a : Vec) (v : Option Vec) (ht : t.trsf = some (o, a, v)) :
    ∃ hd, gvrHeader t = .ok hd ∧ hd.ni = 1 ∧ hd.nfx = t.mesh.nx1 ∧ hd.nfy = t.mesh.nx2 ∧ hd.nfz = t.mesh.nx3 ∧
      hd.ncx = t.mesh.nx1 ∧ hd.ncy = t.mesh.nx2 ∧ hd.ncz = t.mesh.nx3 ∧ hd.nr = 16 ∧ hd.origin = [o.z, o.y, o.x] ∧
      (∃ d2, hd.directors = some ([a.x, a.y, a.z], d2) ∧ ∀ w, v = some w → d2 = [w.x, w.y, w.z]) ∧ hd.ne = [1] := by
  have l1 := List.length_pos_iff.2 h.x1
  have l2 := List.length_pos_iff.2 h.x2
  have l3 := List.length_pos_iff.2 h.x3
  have he := h.e
  unfold gvrHeader
  rw [if_neg (by omega)]
  simp only [hc, ht]
  refine ⟨_, rfl, rfl, ?_, ?_, ?_, ?_, ?_, ?_, rfl, ?_, ⟨_, rfl, ?_⟩, rfl⟩
  iterate 6 simp only [MeshData.nx1, MeshData.nx2, MeshData.nx3]; omega
  · show (if o.x ≠ 0 ∨ o.y ≠ 0 ∨ o.z ≠ 0 then [o.z, o.y, o.x] else [0, 0, 0]) = _
    split
    · rfl
    · rename_i hz
      simp only [not_or, not_not] at hz
      rw [hz.1, hz.2.1, hz.2.2]
  · intro w hw
    subst hw
    rfl

theorem gvrParse_of_header (t : GTally) (h : OneGroup t.mesh) (hd : Header) (hh : gvrHeader t = .ok hd) :
    ∃ p, gvrParse t = .ok p ∧ p.header = hd ∧ p.energies = [[100]] ∧ p.values = [fluxValues t.mesh] ∧
      geomVector p.b2i = .ok t.mesh.x1 ∧ geomVector p.b2j = .ok t.mesh.x2 ∧ geomVector p.b2k = .ok t.mesh.x3 := by
  obtain ⟨b1, c1, g1⟩ := geomVector_bins t.mesh.x1 h.x1
  obtain ⟨b2, c2, g2⟩ := geomVector_bins t.mesh.x2 h.x2
  obtain ⟨b3, c3, g3⟩ := geomVector_bins t.mesh.x3 h.x3
  unfold gvrParse
  simp only [hh, MeshData.nx1, MeshData.nx2, MeshData.nx3, c1, c2, c3]
  exact ⟨_, rfl, rfl, rfl, rfl, g1, g2, g3⟩

/-- C136 (reading): a rectangular tally with one group of energy: the geometry has exactly the bins of the tally, the origin is zero, and there is
one neutron value per voxel, the flux of the voxel. -/
theorem read_rect (t : GTally) (h : OneGroup t.mesh) (hc : t.mesh.cyl = false) :
    ∃ p, gvrParse t = .ok p ∧ p.header.origin = [0, 0, 0] ∧ p.header.directors = none ∧
      geomVector p.b2i = .ok t.mesh.x1 ∧ geomVector p.b2j = .ok t.mesh.x2 ∧ geomVector p.b2k = .ok t.mesh.x3 ∧
      ∃ a, nested p.header.ni p.header.nfz.toNat p.header.nfy.toNat p.header.nfx.toNat p.energies p.values = .ok [(.neutron, [(100, a)])] ∧
        a.WF ∧ a.nk = t.mesh.nx3 ∧ a.nj = t.mesh.nx2 ∧ a.ni = t.mesh.nx1 ∧
        ∀ k j i, k < t.mesh.nx3 → j < t.mesh.nx2 → i < t.mesh.nx1 → a.get k j i = some (t.mesh.data [0, 0, k, j, i]).1 := by
  obtain ⟨hd, e1, e2, e3, e4, e5, -, -, -, -, e6, e7, -⟩ := header_rect t h hc
  obtain ⟨p, q1, q2, q3, q4, q5, q6, q7⟩ := gvrParse_of_header t h hd e1
  refine ⟨p, q1, by rw [q2]; exact e6, by rw [q2]; exact e7, q5, q6, q7, ⟨t.mesh.nx3, t.mesh.nx2, t.mesh.nx1, fluxValues t.mesh⟩, ?_, flux_wf _, rfl, rfl, rfl,
    fun k j i => flux_get _ k j i⟩
  have hw : (fluxValues t.mesh).length = t.mesh.nx3 * t.mesh.nx2 * t.mesh.nx1 := flux_wf t.mesh
  rw [q2, q3, q4, e2, e3, e4, e5]
  simp only [Int.toNat_natCast]
  unfold nested
  simp only [List.getElem?_cons_zero]
  unfold nested1
  rw [if_pos (by rw [hw]; simp)]
  simp only [fillEnergies, Dict.set, blockOf, Nat.zero_mul, List.drop_zero]
  rw [List.take_of_length_le (by rw [hw])]
  rfl

/-- C137 (reading) for cylindrical tallies: as above, with the axis and, if the file gives it, the direction of zero angle; the origin is that of the file
**in reversed order** (see `origin_reversed`). -/
theorem read_cyl_partial (t : GTally) (h : OneGroup t.mesh) (hc : t.mesh.cyl = true) (o ax : Vec) (v : Option Vec) (ht : t.trsf = some (o, ax, v)) :
    ∃ p, gvrParse t = .ok p ∧ p.header.origin = [o.z, o.y, o.x] ∧
      (∃ d2, p.header.directors = some ([ax.x, ax.y, ax.z], d2) ∧ ∀ w, v = some w → d2 = [w.x, w.y, w.z]) ∧
      geomVector p.b2i = .ok t.mesh.x1 ∧ geomVector p.b2j = .ok t.mesh.x2 ∧ geomVector p.b2k = .ok t.mesh.x3 ∧
      ∃ a, nested p.header.ni p.header.nfz.toNat p.header.nfy.toNat p.header.nfx.toNat p.energies p.values = .ok [(.neutron, [(100, a)])] ∧
        a.WF ∧ a.nk = t.mesh.nx3 ∧ a.nj = t.mesh.nx2 ∧ a.ni = t.mesh.nx1 ∧
        ∀ k j i, k < t.mesh.nx3 → j < t.mesh.nx2 → i < t.mesh.nx1 → a.get k j i = some (t.mesh.data [0, 0, k, j, i]).1 := by
  obtain ⟨hd, e1, e2, e3, e4, e5, -, -, -, -, e6, e7, -⟩ := header_cyl t h hc o ax v ht
  obtain ⟨p, q1, q2, q3, q4, q5, q6, q7⟩ := gvrParse_of_header t h hd e1
  refine ⟨p, q1, by rw [q2]; exact e6, by rw [q2]; exact e7, q5, q6, q7, ⟨t.mesh.nx3, t.mesh.nx2, t.mesh.nx1, fluxValues t.mesh⟩, ?_, flux_wf _, rfl, rfl, rfl,
    fun k j i => flux_get _ k j i⟩
  have hw : (fluxValues t.mesh).length = t.mesh.nx3 * t.mesh.nx2 * t.mesh.nx1 := flux_wf t.mesh
  rw [q2, q3, q4, e2, e3, e4, e5]
  simp only [Int.toNat_natCast]
  unfold nested
  simp only [List.getElem?_cons_zero]
  unfold nested1
  rw [if_pos (by rw [hw]; simp)]
  simp only [fillEnergies, Dict.set, blockOf, Nat.zero_mul, List.drop_zero]
  rw [List.take_of_length_le (by rw [hw])]
  rfl

/-- C137 fails: the origin of the window is that of the tally only if its first and last coordinates are equal. -/
theorem origin_reversed (t : GTally) (h : OneGroup t.mesh) (hc : t.mesh.cyl = true) (o ax : Vec) (v : Option Vec) (ht : t.trsf = some (o, ax, v))
    (p : ParseResult) (hp : gvrParse t = .ok p) : p.header.origin = [o.x, o.y, o.z] ↔ o.x = o.z := by
  obtain ⟨p', q1, q2, -⟩ := read_cyl_partial t h hc o ax v ht
  rw [hp] at q1
  cases q1
  rw [q2]
  constructor
  · intro e
    simp only [List.cons.injEq] at e
    exact e.1.symm
  · intro e
    rw [e]

/-- C137 fails: a cylindrical tally whose transformation is `None` (as for files of MCNP5 with the origin at zero and the axis along z) gives
`AttributeError`. -/
theorem cyl_no_trsf (t : GTally) (h : t.mesh.ebin.data.length ≤ 2) (hc : t.mesh.cyl = true) (ht : t.trsf = none) :
    gvrParse t = .error .attributeError := by
  have : gvrHeader t = .error .attributeError := by
    unfold gvrHeader
    rw [if_neg (by omega)]
    simp only [hc, ht]
    rfl
  unfold gvrParse
  rw [this]

/-- such tallies are read: no vector in the file, axis z, origin zero -/
theorem trsf_none_mcnp5 : getTransformation Vec.zero ⟨0, 0, 1⟩ none = .ok none := by decide +kernel

/-- C138: tallies with more than one group of energy are refused Partial: Several energy groups are refused; of several times all but the first are dropped (times_dropped). -/
theorem groups_refused_partial (t : GTally) (h : 2 < t.mesh.ebin.data.length) : gvrParse t = .error .valueError := by
  have : gvrHeader t = .error .valueError := by
    unfold gvrHeader
    rw [if_pos (by omega)]
  unfold gvrParse
  rw [this]

/-- C138 fails for times: of several time bins only the first is used, silently. -/
theorem times_dropped (t t' : GTally) (h1 : t.trsf = t'.trsf) (h2 : t.mesh.cyl = t'.mesh.cyl) (h3 : t.mesh.x1 = t'.mesh.x1) (h4 : t.mesh.x2 = t'.mesh.x2)
    (h5 : t.mesh.x3 = t'.mesh.x3) (h6 : t.mesh.ebin = t'.mesh.ebin) (h7 : ∀ k j i, t.mesh.data [0, 0, k, j, i] = t'.mesh.data [0, 0, k, j, i]) :
    gvrParse t = gvrParse t' := by
  have hf : fluxValues t.mesh = fluxValues t'.mesh := by
    unfold fluxValues MeshData.nx1 MeshData.nx2 MeshData.nx3
    simp only [h3, h4, h5, h7]
  have hh : gvrHeader t = gvrHeader t' := by
    unfold gvrHeader
    simp only [h1, h2, h3, h4, h5, h6]
  unfold gvrParse MeshData.nx1 MeshData.nx2 MeshData.nx3
  simp only [hh, hf, h3, h4, h5]

/-! ### choice of the tally -/

theorem foldl_min_mem (k : ℤ) (ks : List ℤ) : ks.foldl min k ∈ k :: ks ∧ ∀ x ∈ k :: ks, ks.foldl min k ≤ x := by
  induction ks generalizing k with
  | nil => simp
  | cons a ks ih =>
    rw [List.foldl_cons]
    obtain ⟨h1, h2⟩ := ih (min k a)
    refine ⟨?_, ?_⟩
    · rcases List.mem_cons.1 h1 with e | e
      · rw [e]
        rcases min_choice k a with e' | e' <;> rw [e'] <;> simp
      · exact List.mem_cons_of_mem _ (List.mem_cons_of_mem _ e)
    · intro x hx
      have h3 := h2 (min k a) (by simp)
      rcases List.mem_cons.1 hx with rfl | hx
      · exact h3.trans (min_le_left _ _)
      · rcases List.mem_cons.1 hx with rfl | hx
        · exact h3.trans (min_le_right _ _)
        · exact h2 x (List.mem_cons_of_mem _ hx)

/-- C136: without a number the tally with the smallest number is used -/
theorem tally_default (f : Dict ℤ (Except PyErr GTally)) (hw : Dict.WF f) (n : ℤ) (t : Except PyErr GTally) (hn : (n, t) ∈ f)
    (hmin : ∀ m ∈ Dict.keys f, n ≤ m) : readTally f (.int 0) = t := by
  have hk : n ∈ Dict.keys f := List.mem_map.2 ⟨(n, t), hn, rfl⟩
  have hf : firstId f = some n := by
    unfold firstId
    cases hks : Dict.keys f with
    | nil => rw [hks] at hk; cases hk
    | cons k ks =>
      rw [hks] at hk hmin
      obtain ⟨h1, h2⟩ := foldl_min_mem k ks
      exact congrArg some (le_antisymm (h2 n hk) (hmin _ h1))
  unfold readTally
  rw [if_pos (by simp [PyNum.val]), hf]
  simp only [getTally, Dict.get?_of_mem hw hn]

/-- C136: the tally with the number given is used; a number that is not in the file is refused -/
theorem tally_number (f : Dict ℤ (Except PyErr GTally)) (n : ℤ) (h : n ≠ 0) :
    readTally f (.int n) = match Dict.get? f n with
      | none => .error .keyError
      | some r => r := by
  unfold readTally
  rw [if_neg (by simpa [PyNum.val] using h)]
  rfl

/-- C134: a number with a decimal point, as the menu passes, finds no tally -/
theorem tally_float (f : Dict ℤ (Except PyErr GTally)) (q : ℚ) (h : q ≠ 0) : readTally f (.float q) = .error .keyError := by
  unfold readTally
  rw [if_neg (show ¬ (PyNum.float q).val = 0 from h)]

/-- C134: so the menu never makes a window from a mesh tally, unless 0 is typed for the splitting ratio, or the default 5 is the number of a tally -/
theorem menu_gvr_fails (pw : ℚ → ℚ → ℚ) (f : Dict ℤ (Except PyErr GTally)) (r soft : ℚ) :
    (∀ q, q ≠ 0 → gvrFromFile pw f (.float q) r soft = .error .keyError) ∧
    (Dict.get? f 5 = none → gvrFromFile pw f (.int 5) r soft = .error .keyError) := by
  constructor
  · intro q hq
    unfold gvrFromFile
    rw [tally_float f q hq]
  · intro h
    unfold gvrFromFile
    rw [tally_number f 5 (by decide), h]

/-! ### the window -/

theorem header_any (t : GTally) (h : OneGroup t.mesh) (hc : t.mesh.cyl = false ∨ t.trsf ≠ none) :
    ∃ hd, gvrHeader t = .ok hd ∧ hd.ni = 1 ∧ hd.nfx = t.mesh.nx1 ∧ hd.nfy = t.mesh.nx2 ∧ hd.nfz = t.mesh.nx3 := by
  cases hcy : t.mesh.cyl with
  | false =>
    obtain ⟨hd, e1, e2, e3, e4, e5, -⟩ := header_rect t h hcy
    exact ⟨hd, e1, e2, e3, e4, e5⟩
  | true =>
    cases ht : t.trsf with
    | none => rw [hcy, ht] at hc; simp at hc
    | some x =>
      obtain ⟨o, ax, v⟩ := x
      obtain ⟨hd, e1, e2, e3, e4, e5, -⟩ := header_cyl t h hcy o ax v ht
      exact ⟨hd, e1, e2, e3, e4, e5⟩

theorem read_any (t : GTally) (h : OneGroup t.mesh) (hc : t.mesh.cyl = false ∨ t.trsf ≠ none) :
    ∃ p, gvrParse t = .ok p ∧ geomVector p.b2i = .ok t.mesh.x1 ∧ geomVector p.b2j = .ok t.mesh.x2 ∧
      geomVector p.b2k = .ok t.mesh.x3 ∧
      ∃ a, nested p.header.ni p.header.nfz.toNat p.header.nfy.toNat p.header.nfx.toNat p.energies p.values = .ok [(.neutron, [(100, a)])] ∧
        a.WF ∧ a.nk = t.mesh.nx3 ∧ a.nj = t.mesh.nx2 ∧ a.ni = t.mesh.nx1 ∧
        ∀ k j i, k < t.mesh.nx3 → j < t.mesh.nx2 → i < t.mesh.nx1 → a.get k j i = some (t.mesh.data [0, 0, k, j, i]).1 := by
  cases hcy : t.mesh.cyl with
  | false =>
    obtain ⟨p, q1, -, -, q⟩ := read_rect t h hcy
    exact ⟨p, q1, q⟩
  | true =>
    cases ht : t.trsf with
    | none => rw [hcy, ht] at hc; simp at hc
    | some x =>
      obtain ⟨o, ax, v⟩ := x
      obtain ⟨p, q1, -, -, q⟩ := read_cyl_partial t h hcy o ax v ht
      exact ⟨p, q1, q⟩

/-- C136: the window made from a tally has at every voxel the flux of that voxel times `2 / ((r + 1) * max)`, raised to the softening factor. -/
theorem gvr_window (pw : ℚ → ℚ → ℚ) (hpw : ∀ x, pw x 1 = x) (f : Dict ℤ (Except PyErr GTally)) (id : PyNum) (t : GTally) (ht : readTally f id = .ok t)
    (h : OneGroup t.mesh) (hc : t.mesh.cyl = false ∨ t.trsf ≠ none) (r soft m : ℚ) (hr : -1 < r) (hpos : 0 < m)
    (hm : ∃ k j i, k < t.mesh.nx3 ∧ j < t.mesh.nx2 ∧ i < t.mesh.nx1 ∧ m = (t.mesh.data [0, 0, k, j, i]).1)
    (hmax : ∀ k j i, k < t.mesh.nx3 → j < t.mesh.nx2 → i < t.mesh.nx1 → (t.mesh.data [0, 0, k, j, i]).1 ≤ m) :
    ∃ hd w a, gvrFromFile pw f id r soft = .ok (hd, w) ∧ look w.values .neutron 100 = some a ∧ w.values.keys = [.neutron] ∧
      ∀ k j i, k < t.mesh.nx3 → j < t.mesh.nx2 → i < t.mesh.nx1 →
        a.get k j i = some (pw ((t.mesh.data [0, 0, k, j, i]).1 * (2 / ((r + 1) * m))) soft) := by
  obtain ⟨p, q1, -, -, -, a, q7, q8, q9, q10, q11, q12⟩ := read_any t h hc
  have hmem : ∀ x, x ∈ a.data ↔ ∃ k j i, k < t.mesh.nx3 ∧ j < t.mesh.nx2 ∧ i < t.mesh.nx1 ∧ x = (t.mesh.data [0, 0, k, j, i]).1 := by
    obtain ⟨hd, e1, e2, e3, e4, e5⟩ := header_any t h hc
    obtain ⟨p', r1, r2, r3, r4, -⟩ := gvrParse_of_header t h hd e1
    rw [q1] at r1
    cases r1
    intro x
    rw [← flux_mem]
    have hw : (fluxValues t.mesh).length = t.mesh.nx3 * t.mesh.nx2 * t.mesh.nx1 := flux_wf t.mesh
    rw [r2, r3, r4, e2, e3, e4, e5] at q7
    simp only [Int.toNat_natCast] at q7
    unfold nested at q7
    simp only [List.getElem?_cons_zero] at q7
    unfold nested1 at q7
    rw [if_pos (by rw [hw]; simp)] at q7
    simp only [fillEnergies, Dict.set, blockOf, Nat.zero_mul, List.drop_zero] at q7
    rw [List.take_of_length_le (by rw [hw]), if_neg (by decide)] at q7
    simp only [Except.ok.injEq, List.cons.injEq, Prod.mk.injEq, and_true, true_and] at q7
    rw [← q7]
  have hgood : Good (a.nk, a.nj, a.ni) [(Particle.neutron, [((100 : ℚ), a)])] := by
    refine ⟨Or.inl rfl, ?_⟩
    intro p' d hd
    simp only [List.mem_singleton, Prod.mk.injEq] at hd
    rw [hd.2]
    refine ⟨by simp, by simp [Dict.WF, Dict.keys], ?_⟩
    intro e' a' ha
    simp only [List.mem_singleton, Prod.mk.injEq] at ha
    rw [ha.2]
    exact ⟨q8, rfl⟩
  obtain ⟨w, w1, w2, w3, w4⟩ := c08_gvr_softened pw hpw (decide (p.header.directors ≠ none)) [(100, a)] hgood r m soft
    (by simpa using (hmem m).2 hm)
    (by
      intro x hx
      simp only [List.map_cons, List.map_nil, List.flatten_cons, List.flatten_nil, List.append_nil] at hx
      obtain ⟨k, j, i, hk, hj, hi, rfl⟩ := (hmem x).1 hx
      exact hmax k j i hk hj hi) hpos hr
  refine ⟨p.header, w, a.map (fun x => pw (x * (2 / ((r + 1) * m))) soft), ?_, ?_, w3, ?_⟩
  · unfold gvrFromFile
    simp only [ht, q1, q7, Dict.get?, if_true, Option.getD_some, w1]
  · rw [w4]; simp [Dict.get?]
  · intro k j i hk hj hi
    have := q12 k j i hk hj hi
    unfold Arr3.get at this ⊢
    rw [if_pos (by rw [q9, q10, q11]; exact ⟨hk, hj, hi⟩)] at this
    rw [if_pos (by show k < a.nk ∧ j < a.nj ∧ i < a.ni; rw [q9, q10, q11]; exact ⟨hk, hj, hi⟩)]
    show (a.data.map _)[a.idx k j i]? = _
    rw [List.getElem?_map, this]
    rfl

/-! ### a concrete tally -/

/-- `demoMesh` (example) -/
def demoMesh : MeshData :=
  { cyl := false, x1 := [-10, 0, 10], x2 := [20, 25], x3 := [1, 2, 4], ebin := ⟨[0, 100], .erg, true⟩, tbin := ⟨[0], .dtme, true⟩,
    data := fun l => match l with
      | [_, _, k, j, i] => (100 * k + 10 * j + i + 1, 0)
      | _ => (0, 0) }

example : OneGroup demoMesh := ⟨by decide, by decide, by decide, by decide⟩
example : (gvrParse ⟨demoMesh, none⟩).toOption.map (fun p => (p.b2i, p.b2k, p.values)) =
    some ([-10, 1, 0, 1, 1, 10, 1], [1, 1, 2, 1, 1, 4, 1], [[1, 2, 101, 102]]) := by decide +kernel
example : (gvrParse ⟨{ demoMesh with cyl := true }, some (⟨1, 2, 3⟩, ⟨0, 0, 1⟩, none)⟩).toOption.map
    (fun p => (p.header.origin, p.header.directors)) = some ([3, 2, 1], some ([0, 0, 1], [1, 0, 0])) := by decide +kernel
example : ((gvrFromFile (fun x _ => x) [(14, .ok ⟨demoMesh, none⟩), (4, .error .valueError)] (.int 14) 3 1).toOption.bind
    (fun w => look w.2.values .neutron 100)) = some ⟨2, 1, 2, [1 / 204, 1 / 102, 101 / 204, 1 / 2]⟩ := by decide +kernel

end F4Enix.WW
