import Verif.Out.MeshFileMore
import Verif.Out.MeshtalCuvProps
/-!
# Whole cell-under-voxel files (C168)
-/
namespace F4Enix.MeshFile
open F4Enix F4Enix.Mesh F4Enix.Find

/-- the title of the bins (specification) -/
def binsTitle : Str := " Tally bin boundaries:".toList

/-- a voxel of the file whose first line begins with its number and has six words (specification) -/
def IsVoxelText (num : ParseNum) (volume : ℚ) (cells : List VCell) (ls : List Str) : Prop :=
  IsCuvVoxel num volume cells ls ∧ (tokens (ls.headD [])).length = 6 ∧ ∃ q, WordIs num (ls.headD []) 0 q

/-- a cell-under-voxel tally: a tally whose bins are announced by their title, without times, followed by a title and the voxels (specification) -/
structure IsCuvTally (num : ParseNum) (n : Nat) (b : Bounds) (volume : Nat → ℚ) (cells : Nat → List VCell) (t : TallyText) : Prop where
  tally : IsTally n t
  title : binsTitle <+: t.title
  before : ∀ l, l ∈ t.comment ∨ l = t.kind ∨ l ∈ t.more → ¬ binsTitle <+: l
  bins : ShowsBounds num b t.bins
  noTimes : b.tbin = noTime
  usable : Usable b
  data : ∃ title ls after, t.data = title :: (ls ++ after) ∧ Pieces (b.n1 * b.n2 * b.n3) (fun p => IsVoxelText num (volume p) (cells p)) ls

theorem cuvSkip_voxel {num : ParseNum} {volume : ℚ} {cells : List VCell} {ls : List Str} (h : IsVoxelText num volume cells ls) (n : Nat) (rest : List Str) :
    cuvSkip num (n + 1) (ls ++ rest) = cuvSkip num n rest := by
  obtain ⟨⟨head, hs, rs, rfl, h4, h5, f1, _, f2⟩, h6, q, h0⟩ := h
  rw [List.headD_cons] at h6 h0
  have hl : (hs ++ rs.flatMap (fun p => [p.1, p.2])).length = 3 * cells.length := by
    have e1 := f1.length_eq
    have e2 := f2.length_eq
    rw [List.length_append, List.length_flatMap]
    have : (rs.map (fun p => [p.1, p.2].length)).sum = 2 * rs.length := by
      clear f2 e2
      induction rs with
      | nil => rfl
      | cons r rs ih => rw [List.map_cons, List.sum_cons, ih, List.length_cons]; simp; omega
    rw [this]; omega
  rw [cuvSkip.eq_def]
  simp only [List.cons_append, List.headD_cons, List.tail_cons]
  obtain ⟨w0, e0, v0⟩ := h0
  obtain ⟨w5, e5, v5⟩ := h5
  rcases ht : tokens head with _ | ⟨a0, ws⟩
  · rw [ht] at h6; simp at h6
  · rw [ht] at e0 e5 h6
    simp only [List.getElem?_cons_zero, Option.some.injEq] at e0
    subst e0
    have hlast : (a0 :: ws).getLastD [] = w5 := by
      rw [List.getLastD_eq_getLast?, List.getLast?_eq_getElem?, h6, e5]
      rfl
    simp only
    unfold toNum
    rw [v0]
    simp only
    rw [hlast, v5]
    simp only
    rw [trunc_nat, ← hl, List.drop_left]

theorem cuvSkip_voxels {num : ParseNum} {n : Nat} {volume : Nat → ℚ} {cells : Nat → List VCell} {ls : List Str}
    (h : Pieces n (fun p => IsVoxelText num (volume p) (cells p)) ls) (rest : List Str) : cuvSkip num n (ls ++ rest) = .ok rest := by
  induction n generalizing ls volume cells with
  | zero => rw [pieces_zero h, cuvSkip.eq_def]; rfl
  | succ n ih =>
    obtain ⟨a, b, rfl, ha, hb⟩ := pieces_succ h
    rw [List.append_assoc, cuvSkip_voxel ha]
    exact ih (volume := fun p => volume (p + 1)) (cells := fun p => cells (p + 1)) hb

theorem title_cond {l : Str} : ((l.take 30).take 22 = " Tally bin boundaries:".toList) ↔ binsTitle <+: l := by
  rw [List.take_take, show min 22 30 = 22 by decide]
  constructor
  · intro h
    unfold binsTitle
    rw [← h]
    exact List.take_prefix _ _
  · rintro ⟨s, rfl⟩
    rw [List.take_append_of_le_length (by decide), List.take_of_length_le (by decide)]
    rfl

theorem cuvHead_skip {xs : List Str} (hx : ∀ l ∈ xs, ¬ binsTitle <+: l) {title : Str} (ht : binsTitle <+: title) (rest : List Str) (b : Option (List Str))
    (hne : xs ≠ []) : cuvHead b (xs ++ title :: rest) = (some (title :: rest), rest) := by
  induction xs generalizing b with
  | nil => exact absurd rfl hne
  | cons l xs ih =>
    rw [List.cons_append, cuvHead, if_neg (fun hc => hx l (by simp) (title_cond.1 hc))]
    cases xs with
    | nil =>
      rw [List.nil_append, cuvHead, if_pos (title_cond.2 ht)]
    | cons m xs => exact ih (fun l hl => hx l (List.mem_cons_of_mem _ hl)) _ (by simp)

theorem blank_not_title {l : Str} (h : IsBlank l) : ¬ binsTitle <+: l := by
  obtain ⟨k, rfl⟩ := h
  intro hp
  have hm : 'T' ∈ List.replicate k ' ' ++ ['\n'] := hp.subset (by decide)
  rcases List.mem_append.1 hm with hm | hm
  · have := List.eq_of_mem_replicate hm
    exact absurd this (by decide)
  · rw [List.mem_singleton] at hm
    exact absurd hm (by decide)

theorem count_prod (b : Bounds) (hu : Usable b) :
    (((b.x1.length : ℤ) - 1) * ((b.x2.length : ℤ) - 1) * ((b.x3.length : ℤ) - 1)).toNat = b.n1 * b.n2 * b.n3 := by
  have e1 : 0 < b.x1.length := List.length_pos_of_ne_nil hu.x1
  have e2 : 0 < b.x2.length := List.length_pos_of_ne_nil hu.x2
  have e3 : 0 < b.x3.length := List.length_pos_of_ne_nil hu.x3
  unfold Bounds.n1 Bounds.n2 Bounds.n3
  have h1 : ((b.x1.length : ℤ) - 1) = ((b.x1.length - 1 : Nat) : ℤ) := by omega
  have h2 : ((b.x2.length : ℤ) - 1) = ((b.x2.length - 1 : Nat) : ℤ) := by omega
  have h3 : ((b.x3.length : ℤ) - 1) = ((b.x3.length - 1 : Nat) : ℤ) := by omega
  rw [h1, h2, h3, ← Int.natCast_mul, ← Int.natCast_mul, Int.toNat_natCast]

theorem cuvBlock_of {num : ParseNum} {n : Nat} {b : Bounds} {volume : Nat → ℚ} {cells : Nat → List VCell} {t : TallyText}
    (h : IsCuvTally num n b volume cells t) (rest : List Str) :
    ∃ after, cuvBlock num (t.lines.tail ++ rest) = .ok (t.title :: (t.fromBins ++ rest), t.data ++ rest, after ++ rest) ∧
      (∀ l ∈ after, ¬ marker <+: l) ∧ after.length ≤ t.data.length := by
  obtain ⟨title, ls, after, hdata, hp⟩ := h.data
  refine ⟨after, ?_, ?_, ?_⟩
  · have e : t.lines.tail ++ rest = (t.comment ++ t.kind :: (t.more ++ [t.gap])) ++ t.title :: (t.fromBins ++ rest) := by
      simp [TallyText.lines]
    obtain ⟨r, hr, hr'⟩ := boundaries_of h.bins h.tally.gap2 (t.data ++ rest)
    rw [hr'.1 h.noTimes] at hr
    have e2 : t.fromBins ++ rest = t.bins ++ t.gap2 :: (t.data ++ rest) := by simp [TallyText.fromBins]
    unfold cuvBlock
    rw [e, cuvHead_skip (by
      intro l hl
      rcases List.mem_append.1 hl with hl | hl
      · exact h.before l (Or.inl hl)
      · rcases List.mem_cons.1 hl with rfl | hl
        · exact h.before _ (Or.inr (Or.inl rfl))
        · rcases List.mem_append.1 hl with hl | hl
          · exact h.before l (Or.inr (Or.inr hl))
          · rw [List.mem_singleton.1 hl]; exact blank_not_title h.tally.gap) h.title _ _ (by simp)]
    simp only [bind, Except.bind, pure, Except.pure]
    rw [e2, hr]
    simp only
    rw [count_prod b h.usable]
    have e3 : (t.data ++ rest).tail = ls ++ (after ++ rest) := by rw [hdata]; simp
    rw [e3, cuvSkip_voxels hp]
  · intro l hl
    apply h.tally.data
    rw [hdata]
    simp [hl]
  · rw [hdata]; simp; omega

theorem scanCuv_skip {num : ParseNum} {pre : List Str} (h : ∀ l ∈ pre, ¬ marker <+: l) (k : Nat) (ls : List Str) (d : Dict Str Places) :
    scanCuv num (pre.length + k) (pre ++ ls) d = scanCuv num k ls d := by
  induction pre with
  | nil => rw [List.length_nil, Nat.zero_add, List.nil_append]
  | cons l pre ih =>
    rw [List.length_cons, Nat.add_right_comm, List.cons_append, scanCuv.eq_def]
    simp only
    rw [tallyNumber_none (h l (by simp))]
    exact ih (fun l hl => h l (List.mem_cons_of_mem _ hl))

theorem lines_length (t : TallyText) : t.lines.length = t.lines.tail.length + 1 := by simp [TallyText.lines]

theorem data_length_le (t : TallyText) : t.data.length < t.lines.tail.length := by
  simp [TallyText.lines, TallyText.fromBins]; omega

theorem scanCuv_tallies {num : ParseNum} {ts : List (Nat × TallyText)}
    (h : ∀ x ∈ ts, ∃ b volume cells, IsCuvTally num x.1 b volume cells x.2) (k : Nat) (hk : (allLines ts).length ≤ k) (d : Dict Str Places) :
    scanCuv num k (allLines ts) d = .ok (catalog ts d) := by
  induction ts generalizing k d with
  | nil => cases k <;> rfl
  | cons x ts ih =>
    obtain ⟨b, volume, cells, hx⟩ := h x (by simp)
    have e : allLines (x :: ts) = x.2.first :: (x.2.lines.tail ++ allLines ts) := by simp [allLines, TallyText.lines]
    have ef : x.2.first :: (x.2.lines.tail ++ allLines ts) = x.2.lines ++ allLines ts := by simp [TallyText.lines]
    rw [e] at hk ⊢
    obtain ⟨after, ha, ha2, ha3⟩ := cuvBlock_of hx (allLines ts)
    have hd := data_length_le x.2
    rw [List.length_cons, List.length_append] at hk
    obtain ⟨k', rfl⟩ : ∃ k', k = (after.length + k') + 1 := ⟨k - 1 - after.length, by omega⟩
    rw [scanCuv.eq_def]
    simp only
    rw [tallyNumber_some hx.tally.first]
    simp only
    rw [ha]
    simp only
    rw [scanCuv_skip ha2, ih (fun y hy => h y (List.mem_cons_of_mem _ hy)) _ (by omega)]
    simp only [catalog, placesOf, ef]

/-- **C168.** A cell-under-voxel file is opened with the same tallies as are in it. `k` is any bound of the number of lines. -/
theorem cuv_scanned {num : ParseNum} {ts : List (Nat × TallyText)} {file : List Str} (h : IsFile ts file)
    (hc : ∀ x ∈ ts, ∃ b volume cells, IsCuvTally num x.1 b volume cells x.2) {k : Nat} (hk : file.length ≤ k) :
    ∃ d, scanCuv num k file [] = .ok d ∧ (meshList d).Nodup ∧ ∀ w, w ∈ meshList d ↔ ∃ x ∈ ts, w = natStr x.1 := by
  obtain ⟨d, hd, hn, _, hm⟩ := meshlist_exact h
  rw [scan_file h] at hd
  cases hd
  obtain ⟨_, pre, rfl, hp⟩ := h
  rw [List.length_append] at hk
  obtain ⟨k', rfl⟩ : ∃ k', k = pre.length + k' := ⟨k - pre.length, by omega⟩
  refine ⟨_, ?_, hn, hm⟩
  rw [scanCuv_skip hp]
  exact scanCuv_tallies hc k' (by omega) []

/-- **C168.** A tally of a cell-under-voxel file is read with its bins, place, particle and comments, and every voxel gets the value of its own record, in the
normalisation asked for: the third axis runs fastest. Partial: Proved without times. False: a tally with times makes the whole file unreadable. -/
theorem cuv_tally_exact_partial (cs sn : ℚ → ℚ) {num : ParseNum} (junk : Data) (norm : Norm) (hn : norm ≠ .other) (filter : Option (List ℤ))
    {pre post : List (Nat × TallyText)} {n : Nat} {t : TallyText} {file : List Str}
    (h : IsFile (pre ++ (n, t) :: post) file) (hc : ∀ x ∈ pre ++ (n, t) :: post, ∃ b volume cells, IsCuvTally num x.1 b volume cells x.2)
    (hp : ∀ x ∈ post, x.1 ≠ n) {b : Bounds} {volume : Nat → ℚ} {cells : Nat → List VCell} (ht : IsCuvTally num n b volume cells t)
    (hv : ∀ p, p < b.n1 * b.n2 * b.n3 → VoxelOk b.ne (cells p)) {k : Nat} (hk : file.length ≤ k) :
    ∃ d r m, scanCuv num k file [] = .ok d ∧ getCuv cs sn num junk norm filter d (natStr n) = .ok r ∧
      mkFmesh cs sn (b.mesh m) (b.place.map (·.trsf)) none = .ok r.fm ∧ r.place = b.place ∧ r.particle = some (particleOf t.kind) ∧
      r.comments = (if t.comment = [] then none else some t.comment.flatten) ∧
      ∀ e k3 k2 k1, e < b.ne → k3 < b.n3 → k2 < b.n2 → k1 < b.n1 →
        let p := (k1 * b.n2 + k2) * b.n3 + k3
        ((∃ f, filter = some f ∧ weighted (selected filter (cells p)) (fun _ => 1) = 0) → m [0, e, k3, k2, k1] = (0, 0)) ∧
        (¬(∃ f, filter = some f ∧ weighted (selected filter (cells p)) (fun _ => 1) = 0) →
          (m [0, e, k3, k2, k1]).1 = voxelValue norm filter (volume p) (cells p) e ∧
          (weighted (selected filter (cells p)) (fun c => c.vals.getD e 0) ≠ 0 →
            (m [0, e, k3, k2, k1]).2 = voxelError filter (cells p) e)) := by
  obtain ⟨title, ls, after, hdata, hpc⟩ := ht.data
  have hpc' : Pieces (b.n1 * b.n2 * b.n3) (fun p => IsCuvVoxel num (volume p) (cells p)) ls := by
    obtain ⟨parts, p1, p2, p3⟩ := hpc
    exact ⟨parts, p1, p2, fun i hi => (p3 i hi).1⟩
  obtain ⟨m, hm, hmv⟩ := cuv_exact junk norm hn filter (title := title) (rest := after ++ allLines post) hpc' hv
  obtain ⟨r0, hr, _⟩ := boundaries_of ht.bins ht.tally.gap2 (t.data ++ allLines post)
  obtain ⟨f, hf⟩ := ht.usable.mkFmesh cs sn m (b.place.map (·.trsf))
  refine ⟨catalog (pre ++ (n, t) :: post) [],
    { fm := f, place := b.place, particle := some (particleOf t.kind), comments := if t.comment = [] then none else some t.comment.flatten },
    m, ?_, ?_, hf, rfl, rfl, rfl, hmv⟩
  · obtain ⟨_, pr, rfl, hpr⟩ := h
    rw [List.length_append] at hk
    obtain ⟨k', rfl⟩ : ∃ k', k = pr.length + k' := ⟨k - pr.length, by omega⟩
    rw [scanCuv_skip hpr]
    exact scanCuv_tallies hc k' (by omega) []
  · unfold getCuv
    rw [catalog_get [] hp]
    simp only [placesOf, List.tail_cons]
    have e : t.fromBins ++ allLines post = t.bins ++ t.gap2 :: (t.data ++ allLines post) := by simp [TallyText.fromBins]
    rw [e, hr]
    simp only
    have hnt : b.nt = 1 := by unfold Bounds.nt; rw [ht.noTimes]; decide
    rw [if_neg (by rw [ht.usable.nonempty]; simp), if_neg (by rw [hnt]; simp)]
    have e2 : t.data ++ allLines post = title :: (ls ++ (after ++ allLines post)) := by rw [hdata]; simp
    rw [e2, hm]
    simp only [finish]
    rw [hf]
    simp only
    rw [header_of ht.tally]
    simp only [Except.ok.injEq, Tally.mk.injEq, true_and, and_true]
    by_cases hcm : t.comment = []
    · rw [if_pos hcm, if_pos ((flatten_nil_iff ht.tally).2 hcm)]
    · rw [if_neg hcm, if_neg (fun hx => hcm ((flatten_nil_iff ht.tally).1 hx))]

/-- **C168 fails.** A cell-under-voxel tally with times is not read: the reader takes the blank line before the title of the voxels for that title and
refuses the file at the words of the title. -/
theorem cuv_times_refused {num : ParseNum} {pre : List Str} {n : Nat} {t : TallyText} (ht : IsTally n t) (hp : ∀ l ∈ pre, ¬ marker <+: l)
    (htitle : binsTitle <+: t.title) (hb : ∀ l, l ∈ t.comment ∨ l = t.kind ∨ l ∈ t.more → ¬ binsTitle <+: l)
    {b : Bounds} (hbins : ShowsBounds num b t.bins) (hu : Usable b) (hx : b.tbin ≠ noTime) (h0 : 0 < b.n1 * b.n2 * b.n3)
    {title w : Str} {ws ls : List Str} (hd : t.data = title :: ls) (hw : tokens title = w :: ws) (hnum : num w = none) (rest : List Str) (k : Nat)
    (hk : pre.length < k) : scanCuv num k (pre ++ t.lines ++ rest) [] = .error .valueError := by
  obtain ⟨k', rfl⟩ : ∃ k', k = pre.length + (k' + 1) := ⟨k - pre.length - 1, by omega⟩
  rw [List.append_assoc, scanCuv_skip hp]
  have ef : t.lines ++ rest = t.first :: (t.lines.tail ++ rest) := by simp [TallyText.lines]
  rw [ef, scanCuv.eq_def]
  simp only
  rw [tallyNumber_some ht.first]
  simp only
  have hblock : cuvBlock num (t.lines.tail ++ rest) = .error .valueError := by
    have e : t.lines.tail ++ rest = (t.comment ++ t.kind :: (t.more ++ [t.gap])) ++ t.title :: (t.fromBins ++ rest) := by
      simp [TallyText.lines]
    obtain ⟨r, hr, hr'⟩ := boundaries_of hbins ht.gap2 (t.data ++ rest)
    rw [hr'.2 hx] at hr
    have e2 : t.fromBins ++ rest = t.bins ++ t.gap2 :: (t.data ++ rest) := by simp [TallyText.fromBins]
    unfold cuvBlock
    rw [e, cuvHead_skip (by
      intro l hl
      rcases List.mem_append.1 hl with hl | hl
      · exact hb l (Or.inl hl)
      · rcases List.mem_cons.1 hl with rfl | hl
        · exact hb _ (Or.inr (Or.inl rfl))
        · rcases List.mem_append.1 hl with hl | hl
          · exact hb l (Or.inr (Or.inr hl))
          · rw [List.mem_singleton.1 hl]; exact blank_not_title ht.gap) htitle _ _ (by simp)]
    simp only [bind, Except.bind, pure, Except.pure]
    rw [e2, hr]
    simp only
    rw [count_prod b hu]
    obtain ⟨m, hm⟩ : ∃ m, b.n1 * b.n2 * b.n3 = m + 1 := ⟨b.n1 * b.n2 * b.n3 - 1, by omega⟩
    rw [hm, List.tail_cons, hd, cuvSkip.eq_def]
    simp only [List.cons_append, List.headD_cons]
    rw [hw]
    simp only [toNum]
    rw [hnum]
  rw [hblock]

/-- **C168.** A number that is not in the file is refused. -/
theorem cuv_unknown_refused (cs sn : ℚ → ℚ) (num : ParseNum) (junk : Data) (norm : Norm) (filter : Option (List ℤ)) {d : Dict Str Places} {n : Str}
    (h : n ∉ meshList d) : getCuv cs sn num junk norm filter d n = .error .keyError := by
  unfold getCuv
  have : Dict.get? d n = none := by
    cases hg : Dict.get? d n with
    | none => rfl
    | some p =>
      exfalso
      apply h
      rw [(meshList_perm d).mem_iff]
      exact List.mem_map_of_mem (Dict.mem_of_get? hg)
  rw [this]

end F4Enix.MeshFile
