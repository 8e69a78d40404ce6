import Verif.Out.MeshFileBins
/-!
# Theorems about whole mesh tally files (C163 - C167)
-/
namespace F4Enix.MeshFile
open F4Enix F4Enix.Mesh F4Enix.Find

/-! ### the order of strings -/

theorem strLe_refl (s : Str) : strLe s s = true := by
  induction s with
  | nil => rfl
  | cons a s ih => rw [strLe, if_neg (Nat.lt_irrefl _), if_neg (Nat.lt_irrefl _), ih]

theorem strLe_total (s t : Str) : strLe s t = true ∨ strLe t s = true := by
  induction s generalizing t with
  | nil => exact Or.inl rfl
  | cons a s ih =>
    cases t with
    | nil => exact Or.inr rfl
    | cons b t =>
      simp only [strLe]
      rcases Nat.lt_trichotomy a.toNat b.toNat with h | h | h
      · exact Or.inl (by rw [if_pos h])
      · rcases ih t with i | i
        · exact Or.inl (by rw [if_neg (by omega), if_neg (by omega), i])
        · exact Or.inr (by rw [if_neg (by omega), if_neg (by omega), i])
      · exact Or.inr (by rw [if_pos h])

theorem strLe_trans {s t u : Str} (h1 : strLe s t = true) (h2 : strLe t u = true) : strLe s u = true := by
  induction s generalizing t u with
  | nil => rfl
  | cons a s ih =>
    cases t with
    | nil => exact absurd h1 (by simp [strLe])
    | cons b t =>
      cases u with
      | nil => exact absurd h2 (by simp [strLe])
      | cons c u =>
        simp only [strLe] at h1 h2 ⊢
        split_ifs at h1 h2 ⊢ with x1 x2 x3 x4 x5 x6 x7 <;> first | rfl | omega | skip
        exact ih h1 h2

theorem meshList_perm {α : Type} (d : Dict Str α) : (meshList d).Perm (Dict.keys d) := List.perm_insertionSort _ _

theorem meshList_sorted {α : Type} (d : Dict Str α) : (meshList d).Pairwise (fun a b => strLe a b = true) := by
  have : Std.Total (fun a b : Str => strLe a b = true) := ⟨fun a b => strLe_total a b⟩
  have : IsTrans Str (fun a b => strLe a b = true) := ⟨fun a b c => strLe_trans⟩
  exact List.pairwise_insertionSort (fun a b => strLe a b = true) _

/-! ### C163: the tallies of a file -/

/-- **C163.** A file is opened, and the names listed are the numbers of its tallies, each once, in the order of strings. -/
theorem meshlist_exact {ts : List (Nat × TallyText)} {file : List Str} (h : IsFile ts file) :
    ∃ d, scan .outside file [] = .ok d ∧ (meshList d).Nodup ∧ (meshList d).Pairwise (fun a b => strLe a b = true) ∧
      ∀ w, w ∈ meshList d ↔ ∃ x ∈ ts, w = natStr x.1 := by
  refine ⟨_, scan_file h, ?_, meshList_sorted _, ?_⟩
  · rw [(meshList_perm _).nodup_iff]
    exact catalog_wf ts [] (by simp [Dict.WF, Dict.keys])
  · intro w
    rw [(meshList_perm _).mem_iff, catalog_keys]
    simp [Dict.keys]

theorem mapM_parse {l : List Str} {f : Str → ℤ} (h : ∀ w ∈ l, parseInt w = some (f w)) : l.mapM parseInt = some (l.map f) := by
  induction l with
  | nil => rfl
  | cons w l ih =>
    rw [List.mapM_cons, h w (by simp), ih (fun w hw => h w (List.mem_cons_of_mem _ hw))]
    rfl

/-- **C163.** The numbers given by `mesh_ids` are those of the tallies of the file, each once, in ascending order. -/
theorem ids_exact {ts : List (Nat × TallyText)} {file : List Str} (h : IsFile ts file) :
    ∃ d ks, scan .outside file [] = .ok d ∧ meshIds (meshList d) = .ok ks ∧ ks.Pairwise (· < ·) ∧
      ∀ k : ℤ, k ∈ ks ↔ ∃ x ∈ ts, k = (x.1 : ℤ) := by
  obtain ⟨d, hd, hn, _, hm⟩ := meshlist_exact h
  have hp : ∀ w ∈ meshList d, parseInt w = some ((digitsVal w : Nat) : ℤ) := by
    intro w hw
    obtain ⟨x, _, rfl⟩ := (hm w).1 hw
    rw [digitsVal_natStr]
    have := parseInt_intStr (x.1 : ℤ)
    rwa [show intStr (x.1 : ℤ) = natStr x.1 from rfl] at this
  refine ⟨d, _, hd, by unfold meshIds; rw [mapM_parse hp], ?_, ?_⟩
  · have h1 := List.pairwise_insertionSort (α := ℤ) (· ≤ ·) ((meshList d).map (fun w => ((digitsVal w : Nat) : ℤ)))
    have h2 : (((meshList d).map (fun w => ((digitsVal w : Nat) : ℤ))).insertionSort (· ≤ ·)).Nodup := by
      rw [(List.perm_insertionSort _ _).nodup_iff]
      rw [List.nodup_map_iff_inj_on hn]
      intro v hv w hw he
      obtain ⟨x, _, rfl⟩ := (hm v).1 hv
      obtain ⟨y, _, rfl⟩ := (hm w).1 hw
      rw [digitsVal_natStr, digitsVal_natStr] at he
      rw [Int.ofNat_inj.1 he]
    exact (h1.and h2).imp (fun ⟨a, b⟩ => lt_of_le_of_ne a b)
  · intro k
    rw [(List.perm_insertionSort _ _).mem_iff, List.mem_map]
    constructor
    · rintro ⟨w, hw, rfl⟩
      obtain ⟨x, hx, rfl⟩ := (hm w).1 hw
      exact ⟨x, hx, by rw [digitsVal_natStr]⟩
    · rintro ⟨x, hx, rfl⟩
      exact ⟨natStr x.1, (hm _).2 ⟨x, hx, rfl⟩, by rw [digitsVal_natStr]⟩

theorem intStr_natStr {z : ℤ} {n : Nat} (h : intStr z = natStr n) : z = n := by
  have h1 := parseInt_intStr z
  have h2 := parseInt_intStr (n : ℤ)
  rw [show intStr (n : ℤ) = natStr n from rfl] at h2
  rw [h, h2] at h1
  exact (Option.some.inj h1).symm

/-- **C163.** A number that is not of a tally of the file is refused. -/
theorem unknown_refused (cs sn : ℚ → ℚ) (num : ParseNum) (junk : Data) {ts : List (Nat × TallyText)} {file : List Str} (h : IsFile ts file)
    {z : ℤ} (hz : ∀ x ∈ ts, z ≠ x.1) :
    ∃ d, scan .outside file [] = .ok d ∧ getFMesh cs sn num junk d (intStr z) = .error .keyError := by
  refine ⟨_, scan_file h, ?_⟩
  unfold getFMesh
  have hk : Dict.get? (catalog ts []) (intStr z) = none := by
    cases hg : Dict.get? (catalog ts []) (intStr z) with
    | none => rfl
    | some p =>
      exfalso
      have hmem : intStr z ∈ Dict.keys (catalog ts []) := List.mem_map_of_mem (Dict.mem_of_get? hg)
      rw [catalog_keys] at hmem
      rcases hmem with hmem | ⟨x, hx, he⟩
      · simp [Dict.keys] at hmem
      · exact hz x hx (intStr_natStr he)
  rw [hk]

/-- **C163.** A file that stops within the head or the bins of a tally is refused. -/
theorem cut_refused {n : Nat} {first : Str} {xs : List Str} {pre : List Str} (hf : NumberLine n first) (hp : ∀ l ∈ pre, ¬ marker <+: l)
    (hx : ∀ l ∈ xs, Visible l) : scan .outside (pre ++ first :: xs) [] = .error .unboundLocal ∧
      ∀ gap ys, IsBlank gap → (∀ l ∈ ys, Visible l) → scan .outside (pre ++ first :: (xs ++ gap :: ys)) [] = .error .unboundLocal := by
  constructor
  · rw [scan_outside_skip hp]
    simp only [scan]
    rw [tallyNumber_some hf]
    simp only
    have := scan_head_skip hx (natStr n) (first :: xs) [] []
    rw [List.append_nil] at this
    rw [this]
    simp only [scan]
  · intro gap ys hg hy
    rw [scan_outside_skip hp]
    simp only [scan]
    rw [tallyNumber_some hf]
    simp only
    rw [scan_head_skip hx]
    simp only [scan]
    rw [blank_of_isBlank hg]
    simp only [if_true]
    have := scan_bins_skip hy (natStr n) (first :: (xs ++ gap :: ys)) ys [] []
    rw [List.append_nil] at this
    rw [this]
    simp only [scan]

/-! ### C164: the content of a tally -/

/-- the line of a matrix that names the axis that is fixed in it: rows and columns are the other two (specification) -/
def FixedAxis (cyl : Bool) (o : Orient) (l : Str) : Prop :=
  match cyl, o with
  | false, .ij => "Z bin".toList <:+: l
  | false, .ik => "Y bin".toList <:+: l ∧ ¬ "Z bin".toList <:+: l
  | false, .jk => "X bin".toList <:+: l ∧ ¬ "Z bin".toList <:+: l ∧ ¬ "Y bin".toList <:+: l
  | true, .ij => "Theta bin".toList <:+: l
  | true, .ik => "Z bin".toList <:+: l ∧ ¬ "Theta bin".toList <:+: l
  | true, .jk => "R bin".toList <:+: l ∧ ¬ "Theta bin".toList <:+: l ∧ ¬ "Z bin".toList <:+: l

/-- the lines show, in one of the formats of MCNP, the values `v time energy k3 k2 k1` of a tally with the bins `b`; blank lines may follow (specification) -/
inductive ShowsValues (num : ParseNum) (b : Bounds) (v : Nat → Nat → Nat → Nat → Nat → ℚ × ℚ) : List Str → Prop
  | column {title : Str} {ls : List Str} : "Result".toList <:+: title → ls.length = b.ne * b.nt * b.n1 * b.n2 * b.n3 →
      (∀ t e k3 k2 k1, t < b.nt → e < b.ne → k3 < b.n3 → k2 < b.n2 → k1 < b.n1 →
        EndsWith num (ls.getD (columnPos b.nt b.n3 b.n2 b.n1 t e k3 k2 k1) []) (v t e k3 k2 k1)) → ShowsValues num b v (title :: ls)
  | matrix {o : Orient} {ls : List Str} : ¬ "Result".toList <:+: ls.getD 0 [] → ¬ "GEOMETRY".toList <:+: ls.getD 0 [] →
      3 ≤ ls.length → FixedAxis b.cyl o (ls.getD 2 []) → b.tbin.explicit = false → b.nt = 1 →
      Pieces b.ne (fun e => IsBin num (blockShape o b.n3 b.n2 b.n1).1 (blockShape o b.n3 b.n2 b.n1).2.1 (blockShape o b.n3 b.n2 b.n1).2.2 (voxel o (v 0 e))) ls →
      ShowsValues num b v ls
  | times {o : Orient} {ls : List Str} : ¬ "Result".toList <:+: ls.getD 0 [] → ¬ "GEOMETRY".toList <:+: ls.getD 0 [] →
      6 ≤ ls.length → FixedAxis b.cyl o (ls.getD 5 []) → b.tbin.explicit = true →
      Pieces b.ne (fun e => IsTimes num b.nt (blockShape o b.n3 b.n2 b.n1).1 (blockShape o b.n3 b.n2 b.n1).2.1 (blockShape o b.n3 b.n2 b.n1).2.2
        (fun t => voxel o (v t e))) ls → ShowsValues num b v ls
  | followed {ls more : List Str} : ShowsValues num b v ls → (∀ l ∈ more, IsBlank l) → ShowsValues num b v (ls ++ more)

theorem meshType_col {cyl ex : Bool} {l : Str} {ls : List Str} (h : "Result".toList <:+: l) : meshType cyl ex (l :: ls) = .col := by
  unfold meshType
  rw [if_pos (show contains "Result".toList ((l :: ls).headD []) = true from contains_true h)]

theorem meshType_mat {cyl ex : Bool} {o : Orient} {ls : List Str} (h1 : ¬ "Result".toList <:+: ls.headD []) (h2 : ¬ "GEOMETRY".toList <:+: ls.headD [])
    (h3 : FixedAxis cyl o ((ls.tail.drop (if ex then 4 else 1)).headD [])) : meshType cyl ex ls = .mat o := by
  unfold meshType
  rw [if_neg (show ¬ contains "Result".toList (ls.headD []) = true by rw [contains_false h1]; simp),
    if_neg (show ¬ contains "GEOMETRY".toList (ls.headD []) = true by rw [contains_false h2]; simp)]
  simp only
  generalize (ls.tail.drop (if ex then 4 else 1)).headD [] = l at h3
  cases cyl <;> cases o <;> simp only [FixedAxis] at h3
  · rw [if_neg (by simp), if_pos (contains_true h3)]
  · rw [if_neg (by simp), contains_false h3.2, contains_true h3.1]; rfl
  · rw [if_neg (by simp), contains_false h3.2.1, contains_false h3.2.2, contains_true h3.1]; rfl
  · rw [if_pos rfl, if_pos (contains_true h3)]
  · rw [if_pos rfl, contains_false h3.2, contains_true h3.1]; rfl
  · rw [if_pos rfl, contains_false h3.2.1, contains_false h3.2.2, contains_true h3.1]; rfl

theorem endsWith_unique {num : ParseNum} {l : Str} {v w : ℚ × ℚ} (h1 : EndsWith num l v) (h2 : EndsWith num l w) : v = w := by
  have a := (columnLine_iff num l v).2 h1
  have b := (columnLine_iff num l w).2 h2
  rw [a] at b
  exact Except.ok.inj b

theorem unrank {nt ne n1 n2 n3 p : Nat} (h : p < ne * nt * n1 * n2 * n3) :
    ∃ t e k3 k2 k1, t < nt ∧ e < ne ∧ k3 < n3 ∧ k2 < n2 ∧ k1 < n1 ∧ columnPos nt n3 n2 n1 t e k3 k2 k1 = p := by
  have p3 : 0 < n3 := by rcases Nat.eq_zero_or_pos n3 with h0 | h0; · rw [h0] at h; simp at h
                         exact h0
  have p2 : 0 < n2 := by rcases Nat.eq_zero_or_pos n2 with h0 | h0; · rw [h0] at h; simp at h
                         exact h0
  have p1 : 0 < n1 := by rcases Nat.eq_zero_or_pos n1 with h0 | h0; · rw [h0] at h; simp at h
                         exact h0
  have pt : 0 < nt := by rcases Nat.eq_zero_or_pos nt with h0 | h0; · rw [h0] at h; simp at h
                         exact h0
  have d3 := Nat.div_lt_of_lt_mul (by rwa [Nat.mul_comm] at h : p < n3 * (ne * nt * n1 * n2))
  have d2 := Nat.div_lt_of_lt_mul (by rwa [Nat.mul_comm] at d3 : p / n3 < n2 * (ne * nt * n1))
  have d1 := Nat.div_lt_of_lt_mul (by rwa [Nat.mul_comm] at d2 : p / n3 / n2 < n1 * (ne * nt))
  have dt := Nat.div_lt_of_lt_mul (by rwa [Nat.mul_comm] at d1 : p / n3 / n2 / n1 < nt * ne)
  refine ⟨p / n3 / n2 / n1 % nt, p / n3 / n2 / n1 / nt, p % n3, p / n3 % n2, p / n3 / n2 % n1,
    Nat.mod_lt _ pt, dt, Nat.mod_lt _ p3, Nat.mod_lt _ p2, Nat.mod_lt _ p1, ?_⟩
  unfold columnPos
  rw [Nat.mul_comm (p / n3 / n2 / n1 / nt), Nat.div_add_mod, Nat.mul_comm (p / n3 / n2 / n1), Nat.div_add_mod, Nat.mul_comm (p / n3 / n2), Nat.div_add_mod,
    Nat.mul_comm (p / n3), Nat.div_add_mod]

/-- the values of a tally are read from its lines, whatever follows them -/
theorem meshValues_of {num : ParseNum} (junk : Data) {b : Bounds} {v : Nat → Nat → Nat → Nat → Nat → ℚ × ℚ} {ls : List Str} (h : ShowsValues num b v ls)
    (he : b.empty = false) (rest : List Str) :
    ∃ d, meshValues num junk b (ls ++ rest) = .ok d ∧
      ∀ t e k3 k2 k1, t < b.nt → e < b.ne → k3 < b.n3 → k2 < b.n2 → k1 < b.n1 → d [t, e, k3, k2, k1] = v t e k3 k2 k1 := by
  induction h generalizing rest with
  | followed _ _ ih =>
    rw [List.append_assoc]
    exact ih _
  | @column title ls h1 h2 h3 =>
    have getD_app : ∀ p, p < ls.length → (title :: ls ++ rest).getD (1 + p) [] = ls.getD p [] := by
      intro p hp
      rw [Nat.add_comm, List.cons_append, List.getD_cons_succ, List.getD_eq_getElem?_getD, List.getElem?_append_left hp, ← List.getD_eq_getElem?_getD]
    have hs : ∃ d, readColumn num junk b.nt b.ne b.n3 b.n2 b.n1 (title :: ls ++ rest) = .ok d := by
      apply column_succeeds
      intro p hp
      obtain ⟨t, e, k3, k2, k1, q1, q2, q3, q4, q5, rfl⟩ := unrank hp
      rw [getD_app _ (by omega)]
      exact ⟨_, h3 t e k3 k2 k1 q1 q2 q3 q4 q5⟩
    obtain ⟨d, hd⟩ := hs
    refine ⟨d, ?_, ?_⟩
    · unfold meshValues
      rw [show title :: ls ++ rest = title :: (ls ++ rest) from rfl, meshType_col h1]
      simp only
      rw [if_neg (by rw [he]; simp)]
      exact hd
    · intro t e k3 k2 k1 q1 q2 q3 q4 q5
      have := column_exact hd q1 q2 q3 q4 q5
      have hlt : columnPos b.nt b.n3 b.n2 b.n1 t e k3 k2 k1 < ls.length := by
        rw [h2, ← rank_column b.ne]
        have hi : InLoops [b.ne, b.nt, b.n1, b.n2, b.n3] [e, t, k1, k2, k3] := .cons q2 (.cons q1 (.cons q5 (.cons q4 (.cons q3 .nil))))
        have := rank_lt hi
        simp only [List.foldr_cons, List.foldr_nil] at this
        calc rank [b.ne, b.nt, b.n1, b.n2, b.n3] [e, t, k1, k2, k3] < _ := this
          _ = _ := by ring
      rw [getD_app _ hlt] at this
      exact endsWith_unique this (h3 t e k3 k2 k1 q1 q2 q3 q4 q5)
  | @matrix o ls h1 h2 h3 h4 h5 h6 h7 =>
    obtain ⟨d, hd, hv⟩ := block_exact junk o (nt := b.nt) (rest := rest) h7
    refine ⟨d, ?_, ?_⟩
    · unfold meshValues
      rcases ls with _ | ⟨l0, _ | ⟨l1, _ | ⟨l2, ls⟩⟩⟩
      · simp at h3
      · simp at h3
      · simp at h3
      · rw [show meshType b.cyl b.tbin.explicit (l0 :: l1 :: l2 :: ls ++ rest) = .mat o from
          meshType_mat (ls := l0 :: l1 :: l2 :: (ls ++ rest)) h1 h2 (by rw [h5]; exact h4)]
        simp only
        rw [if_neg (by rw [he]; simp), h5]
        exact hd
    · intro t e k3 k2 k1 q1 q2 q3 q4 q5
      have : t = 0 := by omega
      subst this
      exact hv e k3 k2 k1 q2 q3 q4 q5
  | @times o ls h1 h2 h3 h4 h5 h7 =>
    obtain ⟨d, hd, hv⟩ := block_times_exact junk o (rest := rest) h7
    refine ⟨d, ?_, hv⟩
    unfold meshValues
    rcases ls with _ | ⟨l0, _ | ⟨l1, _ | ⟨l2, _ | ⟨l3, _ | ⟨l4, _ | ⟨l5, ls⟩⟩⟩⟩⟩⟩
    · simp at h3
    · simp at h3
    · simp at h3
    · simp at h3
    · simp at h3
    · simp at h3
    · rw [show meshType b.cyl b.tbin.explicit (l0 :: l1 :: l2 :: l3 :: l4 :: l5 :: ls ++ rest) = .mat o from
        meshType_mat (ls := l0 :: l1 :: l2 :: l3 :: l4 :: l5 :: (ls ++ rest)) h1 h2 (by rw [h5]; exact h4)]
      simp only
      rw [if_neg (by rw [he]; simp), h5]
      exact hd

/-- `r` is the tally of a file: bins and values, place, particle and comments. The mesh is that of the bins and values after the split of the first
angular bin. (specification) -/
structure ReadAs (cs sn : ℚ → ℚ) (b : Bounds) (v : Nat → Nat → Nat → Nat → Nat → ℚ × ℚ) (t : TallyText) (r : Tally) : Prop where
  mesh : ∃ d, mkFmesh cs sn (b.mesh d) (b.place.map (·.trsf)) none = .ok r.fm ∧
    ∀ t e k3 k2 k1, t < b.nt → e < b.ne → k3 < b.n3 → k2 < b.n2 → k1 < b.n1 → d [t, e, k3, k2, k1] = v t e k3 k2 k1
  place : r.place = b.place
  particle : r.particle = some (particleOf t.kind)
  comments : r.comments = if t.comment = [] then none else some t.comment.flatten

/-- the bins can be used: every axis has a boundary, the angular axis of a cylinder two (specification) -/
structure Usable (b : Bounds) : Prop where
  x1 : b.x1 ≠ []
  x2 : b.x2 ≠ []
  x3 : b.x3 ≠ []
  theta : b.cyl = true → 2 ≤ b.x3.length

theorem Usable.nonempty {b : Bounds} (h : Usable b) : b.empty = false := by
  unfold Bounds.empty
  have a1 := h.x1
  have a2 := h.x2
  have a3 := h.x3
  cases h1 : b.x1 <;> cases h2 : b.x2 <;> cases h3 : b.x3 <;> simp_all

theorem splitTheta_ok {m : MeshData} (h : m.cyl = true → 2 ≤ m.x3.length) : ∃ m', splitTheta m = .ok m' := by
  unfold splitTheta
  split_ifs with hc
  · have := h hc
    split
    · split_ifs
      · exact ⟨_, rfl⟩
      · exact ⟨_, rfl⟩
    · rename_i hx
      exfalso
      rcases hm : m.x3 with _ | ⟨a, _ | ⟨c, l⟩⟩
      · rw [hm] at this; simp at this
      · rw [hm] at this; simp at this
      · exact hx a c l hm
  · exact ⟨_, rfl⟩

theorem Usable.mkFmesh {b : Bounds} (h : Usable b) (cs sn : ℚ → ℚ) (d : Data) (p : Option Trsf) : ∃ f, mkFmesh cs sn (b.mesh d) p none = .ok f := by
  unfold Mesh.mkFmesh
  have hs : ∃ m, splitTheta (b.mesh d) = .ok m := splitTheta_ok h.theta
  obtain ⟨m, hm⟩ := hs
  rw [hm]
  exact ⟨_, rfl⟩

theorem flatten_nil_iff {n : Nat} {t : TallyText} (h : IsTally n t) : t.comment.flatten = [] ↔ t.comment = [] := by
  constructor
  · intro hf
    cases hc : t.comment with
    | nil => rfl
    | cons l ls =>
      exfalso
      rw [hc, List.flatten_cons] at hf
      obtain ⟨c, hl, _⟩ := (h.comment l (by rw [hc]; simp)).1
      rw [(List.append_eq_nil_iff.1 hf).1] at hl
      simp at hl
  · intro hf; rw [hf]; rfl

/-- **C164.** A tally of a file, in the column format or in any of the three matrix formats, is read with the bins, the place, the values, the particle and the
comments the file shows for it, whatever tallies precede and follow. Of several tallies with the same number the last one is taken. -/
theorem tally_exact (cs sn : ℚ → ℚ) {num : ParseNum} (junk : Data) {pre post : List (Nat × TallyText)} {n : Nat} {t : TallyText} {file : List Str}
    (h : IsFile (pre ++ (n, t) :: post) file) (hn : ∀ x ∈ post, x.1 ≠ n) {b : Bounds} (hb : ShowsBounds num b t.bins) (hu : Usable b)
    {v : Nat → Nat → Nat → Nat → Nat → ℚ × ℚ} (hv : ShowsValues num b v t.data) :
    ∃ d r, scan .outside file [] = .ok d ∧ getFMesh cs sn num junk d (natStr n) = .ok r ∧ ReadAs cs sn b v t r := by
  have ht : IsTally n t := h.tallies (n, t) (by simp)
  obtain ⟨r0, hr, _⟩ := boundaries_of hb ht.gap2 (t.data ++ allLines post)
  obtain ⟨d, hd, hdv⟩ := meshValues_of junk hv hu.nonempty (allLines post)
  obtain ⟨f, hf⟩ := hu.mkFmesh cs sn d (b.place.map (·.trsf))
  refine ⟨_, { fm := f, place := b.place, particle := some (particleOf t.kind), comments := if t.comment = [] then none else some t.comment.flatten },
    scan_file h, ?_, ⟨⟨d, hf, hdv⟩, rfl, rfl, rfl⟩⟩
  unfold getFMesh
  rw [catalog_get [] hn]
  simp only [placesOf, List.tail_cons]
  have e : t.fromBins ++ allLines post = t.bins ++ t.gap2 :: (t.data ++ allLines post) := by simp [TallyText.fromBins]
  rw [e, hr]
  simp only
  rw [hd]
  simp only [finish]
  rw [hf]
  simp only
  rw [header_of ht]
  simp only [Except.ok.injEq, Tally.mk.injEq, true_and, and_true]
  by_cases hc : t.comment = []
  · rw [if_pos hc, if_pos ((flatten_nil_iff ht).2 hc)]
  · rw [if_neg hc, if_neg (fun hx => hc ((flatten_nil_iff ht).1 hx))]

/-- **C164 (rectangular meshes).** The bins and values of the tally are those of the file. -/
theorem tally_rect {cs sn : ℚ → ℚ} {b : Bounds} {v : Nat → Nat → Nat → Nat → Nat → ℚ × ℚ} {t : TallyText} {r : Tally} (h : ReadAs cs sn b v t r)
    (hc : b.cyl = false) :
    r.fm.mesh.cyl = false ∧ r.fm.mesh.x1 = b.x1 ∧ r.fm.mesh.x2 = b.x2 ∧ r.fm.mesh.x3 = b.x3 ∧ r.fm.mesh.ebin = b.ebin ∧ r.fm.mesh.tbin = b.tbin ∧
    (∀ t e k3 k2 k1, t < b.nt → e < b.ne → k3 < b.n3 → k2 < b.n2 → k1 < b.n1 → r.fm.mesh.data [t, e, k3, k2, k1] = v t e k3 k2 k1) := by
  obtain ⟨⟨d, hf, hd⟩, _⟩ := h
  unfold Mesh.mkFmesh splitTheta at hf
  rw [if_neg (by simp [Bounds.mesh, hc])] at hf
  simp only [Except.ok.injEq] at hf
  rw [← hf]
  exact ⟨hc, rfl, rfl, rfl, rfl, rfl, hd⟩

/-- **C164 (cylinders).** The bins and values of the tally are those of the file when the first angular bin ends at half a turn or before. Otherwise that bin
is divided at one half, and its two parts have the values of the bin. -/
theorem tally_cyl {cs sn : ℚ → ℚ} {b : Bounds} {v : Nat → Nat → Nat → Nat → Nat → ℚ × ℚ} {t : TallyText} {r : Tally} (h : ReadAs cs sn b v t r)
    (hc : b.cyl = true) {a0 a1 : ℚ} {as : List ℚ} (hx : b.x3 = a0 :: a1 :: as) :
    r.fm.mesh.cyl = true ∧ r.fm.mesh.x1 = b.x1 ∧ r.fm.mesh.x2 = b.x2 ∧ r.fm.mesh.ebin = b.ebin ∧ r.fm.mesh.tbin = b.tbin ∧
    (a1 ≤ 1 / 2 → r.fm.mesh.x3 = b.x3 ∧
      ∀ t e k3 k2 k1, t < b.nt → e < b.ne → k3 < b.n3 → k2 < b.n2 → k1 < b.n1 → r.fm.mesh.data [t, e, k3, k2, k1] = v t e k3 k2 k1) ∧
    (1 / 2 < a1 → r.fm.mesh.x3 = a0 :: 1 / 2 :: a1 :: as ∧
      ∀ t e k3 k2 k1, t < b.nt → e < b.ne → k3 < b.n3 + 1 → k2 < b.n2 → k1 < b.n1 → r.fm.mesh.data [t, e, k3, k2, k1] = v t e (k3 - 1) k2 k1) := by
  obtain ⟨⟨d, hf, hd⟩, _⟩ := h
  unfold Mesh.mkFmesh splitTheta at hf
  rw [if_pos (by simp [Bounds.mesh, hc])] at hf
  simp only [Bounds.mesh, hx] at hf
  by_cases ha : 1 / 2 < a1
  · rw [if_pos ha] at hf
    simp only [Except.ok.injEq] at hf
    rw [← hf]
    refine ⟨hc, rfl, rfl, rfl, rfl, fun hle => absurd ha (not_lt.2 hle), fun _ => ⟨rfl, ?_⟩⟩
    intro t e k3 k2 k1 q1 q2 q3 q4 q5
    have : 1 ≤ b.n3 := by simp [Bounds.n3, hx]
    exact hd t e (k3 - 1) k2 k1 q1 q2 (by omega) q4 q5
  · rw [if_neg ha] at hf
    simp only [Except.ok.injEq] at hf
    rw [← hf]
    exact ⟨hc, rfl, rfl, rfl, rfl, fun _ => ⟨hx.symm ▸ rfl, hd⟩, fun hlt => absurd hlt ha⟩

/-- **C164 (place).** The points of the tally are those of its bins moved to the origin the file gives. -/
theorem tally_points {cs sn : ℚ → ℚ} {b : Bounds} {v : Nat → Nat → Nat → Nat → Nat → ℚ × ℚ} {t : TallyText} {r : Tally} (h : ReadAs cs sn b v t r) :
    r.fm.points = gridPoints cs sn r.fm.mesh (b.place.map (·.trsf)) ∧ r.fm.trsf = b.place.map (·.trsf) := by
  obtain ⟨⟨d, hf, hd⟩, _⟩ := h
  unfold Mesh.mkFmesh at hf
  cases hs : splitTheta (b.mesh d) with
  | error e => rw [hs] at hf; simp at hf
  | ok m => rw [hs] at hf; simp only [Except.ok.injEq] at hf; rw [← hf]; exact ⟨rfl, rfl⟩

end F4Enix.MeshFile
