import Verif.Out.MeshFileProps
/-!
# Column files with volumes, heads of tallies, reading several tallies (C165 - C167)
-/
namespace F4Enix.MeshFile
open F4Enix F4Enix.Mesh F4Enix.Find

/-! ### C165: column files with volumes -/

/-- the lines show the values `v` in the column format with volumes (`out=cf` of MCNP): after value and error stand the volume and the product of
value and volume (specification) -/
def ShowsColumnsCf (num : ParseNum) (b : Bounds) (v : Nat → Nat → Nat → Nat → Nat → ℚ × ℚ) (vol : Nat → Nat → Nat → Nat → Nat → ℚ × ℚ) (ls : List Str) :
    Prop :=
  ∃ title rows, ls = title :: rows ∧ "Result".toList <:+: title ∧ "Rslt * Vol".toList <:+: title ∧
    rows.length = b.ne * b.nt * b.n1 * b.n2 * b.n3 ∧
    ∀ t e k3 k2 k1, t < b.nt → e < b.ne → k3 < b.n3 → k2 < b.n2 → k1 < b.n1 →
      ∃ ws w1 w2 w3 w4, tokens (rows.getD (columnPos b.nt b.n3 b.n2 b.n1 t e k3 k2 k1) []) = ws ++ [w1, w2, w3, w4] ∧
        num w1 = some (v t e k3 k2 k1).1 ∧ num w2 = some (v t e k3 k2 k1).2 ∧
        num w3 = some (vol t e k3 k2 k1).1 ∧ num w4 = some (vol t e k3 k2 k1).2

/-- **C165 fails.** A tally in the column format with volumes is read without complaint, but its values are the volumes of the voxels and its errors the
products of value and volume. -/
theorem volumes_read_as_values (cs sn : ℚ → ℚ) {num : ParseNum} (junk : Data) {pre post : List (Nat × TallyText)} {n : Nat} {t : TallyText} {file : List Str}
    (h : IsFile (pre ++ (n, t) :: post) file) (hn : ∀ x ∈ post, x.1 ≠ n) {b : Bounds} (hb : ShowsBounds num b t.bins) (hu : Usable b)
    {v vol : Nat → Nat → Nat → Nat → Nat → ℚ × ℚ} (hv : ShowsColumnsCf num b v vol t.data) :
    ∃ d r, scan .outside file [] = .ok d ∧ getFMesh cs sn num junk d (natStr n) = .ok r ∧ ReadAs cs sn b vol t r := by
  refine tally_exact cs sn junk h hn hb hu (v := vol) ?_
  obtain ⟨title, rows, he, h1, _, h3, h4⟩ := hv
  rw [he]
  refine .column h1 h3 ?_
  intro t e k3 k2 k1 q1 q2 q3 q4 q5
  obtain ⟨ws, w1, w2, w3, w4, hw, _, _, n3, n4⟩ := h4 t e k3 k2 k1 q1 q2 q3 q4 q5
  exact ⟨ws ++ [w1, w2], w3, w4, by rw [hw]; simp, n3, n4⟩

/-! ### C166: the head of a tally -/

/-- **C166.** The particle is the first of neutron, photon, electron, proton and deuteron that the line names. Partial: Proved for comments without the words 'mesh tally.'. False: such a comment ends the head; a tally without these words is never returned. -/
theorem particle_named_partial {l p : Str} {before after : List Str} (hp : particleNames = before ++ p :: after) (h : p <:+: l)
    (hb : ∀ q ∈ before, ¬ q <:+: l) : particleOf l = p := by
  unfold particleOf
  rw [hp, List.find?_append]
  have h1 : before.find? (fun q => contains q l) = none := by
    rw [List.find?_eq_none]
    intro q hq
    rw [contains_false (hb q hq)]
    simp
  rw [h1, Option.none_or, List.find?_cons_of_pos (p := fun q => contains q l) (contains_true h)]
  rfl

/-- **C166.** The only particle named on the line is the one read. -/
theorem particle_only {l p : Str} (hp : p ∈ particleNames) (h : p <:+: l) (ho : ∀ q ∈ particleNames, q <:+: l → q = p) : particleOf l = p := by
  unfold particleOf
  cases hf : particleNames.find? (fun q => contains q l) with
  | none =>
    rw [List.find?_eq_none] at hf
    exact absurd (contains_true h) (hf p hp)
  | some q =>
    have h1 := List.mem_of_find?_eq_some hf
    have h2 := List.find?_some hf
    simp only [contains_iff] at h2
    rw [ho q h1 h2]
    rfl

/-- **C166.** A line that names none of them gives the empty particle. -/
theorem particle_none {l : Str} (h : ∀ q ∈ particleNames, ¬ q <:+: l) : particleOf l = [] := by
  unfold particleOf
  have h1 : particleNames.find? (fun q => contains q l) = none := by
    rw [List.find?_eq_none]
    intro q hq
    rw [contains_false (h q hq)]
    simp
  rw [h1]
  rfl

/-- **C166 fails.** The head of a tally ends with the first line that contains `mesh tally.`, though it is a comment: the comments from there on are lost and
the particle is looked for in the comment. -/
theorem comment_ends_head {first : Str} {c : List Str} {k : Str} (hc : ∀ l ∈ c, ¬ "mesh tally.".toList <:+: l) (hk : "mesh tally.".toList <:+: k)
    (rest : List Str) : header (first :: (c ++ k :: rest)) = .ok (particleOf k, if c.flatten = [] then none else some c.flatten) := by
  unfold header
  rw [List.tail_cons, headLoop_of hc hk, List.nil_append]

theorem headLoop_diverges {ls : List Str} (h : ∀ l ∈ ls, ¬ "mesh tally.".toList <:+: l) (acc : Str) : headLoop ls acc = .error .diverges := by
  induction ls generalizing acc with
  | nil => rfl
  | cons l ls ih =>
    rw [headLoop, contains_false (h l (by simp))]
    simp only [Bool.false_eq_true, if_false]
    exact ih (fun l hl => h l (List.mem_cons_of_mem _ hl)) _

/-- **C166 fails.** A tally whose bins and values can be read, but that has no line with `mesh tally.` from its number to the end of the file (the source
importance meshes of D1SUNED), is never returned: the loop over the head goes on for ever. -/
theorem nameless_diverges (cs sn : ℚ → ℚ) {num : ParseNum} (junk : Data) {d : Dict Str Places} {n : Str} {p : Places} (hd : Dict.get? d n = some p)
    {b : Bounds} {r : List Str} (hb : boundaries num p.bound.tail = .ok (b, r)) (hu : Usable b) {v : Data} (hv : meshValues num junk b p.data = .ok v)
    (h : ∀ l ∈ p.top.tail, ¬ "mesh tally.".toList <:+: l) : getFMesh cs sn num junk d n = .error .diverges := by
  unfold getFMesh
  rw [hd]
  simp only
  rw [hb]
  simp only
  rw [hv]
  simp only [finish]
  obtain ⟨f, hf⟩ := hu.mkFmesh cs sn v (b.place.map (·.trsf))
  rw [hf]
  simp only [header]
  rw [headLoop_diverges h]

/-! ### C167: reading several tallies -/

theorem readMany_ok {get : Str → Except PyErr Tally} {l : List ℤ} (h : ∀ k ∈ l, ∃ t, get (intStr k) = .ok t) (d : Dict ℤ Tally) :
    ∃ r, readMany get l d = .ok r ∧
      (∀ k, k ∈ l → ∃ t, get (intStr k) = .ok t ∧ Dict.get? r k = some t) ∧ ∀ k, k ∉ l → Dict.get? r k = Dict.get? d k := by
  induction l generalizing d with
  | nil => exact ⟨d, rfl, fun k hk => by simp at hk, fun k _ => rfl⟩
  | cons n l ih =>
    obtain ⟨t, ht⟩ := h n (by simp)
    obtain ⟨r, hr, h1, h2⟩ := ih (fun k hk => h k (List.mem_cons_of_mem _ hk)) (Dict.set d n t)
    refine ⟨r, ?_, ?_, ?_⟩
    · simp only [readMany]; rw [ht]; exact hr
    · intro k hk
      by_cases hl : k ∈ l
      · exact h1 k hl
      · have : k = n := by rcases List.mem_cons.1 hk with he | he; exact he; exact absurd he hl
        subst this
        refine ⟨t, ht, ?_⟩
        rw [h2 k hl, Dict.get?_set_self]
    · intro k hk
      rw [h2 k (fun hl => hk (List.mem_cons_of_mem _ hl)), Dict.get?_set_ne]
      intro he; exact hk (by rw [he]; simp)

theorem readMany_error {get : Str → Except PyErr Tally} {as : List ℤ} {n : ℤ} {bs : List ℤ} {e : PyErr} (ha : ∀ k ∈ as, ∃ t, get (intStr k) = .ok t)
    (hn : get (intStr n) = .error e) (d : Dict ℤ Tally) : readMany get (as ++ n :: bs) d = .error e := by
  induction as generalizing d with
  | nil => simp only [List.nil_append, readMany]; rw [hn]
  | cons a as ih =>
    obtain ⟨t, ht⟩ := ha a (by simp)
    simp only [List.cons_append, readMany]
    rw [ht]
    exact ih (fun k hk => ha k (List.mem_cons_of_mem _ hk)) _

/-- the names are numbers, each once (specification) -/
def Numbered (names : List Str) (ns : List Nat) : Prop := names = ns.map natStr ∧ ns.Nodup

theorem readAll_eq_readMany {get : Str → Except PyErr Tally} (ns : List Nat) (d : Dict ℤ Tally) :
    readAll get (ns.map natStr) d = readMany get (ns.map (fun (n : Nat) => (n : ℤ))) d := by
  induction ns generalizing d with
  | nil => rfl
  | cons n ns ih =>
    simp only [List.map_cons, readAll, readMany]
    have e : intStr (n : ℤ) = natStr n := rfl
    rw [e]
    cases get (natStr n) with
    | error e => rfl
    | ok t =>
      simp only
      have := parseInt_intStr (n : ℤ)
      rw [e] at this
      rw [this]
      exact ih _

/-- **C167.** Without an argument, with zero and with an empty list all the tallies of the file are read, each under its number, and nothing else. -/
theorem read_all {get : Str → Except PyErr Tally} {names : List Str} {ns : List Nat} (hn : Numbered names ns) (h : ∀ n ∈ ns, ∃ t, get (natStr n) = .ok t)
    {arg : MeshArg} (ha : arg = .none ∨ arg = .one 0 ∨ arg = .many []) (old : Dict ℤ Tally) :
    ∃ d, afterRead get names old arg = (d, none) ∧ (∀ n ∈ ns, ∃ t, get (natStr n) = .ok t ∧ Dict.get? d (n : ℤ) = some t) ∧
      ∀ k : ℤ, (∀ n ∈ ns, k ≠ n) → Dict.get? d k = none := by
  have he : readMesh get names arg = readAll get names [] := by
    rcases ha with rfl | rfl | rfl
    · rfl
    · simp [readMesh]
    · simp [readMesh]
  obtain ⟨r, hr, h1, h2⟩ := readMany_ok (get := get) (l := ns.map (fun (n : Nat) => (n : ℤ))) (by
    intro k hk
    obtain ⟨n, hn, rfl⟩ := List.mem_map.1 hk
    exact h n hn) []
  refine ⟨r, ?_, ?_, ?_⟩
  · unfold afterRead
    rw [he, hn.1, readAll_eq_readMany, hr]
  · intro n hn
    exact h1 n (List.mem_map_of_mem hn)
  · intro k hk
    rw [h2 k (by
      intro hm
      obtain ⟨n, hn, he⟩ := List.mem_map.1 hm
      exact hk n hn he.symm)]
    rfl

/-- **C167.** With a number or a list of numbers exactly these tallies are read. -/
theorem read_some {get : Str → Except PyErr Tally} (names : List Str) {l : List ℤ} (hl : l ≠ []) (h : ∀ k ∈ l, ∃ t, get (intStr k) = .ok t)
    {arg : MeshArg} (ha : arg = .many l ∨ ∃ k, k ≠ 0 ∧ l = [k] ∧ arg = .one k) (old : Dict ℤ Tally) :
    ∃ d, afterRead get names old arg = (d, none) ∧ (∀ k ∈ l, ∃ t, get (intStr k) = .ok t ∧ Dict.get? d k = some t) ∧
      ∀ k, k ∉ l → Dict.get? d k = none := by
  have he : readMesh get names arg = readMany get l [] := by
    rcases ha with rfl | ⟨k, hk, rfl, rfl⟩
    · simp only [readMesh]; rw [if_neg hl]
    · simp only [readMesh]; rw [if_neg hk]
  obtain ⟨r, hr, h1, h2⟩ := readMany_ok h []
  refine ⟨r, ?_, h1, ?_⟩
  · unfold afterRead; rw [he, hr]
  · intro k hk; rw [h2 k hk]; rfl

/-- **C167.** A tally that cannot be read, and a number the file does not have, refuse the whole call: the meshes read before stay. -/
theorem read_refused {get : Str → Except PyErr Tally} (names : List Str) {as : List ℤ} {n : ℤ} {bs : List ℤ} {e : PyErr}
    (ha : ∀ k ∈ as, ∃ t, get (intStr k) = .ok t) (hn : get (intStr n) = .error e) (old : Dict ℤ Tally) :
    afterRead get names old (.many (as ++ n :: bs)) = (old, some e) ∧ (n ≠ 0 → afterRead get names old (.one n) = (old, some e)) := by
  constructor
  · unfold afterRead
    simp only [readMesh]
    rw [if_neg (by simp), readMany_error ha hn]
  · intro h0
    unfold afterRead
    simp only [readMesh]
    rw [if_neg h0]
    have := readMany_error (as := []) (bs := []) (by simp) hn []
    rw [List.nil_append] at this
    rw [this]

/-- the same when all are asked for -/
theorem read_all_refused {get : Str → Except PyErr Tally} {names : List Str} {as : List Nat} {n : Nat} {bs : List Nat} {e : PyErr}
    (hn : Numbered names (as ++ n :: bs)) (ha : ∀ k ∈ as, ∃ t, get (natStr k) = .ok t) (h : get (natStr n) = .error e) (old : Dict ℤ Tally) :
    afterRead get names old .none = (old, some e) := by
  unfold afterRead
  simp only [readMesh]
  rw [hn.1, readAll_eq_readMany, List.map_append, List.map_cons, readMany_error (as := as.map (fun (n : Nat) => (n : ℤ)))]
  · intro k hk
    obtain ⟨m, hm, rfl⟩ := List.mem_map.1 hk
    exact ha m hm
  · exact h

/-- the list of the tallies of a file, in the order in which they are read -/
theorem meshList_numbered {ts : List (Nat × TallyText)} {file : List Str} (h : IsFile ts file) :
    ∃ d ns, scan .outside file [] = .ok d ∧ Numbered (meshList d) ns ∧ ∀ n, n ∈ ns ↔ ∃ x ∈ ts, x.1 = n := by
  obtain ⟨d, hd, hn, _, hm⟩ := meshlist_exact h
  have e : meshList d = ((meshList d).map digitsVal).map natStr := by
    rw [List.map_map]
    conv_lhs => rw [← List.map_id (meshList d)]
    apply List.map_congr_left
    intro w hw
    obtain ⟨x, _, rfl⟩ := (hm w).1 hw
    simp [digitsVal_natStr]
  refine ⟨d, (meshList d).map digitsVal, hd, ⟨e, ?_⟩, ?_⟩
  · rw [e] at hn
    exact List.Nodup.of_map _ hn
  · intro n
    rw [List.mem_map]
    constructor
    · rintro ⟨w, hw, rfl⟩
      obtain ⟨x, hx, rfl⟩ := (hm w).1 hw
      exact ⟨x, hx, (digitsVal_natStr _).symm⟩
    · rintro ⟨x, hx, rfl⟩
      exact ⟨natStr x.1, (hm _).2 ⟨x, hx, rfl⟩, digitsVal_natStr _⟩

/-- **C167.** Reading a whole file whose tallies have different numbers: every tally is in `mesh` under its number with what the file shows for it, and there is
nothing else in it. -/
theorem read_file (cs sn : ℚ → ℚ) {num : ParseNum} (junk : Data) {ts : List (Nat × TallyText)} {file : List Str} (h : IsFile ts file)
    (hd : (ts.map (·.1)).Nodup) {b : Nat → Bounds} {v : Nat → Nat → Nat → Nat → Nat → Nat → ℚ × ℚ}
    (hb : ∀ x ∈ ts, ShowsBounds num (b x.1) x.2.bins ∧ Usable (b x.1) ∧ ShowsValues num (b x.1) (v x.1) x.2.data) (old : Dict ℤ Tally) :
    ∃ d m, scan .outside file [] = .ok d ∧ afterRead (getFMesh cs sn num junk d) (meshList d) old .none = (m, none) ∧
      (∀ x ∈ ts, ∃ r, Dict.get? m (x.1 : ℤ) = some r ∧ ReadAs cs sn (b x.1) (v x.1) x.2 r) ∧
      ∀ k : ℤ, (∀ x ∈ ts, k ≠ x.1) → Dict.get? m k = none := by
  obtain ⟨d, ns, hs, hn, hm⟩ := meshList_numbered h
  have one : ∀ x ∈ ts, ∃ r, getFMesh cs sn num junk d (natStr x.1) = .ok r ∧ ReadAs cs sn (b x.1) (v x.1) x.2 r := by
    rintro ⟨n, t⟩ hx
    obtain ⟨pre, post, rfl⟩ := List.append_of_mem hx
    have hpost : ∀ y ∈ post, y.1 ≠ n := by
      intro y hy he
      rw [List.map_append, List.map_cons] at hd
      have := (List.nodup_append.1 hd).2.1
      rw [List.nodup_cons] at this
      exact this.1 (List.mem_map.2 ⟨y, hy, he⟩)
    obtain ⟨h1, h2, h3⟩ := hb (n, t) hx
    obtain ⟨d', r, hd', hr, hra⟩ := tally_exact cs sn junk h hpost h1 h2 h3
    rw [hs] at hd'
    cases hd'
    exact ⟨r, hr, hra⟩
  obtain ⟨m, hm1, hm2, hm3⟩ := read_all (get := getFMesh cs sn num junk d) hn (by
    intro n hn
    obtain ⟨x, hx, rfl⟩ := (hm n).1 hn
    obtain ⟨r, hr, _⟩ := one x hx
    exact ⟨r, hr⟩) (arg := .none) (Or.inl rfl) old
  refine ⟨d, m, hs, hm1, ?_, ?_⟩
  · intro x hx
    obtain ⟨t, ht, hg⟩ := hm2 x.1 ((hm _).2 ⟨x, hx, rfl⟩)
    obtain ⟨r, hr, hra⟩ := one x hx
    rw [hr] at ht
    cases ht
    exact ⟨_, hg, hra⟩
  · intro k hk
    apply hm3
    intro n hn
    obtain ⟨x, hx, rfl⟩ := (hm n).1 hn
    exact hk x hx

end F4Enix.MeshFile
