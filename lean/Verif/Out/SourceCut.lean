import Verif.Out.MeshFileEx
import Verif.Base.Cut
/-!
# Source files that were cut off (C210)
-/
namespace F4Enix.MeshFile
open F4Enix F4Enix.Mesh F4Enix.Find

theorem loop_nil (k : Nat) (d : Dict Str (List Str × List Str)) : scanCdgsLoop k [] d = .ok d := by
  induction k with
  | zero => rfl
  | succ k ih => rw [scanCdgsLoop, if_neg (by decide)]; exact ih

theorem loop_append {ss : List (Nat × SrcText)} (h : ∀ x ∈ ss, Marked x.1 x.2) (k : Nat) (rest : List Str) (d : Dict Str (List Str × List Str)) :
    scanCdgsLoop (ss.length + k) (srcLines ss ++ rest) d = scanCdgsLoop k rest (srcCatalog rest ss d) := by
  induction ss generalizing d with
  | nil => simp [srcLines, srcCatalog]
  | cons x ss ih =>
    have hx := h x (by simp)
    have e : srcLines (x :: ss) ++ rest = x.2.lines ++ (srcLines ss ++ rest) := by simp [srcLines]
    have e2 : x.2.lines ++ (srcLines ss ++ rest) = x.2.id :: (x.2.head ++ x.2.start :: (x.2.data ++ x.2.stop :: (srcLines ss ++ rest))) := by
      simp [SrcText.lines]
    rw [e, List.length_cons, show ss.length + 1 + k = (ss.length + k) + 1 by omega, scanCdgsLoop]
    rw [e2, if_pos (show ((x.2.id :: (x.2.head ++ x.2.start :: (x.2.data ++ x.2.stop :: (srcLines ss ++ rest)))).headD []).take 7 = "mesh_id".toList from
      (take_eq_iff_prefix "mesh_id".toList x.2.id).2 hx.id.1)]
    simp only [List.headD_cons, List.tail_cons]
    have hw := hx.id.2
    unfold Word at hw
    rw [hw]
    simp only
    rw [untilLine_of hx.head hx.start]
    simp only [List.tail_cons]
    rw [untilLine_of hx.data hx.stop]
    simp only [List.tail_cons]
    rw [ih (fun y hy => h y (List.mem_cons_of_mem _ hy)), ← e2]
    rfl

/-- what is left of the line that was cut (proof) -/
def leftOf (part : Str) : List Str := if part = [] then [] else [part]

theorem mem_leftOf {part l : Str} (h : l ∈ leftOf part) : l = part := by
  unfold leftOf at h
  split_ifs at h with h0
  · simp at h
  · exact List.mem_singleton.1 h

theorem leftOf_ne {part : Str} (h : part ≠ []) : leftOf part = [part] := if_neg h

/-- the search for a line in a file that was cut -/
theorem until_cut {w : Str} (hw : w ≠ []) {xs ys u v : List Str} {k l part : Str} (hxs : ∀ m ∈ xs, ¬ w <+: m) (hk : w <+: k)
    (he : xs ++ k :: ys = u ++ l :: v) (hp : part <+: l) :
    (untilLine w (u ++ leftOf part) = .error .diverges ∧ ¬ (u = xs ∧ w <+: part) ∧ ∀ a, u ≠ xs ++ k :: a) ∨
    (u = xs ∧ l = k ∧ v = ys ∧ w <+: part ∧ untilLine w (u ++ leftOf part) = .ok [part]) ∨
    (∃ a, u = xs ++ k :: a ∧ ys = a ++ l :: v ∧ untilLine w (u ++ leftOf part) = .ok (k :: (a ++ leftOf part))) := by
  rcases List.append_eq_append_iff.1 he with ⟨a, h1, h2⟩ | ⟨a, h1, h2⟩
  · cases a with
    | nil =>
      have h2' := List.cons.inj h2
      rw [List.append_nil] at h1
      subst h1
      by_cases hc : w <+: part
      · right; left
        refine ⟨rfl, h2'.1.symm, h2'.2.symm, hc, ?_⟩
        have h0 : part ≠ [] := by
          rintro rfl
          exact hw (List.prefix_nil.1 hc)
        rw [leftOf_ne h0, untilLine_of hxs hc]
      · left
        refine ⟨?_, fun h => hc h.2, ?_⟩
        · apply untilLine_diverges
          intro m hm
          rcases List.mem_append.1 hm with hm | hm
          · exact hxs m hm
          · rw [mem_leftOf hm]; exact hc
        · intro a ha
          have := congrArg List.length ha
          simp at this
    | cons m a =>
      have h2' := List.cons.inj (h2.trans (List.cons_append ..))
      right; right
      refine ⟨a, by rw [h1, ← h2'.1], h2'.2, ?_⟩
      rw [h1, ← h2'.1, List.append_assoc, List.cons_append]
      exact untilLine_of hxs hk _
  · cases a with
    | nil =>
      rw [List.append_nil] at h1
      have h2' := List.cons.inj h2
      subst h1
      by_cases hc : w <+: part
      · right; left
        refine ⟨rfl, h2'.1, h2'.2, hc, ?_⟩
        have h0 : part ≠ [] := by
          rintro rfl
          exact hw (List.prefix_nil.1 hc)
        rw [leftOf_ne h0, untilLine_of hxs hc]
      · left
        refine ⟨?_, fun h => hc h.2, ?_⟩
        · apply untilLine_diverges
          intro m hm
          rcases List.mem_append.1 hm with hm | hm
          · exact hxs m hm
          · rw [mem_leftOf hm]; exact hc
        · intro a ha
          have := congrArg List.length ha
          simp at this
    | cons m a =>
      have h2' := List.cons.inj (h2.trans (List.cons_append ..))
      have hl : l ∈ xs := by rw [h1, h2'.1]; simp
      left
      refine ⟨?_, ?_, ?_⟩
      · apply untilLine_diverges
        intro q hq
        rcases List.mem_append.1 hq with hq | hq
        · exact hxs q (by rw [h1]; exact List.mem_append_left _ hq)
        · rw [mem_leftOf hq]
          exact fun hc => hxs l hl (hc.trans hp)
      · rintro ⟨h3, _⟩
        have := congrArg List.length (h3 ▸ h1)
        simp at this
      · intro b hb
        have := congrArg List.length h1
        rw [hb] at this
        simp at this

/-- a source that was cut -/
theorem loop_cut {n : Nat} {s : SrcText} (h : Marked n s) {u v : List Str} {l part : Str} (he : s.lines = u ++ l :: v) (hp : part <+: l) (k : Nat)
    (d : Dict Str (List Str × List Str)) :
    (u = [] ∧ scanCdgsLoop (k + 1) (u ++ leftOf part) d = .ok d) ∨
    (u = [] ∧ ∃ e, scanCdgsLoop (k + 1) (u ++ leftOf part) d = .error e) ∨
    (u ≠ [] ∧ ¬ (u = s.id :: (s.head ++ s.start :: s.data) ∧ "end_source_data".toList <+: part) ∧
      scanCdgsLoop (k + 1) (u ++ leftOf part) d = .error .diverges) ∨
    (u = s.id :: (s.head ++ s.start :: s.data) ∧ l = s.stop ∧ "end_source_data".toList <+: part ∧
      scanCdgsLoop (k + 1) (u ++ leftOf part) d = .ok (srcCatalog [] [(n, { s with stop := part })] d)) := by
  cases u with
  | nil =>
    by_cases h0 : part = []
    · left
      refine ⟨rfl, ?_⟩
      rw [leftOf, if_pos h0, List.append_nil]
      exact loop_nil _ _
    · rw [leftOf_ne h0, List.nil_append, scanCdgsLoop]
      by_cases hm : part.take 7 = "mesh_id".toList
      · right; left
        rw [if_pos (show (([part] : List Str).headD []).take 7 = "mesh_id".toList from hm)]
        simp only [List.headD_cons, List.tail_cons]
        refine ⟨trivial, ?_⟩
        cases (tokens part)[1]? with
        | none => exact ⟨_, rfl⟩
        | some w => exact ⟨_, rfl⟩
      · left
        rw [if_neg (show ¬ (([part] : List Str).headD []).take 7 = "mesh_id".toList from hm)]
        exact ⟨rfl, loop_nil _ _⟩
  | cons i u =>
    right; right
    have he' := List.cons.inj (he.trans (List.cons_append ..))
    rw [← he'.1] at *
    have hw := h.id.2
    unfold Word at hw
    rw [List.cons_append, scanCdgsLoop,
      if_pos (show ((s.id :: (u ++ leftOf part)).headD []).take 7 = "mesh_id".toList from (take_eq_iff_prefix "mesh_id".toList s.id).2 h.id.1)]
    simp only [List.headD_cons, List.tail_cons]
    rw [hw]
    simp only
    rcases until_cut (w := "source_data".toList) (by decide) h.head h.start he'.2 hp with ⟨h1, h2, h3⟩ | ⟨h1, h2, h3, h4, h5⟩ | ⟨a, h1, h2, h3⟩
    · left
      refine ⟨by simp, ?_, by rw [h1]⟩
      rintro ⟨hc, _⟩
      exact h3 _ (List.cons.inj hc).2
    · left
      refine ⟨by simp, ?_, ?_⟩
      · rintro ⟨hc, _⟩
        have := congrArg List.length (List.cons.inj hc).2
        rw [h1] at this
        simp at this
      · rw [h5]
        rfl
    · rw [h3]
      simp only [List.tail_cons]
      rcases until_cut (w := "end_source_data".toList) (by decide) h.data h.stop (ys := []) h2 hp with ⟨g1, g2, g3⟩ | ⟨g1, g2, g3, g4, g5⟩ | ⟨b, g1, g2, g3⟩
      · left
        refine ⟨by simp, ?_, by rw [g1]⟩
        rintro ⟨hc, hq⟩
        apply g2
        refine ⟨?_, hq⟩
        have := (List.cons.inj hc).2
        rw [h1] at this
        simpa using this
      · right
        refine ⟨by rw [h1, g1], g2, g4, ?_⟩
        rw [g5]
        simp only [List.tail_cons]
        rw [loop_nil]
        have h0 : part ≠ [] := by
          rintro rfl
          exact absurd (List.prefix_nil.1 g4) (by decide)
        simp only [srcCatalog, srcPlaces, srcLines, SrcText.lines, SrcText.head, List.map_nil, List.flatten_nil, List.append_nil]
        rw [leftOf_ne h0, h1, g1]
        simp [SrcText.head]
      · simp at g2

theorem cut_in_source {ss : List (Nat × SrcText)} {c ls2 : List Str} {l : Str} (h : c ++ l :: ls2 = srcLines ss) :
    ∃ ss1 n s ss2 u v, ss = ss1 ++ (n, s) :: ss2 ∧ c = srcLines ss1 ++ u ∧ s.lines = u ++ l :: v := by
  induction ss generalizing c with
  | nil => simp [srcLines] at h
  | cons x ss ih =>
    have e : srcLines (x :: ss) = x.2.lines ++ srcLines ss := by simp [srcLines]
    rw [e] at h
    rcases List.append_eq_append_iff.1 h with ⟨a, h1, h2⟩ | ⟨a, h1, h2⟩
    · cases a with
      | nil =>
        rw [List.nil_append] at h2
        rw [List.append_nil] at h1
        obtain ⟨ss1, n, s, ss2, u, v, q1, q2, q3⟩ := ih (c := []) h2
        refine ⟨x :: ss1, n, s, ss2, u, v, by rw [q1]; rfl, ?_, q3⟩
        have := List.append_eq_nil_iff.1 q2.symm
        have e1 : srcLines (x :: ss1) = x.2.lines ++ srcLines ss1 := by simp [srcLines]
        rw [e1, this.1, this.2, List.append_nil, List.append_nil, h1]
      | cons m a =>
        have h2' := List.cons.inj (h2.trans (List.cons_append ..))
        exact ⟨[], x.1, x.2, ss, c, a, rfl, by simp [srcLines], by rw [h1, h2'.1]⟩
    · obtain ⟨ss1, n, s, ss2, u, v, q1, q2, q3⟩ := ih (c := a) h2.symm
      have e1 : srcLines (x :: ss1) = x.2.lines ++ srcLines ss1 := by simp [srcLines]
      exact ⟨x :: ss1, n, s, ss2, u, v, by rw [q1]; rfl, by rw [h1, q2, e1, List.append_assoc], q3⟩

theorem srcCatalog_append (rest : List Str) (as bs : List (Nat × SrcText)) (d : Dict Str (List Str × List Str)) :
    srcCatalog rest (as ++ bs) d = srcCatalog rest bs (srcCatalog (srcLines bs ++ rest) as d) := by
  induction as generalizing d with
  | nil => rfl
  | cons x as ih =>
    simp only [List.cons_append, srcCatalog]
    rw [ih]
    have : srcLines (as ++ bs) ++ rest = srcLines as ++ (srcLines bs ++ rest) := by simp [srcLines]
    rw [this]

theorem scan_start {num : ParseNum} {l1 l2 : Str} {n : Nat} {q : ℚ} (h1 : WordIs num l1 1 (n : ℚ)) (h2 : WordIs num l2 1 q) (ls : List Str) :
    scanCdgs num (l1 :: l2 :: ls) = scanCdgsLoop n ls [] := by
  unfold scanCdgs
  simp only [List.headD_cons, List.tail_cons]
  rw [wordNum_ok h1]
  simp only
  rw [wordNum_ok h2]
  simp only
  rw [trunc_nat]

theorem wordNum_nil (num : ParseNum) : wordNum num [] 1 = .error .indexError := rfl

/-- what a cut file is to the search for sources -/
theorem cut_sources {num : ParseNum} {ss : List (Nat × SrcText)} {file : List Str} (h : IsSrcFile num ss file) (hl : ∀ l ∈ file, IsLine l) {cut : Str}
    (hc : cut <+: file.flatten) :
    (∃ e, scanCdgs num (fileLines cut) = .error e) ∨
    (∃ ss1 ss2 rest, ss = ss1 ++ ss2 ∧ scanCdgs num (fileLines cut) = .ok (srcCatalog rest ss1 [])) ∨
    (∃ ss1 n s ss2 part, ss = ss1 ++ (n, s) :: ss2 ∧ part <+: s.stop ∧ "end_source_data".toList <+: part ∧
      scanCdgs num (fileLines cut) = .ok (srcCatalog [] (ss1 ++ [(n, { s with stop := part })]) [])) := by
  rcases cut_lines _ hl hc with rfl | ⟨ls1, l, ls2, part, he, hp, hnl, rfl⟩
  · have := fileLines_flatten _ hl []
    rw [List.append_nil] at this
    rw [this, show fileLines ([] : Str) = [] from rfl, List.append_nil]
    obtain ⟨rest, hr⟩ := scanCdgs_file h
    exact Or.inr (Or.inl ⟨ss, [], rest, by simp, hr⟩)
  have hl1 : ∀ l ∈ ls1, IsLine l := fun l hm => hl l (by rw [he]; exact List.mem_append_left _ hm)
  obtain ⟨hm, l1, l2, rest, q, rfl, h1, h2⟩ := h
  rw [fileLines_flatten _ hl1, fileLines_noNl hnl, ← leftOf]
  cases ls1 with
  | nil =>
    left
    rw [List.nil_append]
    unfold scanCdgs
    have ht : (leftOf part).tail = [] := by unfold leftOf; split_ifs <;> rfl
    cases wordNum num ((leftOf part).headD []) 1 with
    | error e => exact ⟨e, rfl⟩
    | ok n =>
      simp only
      rw [ht]
      exact ⟨_, rfl⟩
  | cons i ls1 =>
    have he1 := List.cons.inj (he.trans (List.cons_append ..))
    rw [← he1.1]
    cases ls1 with
    | nil =>
      rw [List.cons_append, List.nil_append]
      unfold scanCdgs
      simp only [List.headD_cons, List.tail_cons]
      rw [wordNum_ok h1]
      simp only
      have ht : (leftOf part).tail = [] := by unfold leftOf; split_ifs <;> rfl
      cases wordNum num ((leftOf part).headD []) 1 with
      | error e => exact Or.inl ⟨e, rfl⟩
      | ok n =>
        simp only
        rw [ht, loop_nil]
        exact Or.inr (Or.inl ⟨[], ss, [], rfl, rfl⟩)
    | cons j a =>
      have he2 := List.cons.inj (he1.2.trans (List.cons_append ..))
      rw [← he2.1, List.cons_append, List.cons_append, scan_start h1 h2]
      have hcase : (∃ b, a = srcLines ss ++ b) ∨ (∃ b, srcLines ss = a ++ l :: b) := by
        rcases List.append_eq_append_iff.1 he2.2 with ⟨b, g1, g2⟩ | ⟨_ | ⟨m, b⟩, g1, g2⟩
        · exact Or.inl ⟨b, g1⟩
        · exact Or.inl ⟨[], by rw [g1]; simp⟩
        · exact Or.inr ⟨b, by rw [g1, (List.cons.inj (g2.trans (List.cons_append ..))).1]⟩
      rcases hcase with ⟨b, rfl⟩ | ⟨b, hb⟩
      · refine Or.inr (Or.inl ⟨ss, [], b ++ leftOf part, by simp, ?_⟩)
        rw [List.append_assoc]
        have := loop_append hm 0 (b ++ leftOf part) []
        rw [Nat.add_zero] at this
        rw [this]
        rfl
      · obtain ⟨ss1, n, s, ss2, u, v, q1, rfl, q3⟩ := cut_in_source hb.symm
        have hm1 : ∀ x ∈ ss1, Marked x.1 x.2 := fun x hx => hm x (by rw [q1]; exact List.mem_append_left _ hx)
        have hms : Marked n s := hm (n, s) (by rw [q1]; simp)
        have e : ss.length = ss1.length + (ss2.length + 1) := by rw [q1]; simp
        rw [e, List.append_assoc, loop_append hm1]
        rcases loop_cut hms q3 hp ss2.length (srcCatalog (u ++ leftOf part) ss1 []) with ⟨_, g⟩ | ⟨_, e, g⟩ | ⟨_, _, g⟩ | ⟨g1, g2, g3, g⟩
        · exact Or.inr (Or.inl ⟨ss1, (n, s) :: ss2, _, q1, g⟩)
        · exact Or.inl ⟨e, g⟩
        · exact Or.inl ⟨_, g⟩
        · refine Or.inr (Or.inr ⟨ss1, n, s, ss2, part, q1, g2 ▸ hp, g3, ?_⟩)
          rw [g, srcCatalog_append]
          have h0 : part ≠ [] := by
            rintro rfl
            exact absurd (List.prefix_nil.1 g3) (by decide)
          rw [leftOf_ne h0, g1]
          simp [srcLines, SrcText.lines, SrcText.head]

/-! ### the sources found -/

/-- a source read: its bins and place, comment, cooling time and strength, the values of the voxels it lists, zero for the others (specification) -/
def SourceReadAs (cs sn : ℚ → ℚ) (b : Bounds) (cool stren : ℚ) (vs : List (Nat × List VCell)) (comment : Str) (r : Tally) : Prop :=
  ∃ m, mkFmesh cs sn (b.mesh m) (b.place.map (·.trsf)) none = .ok r.fm ∧ r.place = b.place ∧ r.particle = none ∧
    r.comments = some comment ∧ r.source = some (cool, stren) ∧
    ∀ e k3 k2 k1, e < b.ne → k3 < b.n3 → k2 < b.n2 → k1 < b.n1 → m [0, e, k3, k2, k1] = listed vs ((k1 * b.n2 + k2) * b.n3 + k3 + 1) e

theorem read_found (cs sn : ℚ → ℚ) {num : ParseNum} (junk : Data) {pre post : List (Nat × SrcText)} {n : Nat} {s : SrcText} (rest : List Str)
    (hn : ∀ x ∈ post, x.1 ≠ n) {b : Bounds} {cool stren : ℚ} {vs : List (Nat × List VCell)} (hs : IsSource num n b cool stren vs s) :
    ∃ r, getCdgs cs sn num junk (srcCatalog rest (pre ++ (n, s) :: post) []) (natStr n) = .ok r ∧ SourceReadAs cs sn b cool stren vs s.comment r := by
  obtain ⟨g, hg, hgc⟩ := cdgsBoundaries_of hs (srcLines post ++ rest)
  obtain ⟨m, hm, hmv⟩ := cdgs_exact_partial junk (nx3 := b.n3) (nx2 := b.n2) (nx1 := b.n1) (head := [s.start]) hs.ascending hs.positive
    (source_append hs.values (srcLines post ++ rest))
  obtain ⟨f, hf⟩ := hs.usable.mkFmesh cs sn m (b.place.map (·.trsf))
  refine ⟨{ fm := f, place := b.place, particle := none, comments := some s.comment, source := some (cool, stren) }, ?_, m, hf, rfl, rfl, rfl, rfl, hmv⟩
  unfold getCdgs
  rw [srcCatalog_get [] hn]
  simp only [srcPlaces]
  rw [hg]
  simp only
  rw [if_neg (by rw [hs.usable.nonempty]; simp)]
  have e : s.start :: (s.data ++ s.stop :: (srcLines post ++ rest)) = [s.start] ++ (s.data ++ [s.stop] ++ (srcLines post ++ rest)) := by simp
  rw [e]
  rw [show (1 : Nat) = [s.start].length from rfl, hm]
  simp only
  rw [if_neg (by
    rintro ⟨h1, h2⟩
    rcases hgc with h | h
    · exact h1 h
    · exact h2 h)]
  rw [hf]
  simp only
  rw [cdgsHeader_of hs.head]

theorem source_ne {num : ParseNum} {ner ne : Nat} {vs : List (Nat × List VCell)} {ls : List Str} (h : Source num ner ne vs ls) : ls ≠ [] := by
  induction h with
  | done => simp
  | voxel index cells vs a b h ok t ih => simp [ih]

theorem source_stop {num : ParseNum} {ner ne : Nat} {vs : List (Nat × List VCell)} {ls data : List Str} {stop stop' : Str} (h : Source num ner ne vs ls)
    (he : ls = data ++ [stop]) (hs : ∀ ws, tokens stop = "end_source_data".toList :: ws → ∃ ws', tokens stop' = "end_source_data".toList :: ws') : Source num ner ne vs (data ++ [stop']) := by
  induction h generalizing data with
  | done l ws rest h =>
    cases data with
    | nil =>
      obtain ⟨ws', hw⟩ := hs ws (by rw [← (List.cons.inj he).1]; exact h)
      exact .done stop' ws' [] hw
    | cons m data =>
      have := List.cons.inj (he.trans (List.cons_append ..))
      rw [← this.1]
      exact .done l ws _ h
  | voxel index cells vs a b h ok t ih =>
    have hb := source_ne t
    rcases List.append_eq_append_iff.1 he with ⟨c, h1, h2⟩ | ⟨c, h1, h2⟩
    · rw [h1, List.append_assoc]
      exact .voxel index cells vs a _ h ok (ih h2)
    · cases c with
      | nil =>
        rw [List.append_nil] at h1
        rw [← h1]
        exact .voxel index cells vs a _ h ok (ih (data := []) h2.symm)
      | cons m c =>
        exfalso
        exact hb (by
          have := (List.cons.inj (h2.trans (List.cons_append ..))).2
          exact (List.append_eq_nil_iff.1 this.symm).2)

theorem stop_tokens {stop part : Str} (h1 : "end_source_data".toList <+: part) (h2 : part <+: stop) (ws : List Str)
    (h3 : tokens stop = "end_source_data".toList :: ws) : ∃ ws', tokens part = "end_source_data".toList :: ws' := by
  obtain ⟨w, hw, hp⟩ := tokens_prefix_le h1 (i := 0) (w' := "end_source_data".toList) (by decide)
  obtain ⟨w', hw', hp'⟩ := tokens_prefix_le h2 hw
  rw [h3] at hw'
  simp only [List.getElem?_cons_zero, Option.some.injEq] at hw'
  subst hw'
  have : w = "end_source_data".toList := hp'.eq_of_length_le hp.length_le
  subst this
  cases ht : tokens part with
  | nil => rw [ht] at hw; simp at hw
  | cons a as =>
    rw [ht] at hw
    simp only [List.getElem?_cons_zero, Option.some.injEq] at hw
    exact ⟨as, by rw [hw]⟩

theorem IsSource.cut {num : ParseNum} {n : Nat} {b : Bounds} {cool stren : ℚ} {vs : List (Nat × List VCell)} {s : SrcText}
    (h : IsSource num n b cool stren vs s) {part : Str} (h1 : "end_source_data".toList <+: part) (h2 : part <+: s.stop) :
    IsSource num n b cool stren vs { s with stop := part } where
  head := ⟨h.head.id, h.head.cooling, h.head.strength, h.head.etype, h.head.explicit, h.head.ecount, h.head.energies⟩
  geom := h.geom
  counts := h.counts
  x1 := h.x1
  x2 := h.x2
  x3 := h.x3
  noTimes := h.noTimes
  usable := h.usable
  values := source_stop h.values rfl (fun ws hw => stop_tokens h1 h2 ws hw)
  ascending := h.ascending
  positive := h.positive

/-- **C210.** A source file that ends after any number of characters is not opened, or the sources found are the first ones of the whole file, and each of
them is read with exactly what the whole file shows. -/
theorem cut_source_partial (cs sn : ℚ → ℚ) {num : ParseNum} (junk : Data) {ss : List (Nat × SrcText)} {file : List Str} (h : IsSrcFile num ss file)
    (hl : ∀ l ∈ file, IsLine l) (hn : (ss.map Prod.fst).Nodup) {b : Nat → Bounds} {cool stren : Nat → ℚ} {vs : Nat → List (Nat × List VCell)}
    (hv : ∀ x ∈ ss, IsSource num x.1 (b x.1) (cool x.1) (stren x.1) (vs x.1) x.2) {cut : Str} (hc : cut <+: file.flatten)
    {D : Dict Str (List Str × List Str)} (hs : scanCdgs num (fileLines cut) = .ok D) :
    ∃ ss1 ss2, ss = ss1 ++ ss2 ∧ (∀ w, w ∈ meshList D ↔ ∃ x ∈ ss1, w = natStr x.1) ∧
      ∀ x ∈ ss1, ∃ r, getCdgs cs sn num junk D (natStr x.1) = .ok r ∧ SourceReadAs cs sn (b x.1) (cool x.1) (stren x.1) (vs x.1) x.2.comment r := by
  rcases cut_sources h hl hc with ⟨e, g⟩ | ⟨ss1, ss2, rest, rfl, g⟩ | ⟨ss1, n, s, ss2, part, rfl, g1, g2, g⟩
  · rw [g] at hs
    cases hs
  · obtain rfl : srcCatalog rest ss1 [] = D := Except.ok.inj (g.symm.trans hs)
    refine ⟨ss1, ss2, rfl, ?_, ?_⟩
    · intro w
      rw [(meshList_perm _).mem_iff, srcCatalog_keys]
      simp [Dict.keys]
    · intro x hx
      obtain ⟨as, bs, rfl⟩ := List.append_of_mem hx
      refine read_found cs sn junk rest ?_ (hv x (List.mem_append_left _ hx))
      intro y hy he
      simp only [List.map_append, List.map_cons, List.append_assoc, List.cons_append] at hn
      have := (List.nodup_cons.1 (List.nodup_append.1 hn).2.1).1
      apply this
      rw [← he]
      exact List.mem_append_left _ (List.mem_map_of_mem hy)
  · obtain rfl : srcCatalog [] (ss1 ++ [(n, { s with stop := part })]) [] = D := Except.ok.inj (g.symm.trans hs)
    refine ⟨ss1 ++ [(n, s)], ss2, by simp, ?_, ?_⟩
    · intro w
      rw [(meshList_perm _).mem_iff, srcCatalog_keys]
      simp [Dict.keys]
    · intro x hx
      rcases List.mem_append.1 hx with hx1 | hx1
      · obtain ⟨as, bs, rfl⟩ := List.append_of_mem hx1
        rw [List.append_assoc, List.cons_append]
        refine read_found cs sn junk [] ?_ (hv x (List.mem_append_left _ hx1))
        intro y hy he
        simp only [List.map_append, List.map_cons, List.append_assoc, List.cons_append] at hn
        have := (List.nodup_cons.1 (List.nodup_append.1 hn).2.1).1
        apply this
        rw [← he]
        rcases List.mem_append.1 hy with hy | hy
        · exact List.mem_append_left _ (List.mem_map_of_mem hy)
        · rw [List.mem_singleton.1 hy]
          simp
      · rw [List.mem_singleton.1 hx1]
        exact read_found cs sn junk [] (by simp) ((hv (n, s) (by simp)).cut g2 g1)

/-- **C210 fails.** A source file that ends within a source is never opened: wherever it ends, after the line with the number of the source and before the
characters `end_source_data` are complete, the loop over its lines goes on for ever. -/
theorem cut_source_diverges {num : ParseNum} {l1 l2 : Str} {ss1 ss2 : List (Nat × SrcText)} {n : Nat} {s : SrcText} {rest : List Str} {q : ℚ}
    (hm : ∀ x ∈ ss1 ++ (n, s) :: ss2, Marked x.1 x.2) (hl : ∀ l ∈ l1 :: l2 :: (srcLines (ss1 ++ (n, s) :: ss2) ++ rest), IsLine l)
    (h1 : WordIs num l1 1 ((ss1 ++ (n, s) :: ss2).length : ℚ)) (h2 : WordIs num l2 1 q) {p : Str}
    (hp : p <+: (s.head ++ s.start :: (s.data ++ ["end_source_dat".toList])).flatten) :
    (l1 :: l2 :: (srcLines ss1 ++ [s.id])).flatten ++ p <+: (l1 :: l2 :: (srcLines (ss1 ++ (n, s) :: ss2) ++ rest)).flatten ∧
    scanCdgs num (fileLines ((l1 :: l2 :: (srcLines ss1 ++ [s.id])).flatten ++ p)) = .error .diverges := by
  have e : srcLines (ss1 ++ (n, s) :: ss2) = srcLines ss1 ++ (s.id :: (s.head ++ s.start :: (s.data ++ [s.stop]))) ++ srcLines ss2 := by
    simp [srcLines, SrcText.lines]
  have hms : Marked n s := hm (n, s) (by simp)
  have hm1 : ∀ x ∈ ss1, Marked x.1 x.2 := fun x hx => hm x (List.mem_append_left _ hx)
  have hl1 : ∀ l ∈ l1 :: l2 :: (srcLines ss1 ++ [s.id]), IsLine l := by
    intro l hx
    apply hl
    rw [e]
    simp only [List.mem_cons, List.mem_append, List.not_mem_nil, or_false] at hx ⊢
    tauto
  have hl2 : ∀ l ∈ s.head ++ s.start :: (s.data ++ [s.stop]), IsLine l := by
    intro l hx
    apply hl
    rw [e]
    simp only [List.mem_cons, List.mem_append, List.not_mem_nil, or_false] at hx ⊢
    tauto
  have hstop : "end_source_dat".toList <+: s.stop := List.IsPrefix.trans (by decide) hms.stop
  have hp2 : p <+: (s.head ++ s.start :: (s.data ++ [s.stop])).flatten := by
    refine hp.trans ?_
    simp only [List.flatten_append, List.flatten_cons, List.flatten_nil, List.append_nil]
    exact (List.prefix_append_right_inj _).2 ((List.prefix_append_right_inj _).2 ((List.prefix_append_right_inj _).2 hstop))
  refine ⟨?_, ?_⟩
  · rw [e]
    obtain ⟨z, hz⟩ := hp2
    refine ⟨z ++ (srcLines ss2 ++ rest).flatten, ?_⟩
    rw [List.append_assoc, ← List.append_assoc p, hz]
    simp
  · rw [fileLines_flatten _ hl1, List.cons_append, List.cons_append, scan_start h1 h2,
      show (ss1 ++ (n, s) :: ss2).length = ss1.length + (ss2.length + 1) by simp, List.append_assoc, loop_append hm1]
    have hcut : ∃ u l v part, s.lines = s.id :: u ++ l :: v ∧ part <+: l ∧ fileLines p = u ++ leftOf part ∧
        ¬ (s.id :: u = s.id :: (s.head ++ s.start :: s.data) ∧ "end_source_data".toList <+: part) := by
      rcases cut_lines _ hl2 hp2 with hq | ⟨u, l, v, part, g1, g2, g3, rfl⟩
      · exfalso
        have := hp.length_le
        rw [hq] at this
        have h15 := hms.stop.length_le
        simp only [List.flatten_append, List.flatten_cons, List.flatten_nil, List.append_nil, List.length_append] at this
        have e1 : "end_source_data".toList.length = 15 := by decide
        have e2 : "end_source_dat".toList.length = 14 := by decide
        omega
      · refine ⟨u, l, v, part, by rw [SrcText.lines, g1]; rfl, g2, ?_, ?_⟩
        · rw [fileLines_flatten _ (fun l hx => hl2 l (by rw [g1]; exact List.mem_append_left _ hx)), fileLines_noNl g3, leftOf]
        · rintro ⟨hu, hw⟩
          have hu := (List.cons.inj hu).2
          have := hp.length_le
          have h15 := hw.length_le
          rw [hu] at this
          simp only [List.flatten_append, List.flatten_cons, List.flatten_nil, List.append_nil, List.length_append] at this
          have e1 : "end_source_data".toList.length = 15 := by decide
          have e2 : "end_source_dat".toList.length = 14 := by decide
          omega
    obtain ⟨u, l, v, part, g1, g2, g3, g4⟩ := hcut
    rw [g3]
    rcases loop_cut hms g1 g2 ss2.length (srcCatalog ([s.id] ++ (u ++ leftOf part)) ss1 []) with ⟨g, _⟩ | ⟨g, _⟩ | ⟨_, _, g⟩ | ⟨k1, _, k2, _⟩
    · cases g
    · cases g
    · exact g
    · exact absurd ⟨k1, k2⟩ g4

/-- **C210 fails.** The sources behind a cut between two sources are missing without a complaint. -/
theorem cut_source_lost {num : ParseNum} {l1 l2 : Str} {ss1 ss2 : List (Nat × SrcText)} {rest : List Str} {q : ℚ}
    (hm : ∀ x ∈ ss1 ++ ss2, Marked x.1 x.2) (hl : ∀ l ∈ l1 :: l2 :: (srcLines (ss1 ++ ss2) ++ rest), IsLine l)
    (h1 : WordIs num l1 1 ((ss1 ++ ss2).length : ℚ)) (h2 : WordIs num l2 1 q) :
    (l1 :: l2 :: srcLines ss1).flatten <+: (l1 :: l2 :: (srcLines (ss1 ++ ss2) ++ rest)).flatten ∧
    ∃ D, scanCdgs num (fileLines (l1 :: l2 :: srcLines ss1).flatten) = .ok D ∧ ∀ w, w ∈ meshList D ↔ ∃ x ∈ ss1, w = natStr x.1 := by
  have e : srcLines (ss1 ++ ss2) = srcLines ss1 ++ srcLines ss2 := by simp [srcLines]
  have hm1 : ∀ x ∈ ss1, Marked x.1 x.2 := fun x hx => hm x (List.mem_append_left _ hx)
  refine ⟨⟨(srcLines ss2 ++ rest).flatten, by rw [e]; simp⟩, srcCatalog [] ss1 [], ?_, ?_⟩
  · have := fileLines_flatten (l1 :: l2 :: srcLines ss1) (fun l hx => hl l (by
      rw [e]
      simp only [List.mem_cons, List.mem_append] at hx ⊢
      tauto)) []
    rw [List.append_nil, show fileLines ([] : Str) = [] from rfl, List.append_nil] at this
    rw [this, scan_start h1 h2, List.length_append]
    have := loop_append hm1 ss2.length [] []
    rw [List.append_nil] at this
    rw [this, loop_nil]
  · intro w
    rw [(meshList_perm _).mem_iff, srcCatalog_keys]
    simp [Dict.keys]

/-! ### an example -/

/-- a file with that source twice, under two numbers (example) -/
def twoSources : List (Nat × SrcText) := [(1, theSource), (2, { theSource with id := ln "mesh_id 2" })]

/-- its lines (example) -/
def twoFile : List Str := fileOf ["num_meshes 2", "total_source 5"] ++ srcLines twoSources

theorem Marked.renamed {n n' : Nat} {s : SrcText} (h : Marked n s) {id : Str} (hi : "mesh_id".toList <+: id ∧ Word id 1 (natStr n')) :
    Marked n' { s with id := id } := ⟨hi, h.head, h.start, h.data, h.stop⟩

theorem two_marked : ∀ x ∈ twoSources, Marked x.1 x.2 := by
  intro x hx
  simp only [twoSources, List.mem_cons, List.not_mem_nil, or_false] at hx
  rcases hx with rfl | rfl
  · exact theSource_marked
  · exact theSource_marked.renamed (by decide +kernel)

/-- it is a file `cut_source_partial` speaks about -/
theorem two_file : IsSrcFile digit twoSources twoFile where
  marked := two_marked
  lines := ⟨ln "num_meshes 2", ln "total_source 5", [], 5, by simp [twoFile, fileOf]; exact ⟨rfl, rfl⟩, ⟨"2".toList, by decide, by decide +kernel⟩, ⟨"5".toList, by decide, by decide +kernel⟩⟩

theorem IsSource.renamed {num : ParseNum} {n n' : Nat} {b : Bounds} {cool stren : ℚ} {vs : List (Nat × List VCell)} {s : SrcText}
    (h : IsSource num n b cool stren vs s) {id : Str} (hi : "mesh_id".toList <+: id ∧ Word id 1 (natStr n')) :
    IsSource num n' b cool stren vs { s with id := id } :=
  ⟨⟨hi, h.head.cooling, h.head.strength, h.head.etype, h.head.explicit, h.head.ecount, h.head.energies⟩, h.geom, h.counts, h.x1, h.x2, h.x3,
      h.noTimes, h.usable, h.values, h.ascending, h.positive⟩

theorem two_shown : ∀ x ∈ twoSources, IsSource digit x.1 theBounds 0 5 [(2, [⟨7, 1, [4], [2]⟩])] x.2 := by
  intro x hx
  simp only [twoSources, List.mem_cons, List.not_mem_nil, or_false] at hx
  rcases hx with rfl | rfl
  · exact theSource_is
  · exact theSource_is.renamed (by decide +kernel)

theorem two_lines : ∀ l ∈ twoFile, IsLine l := by
  have : ∀ l ∈ twoFile, l.getLast? = some '\n' ∧ ∀ c ∈ l.dropLast, c ≠ '\n' := by decide +kernel
  intro l hl
  obtain ⟨h1, h2⟩ := this l hl
  refine ⟨l.dropLast, ?_, h2⟩
  have h0 : l ≠ [] := by rintro rfl; simp at h1
  rw [List.getLast?_eq_some_getLast h0, Option.some.injEq] at h1
  rw [← h1, List.dropLast_append_getLast]

/-- the file that ends after the first source is opened, with one source -/
example : (scanCdgs digit (fileLines (fileOf ["num_meshes 2", "total_source 5"] ++ theSource.lines).flatten)).toOption.map meshList = some ["1".toList] := by
  decide +kernel

end F4Enix.MeshFile
