import Verif.Out.RssaGrid
/-!
# RSSA files that were cut off (C205)
-/
namespace F4Enix.Rssa
open F4Enix

/-! ## A reader that succeeds does so with more bytes after it -/

theorem readInt32_more {f r e : List Byte} {i : ℤ} (h : readInt32 f = .ok (i, r)) :
    readInt32 (f ++ e) = .ok (i, r ++ e) ∧ f.length = 4 + r.length := by
  unfold readInt32 at h ⊢
  split at h
  · exact absurd h (by simp)
  · rename_i h4
    have h4 : 4 ≤ f.length := by omega
    rw [Except.ok.injEq, Prod.mk.injEq] at h
    obtain ⟨h1, h2⟩ := h
    refine ⟨?_, by rw [← h2, List.length_drop]; omega⟩
    rw [if_neg (by rw [List.length_append]; omega), List.take_append_of_le_length h4, List.drop_append_of_le_length h4, h1, h2]

theorem readRecord_more {f r e d : List Byte} (h : readRecord f = .ok (d, r)) :
    readRecord (f ++ e) = .ok (d, r ++ e) ∧ f.length = 8 + d.length + r.length := by
  unfold readRecord at h ⊢
  cases h1 : readInt32 f with
  | error x => rw [h1] at h; exact absurd h (by simp)
  | ok a =>
    obtain ⟨c1, f1⟩ := a
    obtain ⟨h1', l1⟩ := readInt32_more (e := e) h1
    rw [h1] at h
    rw [h1']
    simp only at h ⊢
    by_cases hn : c1 < 0
    · simp only [if_pos hn, List.drop_length] at h
      exact absurd h (by simp [readInt32])
    · simp only [if_neg hn] at h ⊢
      cases h2 : readInt32 (f1.drop c1.toNat) with
      | error x => rw [h2] at h; exact absurd h (by simp)
      | ok b =>
        obtain ⟨c2, r2⟩ := b
        obtain ⟨h2', l2⟩ := readInt32_more (e := e) h2
        rw [List.length_drop] at l2
        have hle : c1.toNat ≤ f1.length := by omega
        rw [h2] at h
        rw [List.drop_append_of_le_length hle, h2']
        simp only at h ⊢
        split at h
        · exact absurd h (by simp)
        · rename_i hc
          rw [Except.ok.injEq, Prod.mk.injEq] at h
          obtain ⟨hd, hr⟩ := h
          rw [if_neg hc, List.take_append_of_le_length hle, hd, hr]
          refine ⟨rfl, ?_⟩
          rw [← hd, ← hr, List.length_take]
          omega

theorem readSurfaces_more (kjaq : ℤ) (n : Nat) {f r e : List Byte} {ss : List Surface} (h : readSurfaces kjaq n f = .ok (ss, r)) :
    readSurfaces kjaq n (f ++ e) = .ok (ss, r ++ e) := by
  induction n generalizing f ss r with
  | zero =>
    simp only [readSurfaces, Except.ok.injEq, Prod.mk.injEq] at h ⊢
    exact ⟨h.1, by rw [h.2]⟩
  | succ n ih =>
    rw [readSurfaces] at h ⊢
    cases h1 : readRecord f with
    | error x => rw [h1] at h; exact absurd h (by simp [bind, Except.bind])
    | ok a =>
      obtain ⟨d, f1⟩ := a
      rw [h1] at h
      rw [(readRecord_more (e := e) h1).1]
      simp only [bind, Except.bind] at h ⊢
      cases h2 : readSurface kjaq d with
      | error x => rw [h2] at h; exact absurd h (by simp)
      | ok s =>
        simp only [h2] at h ⊢
        cases h3 : readSurfaces kjaq n f1 with
        | error x => rw [h3] at h; exact absurd h (by simp)
        | ok b =>
          obtain ⟨ss', f2⟩ := b
          simp only [h3, pure, Except.pure, Except.ok.injEq, Prod.mk.injEq] at h
          rw [ih h3]
          simp only [pure, Except.pure, Except.ok.injEq, Prod.mk.injEq]
          exact ⟨h.1, by rw [h.2]⟩

theorem readHeader_more (utf8 : List Byte → Bool) {f r e : List Byte} {p : Params} (h : readHeader utf8 f = .ok (p, r)) :
    readHeader utf8 (f ++ e) = .ok (p, r ++ e) := by
  unfold readHeader at h ⊢
  cases h1 : readRecord f with
  | error x => rw [h1] at h; exact absurd h (by simp [bind, Except.bind])
  | ok a =>
    obtain ⟨d1, f1⟩ := a
    rw [h1] at h
    rw [(readRecord_more (e := e) h1).1]
    simp only [bind, Except.bind, pure, Except.pure, throw, throwThe, MonadExceptOf.throw] at h ⊢
    by_cases hu : ¬ utf8 d1 = true
    · rw [if_pos hu] at h; exact absurd h (by simp)
    rw [if_neg hu] at h ⊢
    by_cases hm : ¬ contains magic d1 = true
    · rw [if_pos hm] at h; exact absurd h (by simp)
    rw [if_neg hm] at h ⊢
    cases h2 : readRecord f1 with
    | error x => rw [h2] at h; exact absurd h (by simp)
    | ok a =>
      obtain ⟨d2, f2⟩ := a
      rw [h2] at h
      rw [(readRecord_more (e := e) h2).1]
      simp only at h ⊢
      cases g1 : getInt 8 d2 0 with
      | error x => rw [g1] at h; exact absurd h (by simp)
      | ok np1 =>
      cases g2 : getInt 8 d2 8 with
      | error x => rw [g1, g2] at h; exact absurd h (by simp)
      | ok nrss =>
      cases g3 : getInt 4 d2 16 with
      | error x => rw [g1, g2, g3] at h; exact absurd h (by simp)
      | ok nrcd =>
      cases g4 : getInt 4 d2 20 with
      | error x => rw [g1, g2, g3, g4] at h; exact absurd h (by simp)
      | ok njsw =>
      cases g5 : getInt 8 d2 24 with
      | error x => rw [g1, g2, g3, g4, g5] at h; exact absurd h (by simp)
      | ok niss =>
      simp only [g1, g2, g3, g4, g5] at h ⊢
      by_cases hc : nrcd ≠ 11
      · rw [if_pos hc] at h; exact absurd h (by simp)
      rw [if_neg hc] at h ⊢
      by_cases hp : ¬ np1 < 0
      · rw [if_pos hp] at h; exact absurd h (by simp)
      rw [if_neg hp] at h ⊢
      cases h3 : readRecord f2 with
      | error x => rw [h3] at h; exact absurd h (by simp)
      | ok a =>
        obtain ⟨d3, f3⟩ := a
        rw [h3] at h
        rw [(readRecord_more (e := e) h3).1]
        simp only at h ⊢
        cases k1 : getInt 4 d3 0 with
        | error x => rw [k1] at h; exact absurd h (by simp)
        | ok niwr =>
        cases k2 : getInt 4 d3 4 with
        | error x => rw [k1, k2] at h; exact absurd h (by simp)
        | ok mipts =>
        cases k3 : getInt 4 d3 8 with
        | error x => rw [k1, k2, k3] at h; exact absurd h (by simp)
        | ok kjaq =>
        simp only [k1, k2, k3] at h ⊢
        cases h4 : readSurfaces kjaq njsw.toNat f3 with
        | error x => rw [h4] at h; exact absurd h (by simp)
        | ok a =>
          obtain ⟨ss, f4⟩ := a
          rw [h4] at h
          rw [readSurfaces_more (e := e) _ _ h4]
          simp only at h ⊢
          by_cases hw : 0 < niwr
          · rw [if_pos hw] at h
            cases h5 : readRecord f4 with
            | error x => rw [h5] at h; exact absurd h (by simp)
            | ok a => rw [h5] at h; exact absurd h (by simp)
          rw [if_neg hw] at h ⊢
          cases h5 : readRecord f4 with
          | error x => rw [h5] at h; exact absurd h (by simp)
          | ok a =>
            obtain ⟨d5, f5⟩ := a
            rw [h5] at h
            rw [(readRecord_more (e := e) h5).1]
            simp only [Except.ok.injEq, Prod.mk.injEq] at h ⊢
            exact ⟨h.1, by rw [h.2]⟩

/-! ## Files that were cut off -/

/-- the bytes before the first track (specification) -/
def Contents.headSize (c : Contents) : Nat := c.bytes.length - 96 * c.tracks.length

theorem record_length (d : List Byte) : (record d).length = d.length + 8 := by
  simp [record, encInt, leBytes_length]; omega

theorem tracks_length {c : Contents} (ht : ∀ t ∈ c.tracks, t.length = 11 ∧ ∀ w ∈ t, w.length = 8) :
    ((c.tracks.map (fun t => record t.flatten)).flatten).length = 96 * c.tracks.length := by
  rw [flatten_length 96]
  · simp [Nat.mul_comm]
  · intro l hl
    obtain ⟨t, htm, rfl⟩ := List.mem_map.1 hl
    rw [record_length, flatten_length 8 _ (ht t htm).2, (ht t htm).1]

theorem tracks_le {c : Contents} (ht : ∀ t ∈ c.tracks, t.length = 11 ∧ ∀ w ∈ t, w.length = 8) : 96 * c.tracks.length ≤ c.bytes.length := by
  rw [← tracks_length ht]; unfold Contents.bytes; simp only [List.length_append]; omega

/-- the contents with only the first tracks (specification) -/
def Contents.firstTracks (c : Contents) (k : Nat) : Contents := { c with tracks := c.tracks.take k }

theorem bytes_firstTracks {c : Contents} {utf8 : List Byte → Bool} (h : c.Ok utf8) {k : Nat} (hk : k ≤ c.tracks.length) :
    (c.firstTracks k).bytes = c.bytes.take (c.headSize + 96 * k) := by
  have hlen := tracks_length h.tracks
  obtain ⟨hd, hhd⟩ : ∃ hd, ∀ ts, ({ c with tracks := ts } : Contents).bytes = hd ++ (ts.map (fun t => record t.flatten)).flatten :=
    ⟨record c.title ++
      (record (encInt 8 c.p.np1 ++ encInt 8 c.p.nrss ++ encInt 4 c.p.nrcd ++ encInt 4 c.p.njsw ++ encInt 8 c.p.niss) ++
      (record (encInt 4 c.p.niwr ++ encInt 4 c.p.mipts ++ encInt 4 c.p.kjaq) ++
      ((c.p.surfaces.map (fun s => record (surfaceBytes s))).flatten ++ record c.summary))),
      fun ts => by simp [Contents.bytes, List.append_assoc]⟩
  have e0 : c.bytes = hd ++ (c.tracks.map (fun t => record t.flatten)).flatten := hhd c.tracks
  have hs : c.headSize = hd.length := by
    unfold Contents.headSize
    rw [e0, List.length_append, hlen]
    omega
  have e1 : (c.firstTracks k).bytes = hd ++ ((c.tracks.take k).map (fun t => record t.flatten)).flatten := hhd _
  rw [e1, e0, hs, List.take_length_add_append]
  congr 1
  have hl : (((c.tracks.take k).map (fun t => record t.flatten)).flatten).length = 96 * k := by
    have := tracks_length (c := c.firstTracks k) (fun t ht => h.tracks t (List.mem_of_mem_take ht))
    simp only [Contents.firstTracks, List.length_take, Nat.min_eq_left hk] at this
    exact this
  have hsplit : (c.tracks.map (fun t => record t.flatten)).flatten =
      ((c.tracks.take k).map (fun t => record t.flatten)).flatten ++ ((c.tracks.drop k).map (fun t => record t.flatten)).flatten := by
    rw [← List.flatten_append, ← List.map_append, List.take_append_drop]
  rw [hsplit, List.take_append_of_le_length (Nat.le_of_eq hl.symm)]
  exact (List.take_of_length_le (Nat.le_of_eq hl)).symm

theorem firstTracks_ok {c : Contents} {utf8 : List Byte → Bool} (h : c.Ok utf8) (k : Nat) : (c.firstTracks k).Ok utf8 :=
  { title_len := h.title_len, title_utf8 := h.title_utf8, title_code := h.title_code, summary_len := h.summary_len, np1 := h.np1, nrss := h.nrss,
    nrcd := h.nrcd, njsw := h.njsw, niss := h.niss, niwr := h.niwr, mipts := h.mipts, kjaq := h.kjaq, surfaces := h.surfaces,
    tracks := fun t ht => h.tracks t (List.mem_of_mem_take ht) }

/-- a header that is read leaves all the bytes after it: the rest is what follows the header -/
theorem readHeader_file (utf8 : List Byte → Bool) (c : Contents) (h : c.Ok utf8) :
    ∃ p r, readHeader utf8 c.bytes = .ok (p, r) ∧ r.length = 96 * c.tracks.length := by
  have hr := read_file utf8 (fun _ => 0) c h
  unfold readRssa at hr
  cases hh : readHeader utf8 c.bytes with
  | error x => rw [hh] at hr; exact absurd hr (by simp [bind, Except.bind])
  | ok a =>
    obtain ⟨p, r⟩ := a
    refine ⟨p, r, rfl, ?_⟩
    rw [hh] at hr
    simp only [bind, Except.bind] at hr
    cases ht : readTracks (fun _ => 0) r with
    | error x => rw [ht] at hr; exact absurd hr (by simp)
    | ok ts =>
      rw [ht] at hr
      simp only [pure, Except.pure, Except.ok.injEq, Prod.mk.injEq] at hr
      have hlen : ts.length = c.tracks.length := by rw [hr.2, List.length_map]
      unfold readTracks at ht
      split at ht
      · exact absurd ht (by simp)
      · rename_i hm
        have := congrArg List.length (Except.ok.inj ht)
        rw [groups_length] at this
        omega

/-- **C205.** If an RSSA file (of any size, with any surfaces and tracks) is cut off, what is left is refused, unless the cut is exactly between two tracks: then
it is read without a message as a file with fewer tracks. Partial: the statement (a file that was cut off is refused) is false there (`cut_accepted`). -/
theorem cut_refused_partial (utf8 : List Byte → Bool) (f64 : List Byte → ℚ) {c : Contents} (h : c.Ok utf8) {n : Nat} (_hn : n < c.bytes.length)
    (hcut : ¬ ∃ k, n = c.headSize + 96 * k) : ∃ e, readRssa utf8 f64 (c.bytes.take n) = .error e := by
  cases hr : readRssa utf8 f64 (c.bytes.take n) with
  | error e => exact ⟨e, rfl⟩
  | ok a =>
    exfalso
    unfold readRssa at hr
    cases hh : readHeader utf8 (c.bytes.take n) with
    | error x => rw [hh] at hr; exact absurd hr (by simp [bind, Except.bind])
    | ok b =>
      obtain ⟨p, r⟩ := b
      have hm := readHeader_more (e := c.bytes.drop n) utf8 hh
      rw [List.take_append_drop] at hm
      obtain ⟨p', r', hf, hl⟩ := readHeader_file utf8 c h
      rw [hf, Except.ok.injEq, Prod.mk.injEq] at hm
      have hlr : r.length + (c.bytes.length - n) = 96 * c.tracks.length := by
        rw [← hl, hm.2, List.length_append, List.length_drop]
      rw [hh] at hr
      simp only [bind, Except.bind] at hr
      unfold readTracks at hr
      by_cases hd : r.length % 96 ≠ 0
      · rw [if_pos hd] at hr; exact absurd hr (by simp)
      · refine hcut ⟨r.length / 96, ?_⟩
        have := tracks_le h.tracks
        unfold Contents.headSize
        omega

/-- **C205 (negation).** A file that was cut off between two tracks is read: the parameters are those of the whole file (also the number of tracks `nrss`), the
tracks are the ones before the cut. -/
theorem cut_accepted (utf8 : List Byte → Bool) (f64 : List Byte → ℚ) {c : Contents} (h : c.Ok utf8) {k : Nat} (hk : k < c.tracks.length) :
    c.headSize + 96 * k < c.bytes.length ∧
    readRssa utf8 f64 (c.bytes.take (c.headSize + 96 * k)) =
      .ok ({ c.p with surfaces := c.p.surfaces.map (Surface.seen c.p.kjaq) }, (c.tracks.take k).map (fun t => t.map f64)) := by
  refine ⟨?_, ?_⟩
  · obtain ⟨p', r', hf, hl⟩ := readHeader_file utf8 c h
    have := tracks_length h.tracks
    have h2 : 96 * c.tracks.length ≤ c.bytes.length := by
      rw [← this]; unfold Contents.bytes; simp only [List.length_append]; omega
    unfold Contents.headSize
    omega
  · rw [← bytes_firstTracks h hk.le]
    exact read_file utf8 f64 (c.firstTracks k) (firstTracks_ok h k)

/-- **C205 (what can be checked).** Comparing the number of tracks of the parameters with the number of tracks read finds every cut: if they are equal in the
whole file, no part of the file is read with as many tracks as it says. -/
theorem cut_seen (utf8 : List Byte → Bool) (f64 : List Byte → ℚ) {c : Contents} (h : c.Ok utf8) (hc : c.p.nrss = c.tracks.length) {n : Nat}
    (hn : n < c.bytes.length) {p : Params} {ts : List (List ℚ)} (hr : readRssa utf8 f64 (c.bytes.take n) = .ok (p, ts)) : (ts.length : ℤ) < p.nrss := by
  by_cases hcut : ∃ k, n = c.headSize + 96 * k
  · obtain ⟨k, rfl⟩ := hcut
    have hk : k < c.tracks.length := by
      unfold Contents.headSize at hn
      have := tracks_length h.tracks
      have h2 : 96 * c.tracks.length ≤ c.bytes.length := by
        rw [← this]; unfold Contents.bytes; simp only [List.length_append]; omega
      omega
    rw [(cut_accepted utf8 f64 h hk).2, Except.ok.injEq, Prod.mk.injEq] at hr
    rw [← hr.1, ← hr.2]
    simp only [hc, List.length_map, List.length_take]
    omega
  · obtain ⟨e, he⟩ := cut_refused_partial utf8 f64 h hn hcut
    rw [he] at hr
    exact absurd hr (by simp)

/-- the sample has a header of 141 bytes; cut after its first track it is read with one track (example) -/
example : sample.headSize = 141 ∧ sample.bytes.length = 429 ∧
    (readRssa (fun _ => true) (fun _ => 2) (sample.bytes.take 237)).map (fun r => (r.1.nrss, r.2.length)) = .ok (3, 1) ∧
    readRssa (fun _ => true) (fun _ => 2) (sample.bytes.take 238) = .error .valueError ∧
    readRssa (fun _ => true) (fun _ => 2) (sample.bytes.take 100) = .error .indexError := by decide +kernel

end F4Enix.Rssa
