import Verif.Out.RssaSpec
import Mathlib.Tactic.Ring
import Mathlib.Tactic.Linarith
import Mathlib.Tactic.Positivity
import Mathlib.Tactic.NormNum
/-!
# Reading RSSA files (C34)
-/
namespace F4Enix.Rssa
open F4Enix

theorem leBytes_length (k n : Nat) : (leBytes k n).length = k := by
  induction k generalizing n with
  | zero => rfl
  | succ k ih => simp [leBytes, ih]

theorem leVal_leBytes (k n : Nat) : leVal (leBytes k n) = n % 256 ^ k := by
  induction k generalizing n with
  | zero => simp [leVal, leBytes, Nat.mod_one]
  | succ k ih =>
    simp only [leBytes, leVal, ih]
    rw [pow_succ', Nat.mod_mul]

@[simp] theorem encInt_length (k : Nat) (i : ℤ) : (encInt k i).length = k := leBytes_length _ _

theorem signedVal_encInt {k : Nat} {i : ℤ} (h : Fits k i) : signedVal (encInt k i) = i := by
  obtain ⟨h1, h2⟩ := h
  have hp : (0 : ℤ) < (256 : ℤ) ^ k := by positivity
  have hv : leVal (encInt k i) = (i % (256 : ℤ) ^ k).toNat := by
    rw [encInt, leVal_leBytes]
    apply Nat.mod_eq_of_lt
    have h3 := Int.emod_lt_of_pos i hp
    have h4 := Int.emod_nonneg i (ne_of_gt hp)
    zify
    rw [Int.toNat_of_nonneg h4]
    exact h3
  have hc : ((leVal (encInt k i) : ℕ) : ℤ) = i % (256 : ℤ) ^ k := by
    rw [hv, Int.toNat_of_nonneg (Int.emod_nonneg i (ne_of_gt hp))]
  unfold signedVal
  rw [encInt_length]
  rcases le_or_gt 0 i with hi | hi
  · have e : i % (256 : ℤ) ^ k = i := Int.emod_eq_of_lt hi (by omega)
    rw [e] at hc
    rw [if_pos (by zify; omega)]
    exact hc
  · have e : i % (256 : ℤ) ^ k = i + (256 : ℤ) ^ k := by
      rw [← Int.add_emod_right]
      exact Int.emod_eq_of_lt (by omega) (by omega)
    rw [e] at hc
    rw [if_neg (by zify; omega), hc]
    ring

theorem readInt32_encInt {i : ℤ} (h : Fits 4 i) (rest : List Byte) :
    readInt32 (encInt 4 i ++ rest) = .ok (i, rest) := by
  unfold readInt32
  rw [if_neg (by simp)]
  have e1 : (encInt 4 i ++ rest).take 4 = encInt 4 i := List.take_left' (encInt_length _ _)
  have e2 : (encInt 4 i ++ rest).drop 4 = rest := List.drop_left' (encInt_length _ _)
  rw [e1, e2, signedVal_encInt h]

/-- a record is read back, whatever follows it -/
theorem readRecord_record {d : List Byte} (h : Fits 4 d.length) (rest : List Byte) :
    readRecord (record d ++ rest) = .ok (d, rest) := by
  unfold readRecord record
  rw [List.append_assoc, List.append_assoc, readInt32_encInt h]
  simp only
  rw [if_neg (by omega), Int.toNat_natCast, List.drop_left, readInt32_encInt h, List.take_left]
  simp

/-- a record whose two lengths differ is refused -/
theorem readRecord_refuses {d : List Byte} {n : ℤ} (h : Fits 4 d.length) (hn : Fits 4 n)
    (hne : n ≠ d.length) (rest : List Byte) :
    readRecord (encInt 4 d.length ++ d ++ encInt 4 n ++ rest) = .error .valueError := by
  unfold readRecord
  rw [List.append_assoc, List.append_assoc, readInt32_encInt h]
  simp only
  rw [if_neg (by omega), Int.toNat_natCast, List.drop_left, readInt32_encInt hn]
  simp only
  rw [if_pos (fun e => hne e.symm)]

theorem getInt_at (k : Nat) {i : ℤ} (h : Fits k i) (pre post : List Byte) :
    getInt k (pre ++ (encInt k i ++ post)) pre.length = .ok i := by
  unfold getInt
  rw [if_neg (by simp), List.drop_left, List.take_left' (encInt_length _ _), signedVal_encInt h]

theorem getInt_at' {k off : Nat} {i : ℤ} (h : Fits k i) {data pre post : List Byte}
    (hd : data = pre ++ (encInt k i ++ post)) (ho : pre.length = off) :
    getInt k data off = .ok i := by
  subst hd; subst ho; exact getInt_at k h pre post

theorem groups_length {α : Type} (k n : Nat) (l : List α) : (groups k n l).length = n := by
  induction n generalizing l with
  | zero => rfl
  | succ n ih => simp [groups, ih]

theorem groups_get {α : Type} (k n : Nat) (l : List α) (i : Nat) (h : i < n) :
    (groups k n l)[i]? = some ((l.drop (k * i)).take k) := by
  induction n generalizing l i with
  | zero => omega
  | succ n ih =>
    cases i with
    | zero => simp [groups]
    | succ i =>
      simp only [groups, List.getElem?_cons_succ]
      rw [ih (l.drop k) i (by omega), List.drop_drop]
      congr 3
      ring

/-- grouping lists of equal length after flattening them -/
theorem groups_flatten {α : Type} (k : Nat) (ls : List (List α)) (h : ∀ l ∈ ls, l.length = k) :
    groups k ls.length ls.flatten = ls := by
  induction ls with
  | nil => rfl
  | cons l ls ih =>
    have hl := h l (by simp)
    simp only [List.length_cons, groups, List.flatten_cons]
    rw [List.take_left' hl, List.drop_left' hl, ih (fun m hm => h m (List.mem_cons_of_mem _ hm))]

theorem flatten_length {α : Type} (k : Nat) (ls : List (List α)) (h : ∀ l ∈ ls, l.length = k) :
    ls.flatten.length = ls.length * k := by
  induction ls with
  | nil => simp
  | cons l ls ih =>
    rw [List.flatten_cons, List.length_append, ih (fun m hm => h m (List.mem_cons_of_mem _ hm)),
      h l (by simp), List.length_cons]
    ring

theorem getInts_at {ps : List ℤ} (h : ∀ p ∈ ps, Fits 4 p) {data pre : List Byte} {off : Nat}
    (hd : data = pre ++ (ps.map (encInt 4)).flatten) (ho : pre.length = off) :
    getInts data off = .ok ps := by
  subst hd; subst ho
  have hl : ∀ l ∈ ps.map (encInt 4), l.length = 4 := by
    intro l hl
    obtain ⟨p, -, rfl⟩ := List.mem_map.mp hl
    simp
  have hlen := flatten_length 4 _ hl
  rw [List.length_map] at hlen
  unfold getInts
  rw [if_neg (by simp only [List.length_append, hlen]; omega), List.drop_left]
  have e : ((pre ++ (ps.map (encInt 4)).flatten).length - pre.length) / 4
      = (ps.map (encInt 4)).length := by
    rw [List.length_append, hlen, List.length_map]; omega
  rw [e, groups_flatten 4 _ hl, List.map_map]
  congr 1
  conv_rhs => rw [← List.map_id ps]
  apply List.map_congr_left
  intro p hp
  exact signedVal_encInt (h p hp)

theorem readSurface_bytes (kjaq : ℤ) {s : Surface} (h : s.Ok) :
    readSurface kjaq (surfaceBytes s) = .ok (s.seen kjaq) := by
  obtain ⟨h1, h2, h3, h4, h5, -⟩ := h
  have e1 : getInt 4 (surfaceBytes s) 0 = .ok s.id :=
    getInt_at' h1 (pre := []) (by simp only [surfaceBytes, List.append_assoc]; rfl) rfl
  have e2 : getInt 4 (surfaceBytes s) 4 = .ok s.info :=
    getInt_at' h2 (pre := encInt 4 s.id) (by simp only [surfaceBytes, List.append_assoc]; rfl)
      (by simp)
  have e3 : getInt 4 (surfaceBytes s) 8 = .ok s.type :=
    getInt_at' h3 (pre := encInt 4 s.id ++ encInt 4 s.info)
      (by simp only [surfaceBytes, List.append_assoc]; rfl) (by simp)
  have e4 : getInt 4 (surfaceBytes s) 12 = .ok s.numParams :=
    getInt_at' h4 (pre := encInt 4 s.id ++ encInt 4 s.info ++ encInt 4 s.type)
      (by simp only [surfaceBytes, List.append_assoc]; rfl) (by simp)
  have e5 : getInts (surfaceBytes s) 16 = .ok s.params :=
    getInts_at h5 (pre := encInt 4 s.id ++ encInt 4 s.info ++ encInt 4 s.type ++ encInt 4 s.numParams)
      (by simp only [surfaceBytes, List.append_assoc]) (by simp)
  unfold readSurface
  simp only [e1, e2, e3, e4, e5, bind, Except.bind, pure, Except.pure]
  by_cases hk : kjaq = 1 <;> simp [hk, Surface.seen]

theorem readSurfaces_bytes (kjaq : ℤ) (ss : List Surface) (h : ∀ s ∈ ss, s.Ok) (rest : List Byte) :
    readSurfaces kjaq ss.length ((ss.map (fun s => record (surfaceBytes s))).flatten ++ rest) =
      .ok (ss.map (Surface.seen kjaq), rest) := by
  induction ss with
  | nil => rfl
  | cons s ss ih =>
    have hs := h s (by simp)
    simp only [List.length_cons, readSurfaces, List.map_cons, List.flatten_cons, List.append_assoc]
    rw [readRecord_record hs.2.2.2.2.2]
    simp only [bind, Except.bind]
    rw [readSurface_bytes kjaq hs]
    simp only
    rw [ih (fun t ht => h t (List.mem_cons_of_mem _ ht))]
    rfl

theorem contains_of_infix {sub l : List Byte} (h : sub <:+: l) : contains sub l = true := by
  induction l with
  | nil => simp at h; subst h; rfl
  | cons b bs ih =>
    simp only [contains, Bool.or_eq_true]
    rcases List.infix_cons_iff.mp h with h | h
    · exact Or.inl (List.isPrefixOf_iff_prefix.mpr h)
    · exact Or.inr (ih h)

theorem contains_infix {sub l : List Byte} (h : contains sub l = true) : sub <:+: l := by
  induction l with
  | nil => simp only [contains, List.isEmpty_iff] at h; subst h; exact List.nil_infix
  | cons b bs ih =>
    simp only [contains, Bool.or_eq_true] at h
    rcases h with h | h
    · exact (List.isPrefixOf_iff_prefix.mp h).isInfix
    · exact List.infix_cons (ih h)

/-! ### tracks -/

theorem drop_take_flatten {α : Type} (k : Nat) (ls : List (List α)) (h : ∀ l ∈ ls, l.length = k)
    (i r m : Nat) (hr : r + m ≤ k) (l : List α) (hl : ls[i]? = some l) :
    (ls.flatten.drop (k * i + r)).take m = (l.drop r).take m := by
  induction ls generalizing i with
  | nil => simp at hl
  | cons a ls ih =>
    have ha := h a (by simp)
    cases i with
    | zero =>
      simp at hl; subst hl
      rw [List.flatten_cons, Nat.mul_zero, Nat.zero_add, List.drop_append_of_le_length (by omega),
        List.take_append_of_le_length (by simp; omega)]
    | succ i =>
      simp at hl
      rw [List.flatten_cons, List.drop_append]
      have e1 : k * (i + 1) + r - a.length = k * i + r := by rw [ha, Nat.mul_succ]; omega
      have e2 : a.drop (k * (i + 1) + r) = [] := by
        apply List.drop_eq_nil_of_le; rw [ha, Nat.mul_succ]; omega
      rw [e1, e2, List.nil_append]
      exact ih (fun m hm => h m (List.mem_cons_of_mem _ hm)) i hl

/-- **C34 (tracks).** The track section is accepted exactly when it is a whole number of 96-byte
records, and then there is one row per record, of eleven numbers, the `j`-th of which is decoded from
the eight bytes at offset `4 + 8 j` of the record. -/
theorem tracks_exact (f64 : List Byte → ℚ) (file : List Byte) (rows : List (List ℚ)) :
    readTracks f64 file = .ok rows ↔
      (file.length = 96 * rows.length ∧
       ∀ i, i < rows.length → ∃ row, rows[i]? = some row ∧ row.length = 11 ∧
         ∀ j, j < 11 → row[j]? = some (f64 ((file.drop (96 * i + 4 + 8 * j)).take 8))) := by
  have main : file.length % 96 = 0 → ∃ rows, readTracks f64 file = .ok rows ∧
      file.length = 96 * rows.length ∧
       ∀ i, i < rows.length → ∃ row, rows[i]? = some row ∧ row.length = 11 ∧
         ∀ j, j < 11 → row[j]? = some (f64 ((file.drop (96 * i + 4 + 8 * j)).take 8)) := by
    intro h0
    have hlen : file.length = 96 * (file.length / 96) := by omega
    generalize hn : file.length / 96 = n at hlen
    have hrec : ∀ i, i < n → ((file.drop (96 * i)).take 96).length = 96 := by
      intro i hi; rw [List.length_take, List.length_drop]; omega
    let recs := (groups 96 n file).map (fun r => (r.take 92).drop 4)
    have hrecs : ∀ l ∈ recs, l.length = 88 := by
      intro l hl
      obtain ⟨r, hr, rfl⟩ := List.mem_map.mp hl
      obtain ⟨i, hi⟩ := List.mem_iff_getElem?.mp hr
      have hin : i < n := by
        have := (List.getElem?_eq_some_iff.mp hi).1
        rwa [groups_length] at this
      rw [groups_get _ _ _ _ hin] at hi
      have e : r = (file.drop (96 * i)).take 96 := by simpa using hi.symm
      have hl := hrec i hin
      rw [← e] at hl
      rw [List.length_drop, List.length_take]; omega
    have hget : ∀ i, i < n →
        recs[i]? = some ((((file.drop (96 * i)).take 96).take 92).drop 4) := by
      intro i hi
      simp only [recs, List.getElem?_map, groups_get _ _ _ _ hi, Option.map_some]
    refine ⟨groups 11 n ((groups 8 (11 * n) recs.flatten).map f64), ?_, ?_, ?_⟩
    · unfold readTracks
      rw [if_neg (by omega), hn]
    · rw [groups_length]; exact hlen
    · intro i hi
      rw [groups_length] at hi
      refine ⟨_, groups_get _ _ _ _ hi, ?_, ?_⟩
      · rw [List.length_take, List.length_drop, List.length_map, groups_length]; omega
      · intro j hj
        rw [List.getElem?_take_of_lt hj, List.getElem?_drop, List.getElem?_map,
          groups_get _ _ _ _ (by omega), Option.map_some]
        congr 2
        have e : 8 * (11 * i + j) = 88 * i + 8 * j := by ring
        rw [e, drop_take_flatten 88 recs hrecs i (8 * j) 8 (by omega) _ (hget i hi)]
        rw [List.take_take, List.drop_drop, List.drop_take, List.take_take, List.drop_drop]
        have e2 : min 8 (min 92 96 - (4 + 8 * j)) = 8 := by omega
        rw [e2]
        congr 2
        ring
  constructor
  · intro h
    have h0 : file.length % 96 = 0 := by
      by_contra hc
      unfold readTracks at h
      rw [if_pos hc] at h
      cases h
    obtain ⟨rows', e, r⟩ := main h0
    rw [h] at e
    cases e
    exact r
  · rintro ⟨h1, h2⟩
    obtain ⟨rows', e, e1, e2⟩ := main (by omega)
    have hl : rows.length = rows'.length := by omega
    have : rows = rows' := by
      apply List.ext_getElem? 
      intro i
      by_cases hi : i < rows.length
      · obtain ⟨r, a1, a2, a3⟩ := h2 i hi
        obtain ⟨r', b1, b2, b3⟩ := e2 i (by omega)
        rw [a1, b1]
        congr 1
        apply List.ext_getElem?
        intro j
        by_cases hj : j < 11
        · rw [a3 j hj, b3 j hj]
        · rw [List.getElem?_eq_none (by omega), List.getElem?_eq_none (by omega)]
      · rw [List.getElem?_eq_none (by omega), List.getElem?_eq_none (by omega)]
    rw [this, e]

/-- a track section that is not a whole number of records is refused -/
theorem tracks_refused (f64 : List Byte → ℚ) (file : List Byte) (h : ¬ 96 ∣ file.length) :
    readTracks f64 file = .error .valueError := by
  unfold readTracks
  rw [if_pos (by omega)]

theorem readTracks_records (f64 : List Byte → ℚ) (ts : List (List (List Byte)))
    (h : ∀ t ∈ ts, t.length = 11 ∧ ∀ w ∈ t, w.length = 8) :
    readTracks f64 (ts.map (fun t => record t.flatten)).flatten = .ok (ts.map (fun t => t.map f64)) := by
  have h88 : ∀ t ∈ ts, t.flatten.length = 88 := by
    intro t ht
    rw [flatten_length 8 t (h t ht).2, (h t ht).1]
  have hl : ∀ l ∈ ts.map (fun t => record t.flatten), l.length = 96 := by
    intro l hl
    obtain ⟨t, ht, rfl⟩ := List.mem_map.mp hl
    simp only [record, List.length_append, encInt_length, h88 t ht]
  have hlen := flatten_length 96 _ hl
  rw [List.length_map] at hlen
  rw [tracks_exact]
  refine ⟨by rw [hlen, List.length_map]; ring, ?_⟩
  intro i hi
  rw [List.length_map] at hi
  have ht : ts[i]? = some ts[i] := List.getElem?_eq_getElem hi
  have hm : ts[i] ∈ ts := List.getElem_mem hi
  refine ⟨ts[i].map f64, by rw [List.getElem?_map, ht]; rfl, by rw [List.length_map]; exact (h _ hm).1, ?_⟩
  intro j hj
  have hj' : j < ts[i].length := by rw [(h _ hm).1]; exact hj
  rw [List.getElem?_map, List.getElem?_eq_getElem hj', Option.map_some]
  congr 2
  rw [show 96 * i + 4 + 8 * j = 96 * i + (4 + 8 * j) by ring,
    drop_take_flatten 96 _ hl i (4 + 8 * j) 8 (by omega) (record ts[i].flatten)
      (by rw [List.getElem?_map, ht]; rfl)]
  have e : (record ts[i].flatten).drop (4 + 8 * j) = (ts[i].flatten ++ encInt 4 ts[i].flatten.length).drop (8 * j) := by
    rw [← List.drop_drop, record, List.append_assoc, List.drop_left' (encInt_length _ _)]
  rw [e, List.drop_append_of_le_length (by rw [h88 _ hm]; omega),
    List.take_append_of_le_length (by rw [List.length_drop, h88 _ hm]; omega)]
  have := drop_take_flatten 8 ts[i] (h _ hm).2 j 0 8 (by omega) ts[i][j] (List.getElem?_eq_getElem hj')
  rw [Nat.add_zero] at this
  rw [this, List.drop_zero, List.take_of_length_le]
  rw [(h _ hm).2 _ (List.getElem_mem hj')]

/-- **C34 (whole file).** Reading any supported RSSA file gives its parameters, its surfaces in order
and one row per track with the eleven numbers of the track. -/
theorem read_file (utf8 : List Byte → Bool) (f64 : List Byte → ℚ) (c : Contents) (h : c.Ok utf8) :
    readRssa utf8 f64 c.bytes =
      .ok ({ c.p with surfaces := c.p.surfaces.map (Surface.seen c.p.kjaq) },
        c.tracks.map (fun t => t.map f64)) := by
  have hh : readHeader utf8 c.bytes =
      .ok ({ c.p with surfaces := c.p.surfaces.map (Surface.seen c.p.kjaq) },
        (c.tracks.map (fun t => record t.flatten)).flatten) := by
    unfold readHeader Contents.bytes
    rw [readRecord_record h.title_len]
    simp only [bind, Except.bind, h.title_utf8, not_true, if_false,
      contains_of_infix h.title_code, pure, Except.pure]
    rw [readRecord_record (by simp [Fits])]
    simp only
    have f11 : Fits 4 c.p.nrcd := by rw [h.nrcd]; constructor <;> norm_num
    rw [getInt_at' (off := 0) h.np1.1 (pre := []) (by simp only [List.append_assoc]; rfl) rfl]
    simp only
    rw [getInt_at' h.nrss (pre := encInt 8 c.p.np1) (by simp only [List.append_assoc]; rfl) (by simp)]
    simp only
    rw [getInt_at' f11 (pre := encInt 8 c.p.np1 ++ encInt 8 c.p.nrss)
      (by simp only [List.append_assoc]; rfl) (by simp)]
    simp only
    rw [getInt_at' h.njsw.1 (pre := encInt 8 c.p.np1 ++ encInt 8 c.p.nrss ++ encInt 4 c.p.nrcd)
      (by simp only [List.append_assoc]; rfl) (by simp)]
    simp only
    rw [getInt_at' h.niss (pre := encInt 8 c.p.np1 ++ encInt 8 c.p.nrss ++ encInt 4 c.p.nrcd ++
        encInt 4 c.p.njsw) (post := []) (by simp only [List.append_assoc, List.append_nil]) (by simp)]
    simp only
    rw [if_neg (by rw [h.nrcd]; simp), if_neg (by simp [h.np1.2])]
    rw [readRecord_record (by simp [Fits])]
    simp only
    have f0 : Fits 4 c.p.niwr := by rw [h.niwr]; constructor <;> norm_num
    rw [getInt_at' (off := 0) f0 (pre := []) (by simp only [List.append_assoc]; rfl) rfl]
    simp only
    rw [getInt_at' h.mipts (pre := encInt 4 c.p.niwr) (by simp only [List.append_assoc]; rfl) (by simp)]
    simp only
    rw [getInt_at' h.kjaq (pre := encInt 4 c.p.niwr ++ encInt 4 c.p.mipts) (post := [])
      (by simp only [List.append_assoc, List.append_nil]) (by simp)]
    simp only
    rw [h.njsw.2, Int.toNat_natCast, readSurfaces_bytes _ _ h.surfaces]
    simp only
    rw [if_neg (by rw [h.niwr]; decide)]
    rw [readRecord_record h.summary_len]
  unfold readRssa
  rw [hh]
  simp only [bind, Except.bind]
  rw [readTracks_records f64 _ h.tracks]
  rfl

end F4Enix.Rssa
