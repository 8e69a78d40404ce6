import Verif.Base.Fortran
import Verif.Out.MctalRead
import Verif.Out.MeshFileMore
import Verif.Out.MeshFileEx
import Verif.Out.EeoutLemmas
import Verif.Out.OutpTables
import Mathlib.Tactic.IntervalCases
/-!
# Results of MCNP with exponents of three digits (C193)

What the readers make of a number that Fortran writes without the letter `E`: the reader of MCTAL files stores zero with error zero,
the reader of mesh tallies refuses the tally, the reader of eeout files leaves the number out.
-/
namespace F4Enix.Mctal
open F4Enix

/-- `float(w)` for words that are no `nan` (Python) -/
def pyFloat : ParseNum := fun w => (parseFloat w).map some

/-- a word that begins with none of the characters of a number is no number -/
theorem parseFloat_letter {c : Char} {cs : Str} (hw : IsWord (c :: cs)) (hd : isDigit c = false) (h1 : c ≠ '-') (h2 : c ≠ '+') (h3 : c ≠ '.') :
    parseFloat (c :: cs) = none := by
  unfold parseFloat
  rw [strip_isWord hw.2]
  simp only [h1, h2, if_false]
  unfold parseUnsigned
  simp only [List.takeWhile_cons, hd, List.dropWhile_cons, Bool.false_eq_true, if_false]
  split
  · rename_i x y hxy
    exact absurd (List.cons.inj hxy).1 h3
  · simp

/-- the word `vals` is no number, in capitals or not -/
theorem pyFloat_noVals : NoVals pyFloat := by
  intro w h
  have hw := lower_vals_word h
  cases w with
  | nil => exact absurd rfl hw.1
  | cons a t =>
    have ha : a.toLower = 'v' := by
      have := congrArg (fun l : List Char => l.head?) h
      rw [List.map_cons, List.head?_cons] at this
      have e : ("vals".toList).head? = some 'v' := by decide
      rw [e] at this
      exact Option.some.inj this
    have hne : ∀ c : Char, c.toLower ≠ 'v' → a ≠ c := by rintro c hc rfl; exact hc ha
    have hd : isDigit a = false := by
      by_contra hc
      have hc : isDigit a = true := by simpa using hc
      simp only [isDigit, Bool.and_eq_true, decide_eq_true_eq] at hc
      have hk : ∀ k : Nat, 48 ≤ k → k ≤ 57 → (Char.ofNat k).toLower ≠ 'v' := by
        intro k h1 h2
        interval_cases k <;> decide
      have := hk a.toNat hc.1 hc.2
      rw [Char.ofNat_toNat] at this
      exact this ha
    unfold pyFloat
    rw [parseFloat_letter hw hd (hne _ (by decide)) (hne _ (by decide)) (hne _ (by decide))]
    rfl

/-- the words of `n` pairs of values and errors (specification) -/
def printed (d : ℕ) (val : ℕ → ℚ) (err : ℕ → Str) (n : ℕ) : List Str :=
  (List.range n).flatMap (fun p => [fmtFortran d (val p), err p])

theorem printed_length (d : ℕ) (val : ℕ → ℚ) (err : ℕ → Str) (n : ℕ) : (printed d val err n).length = 2 * n := by
  induction n with
  | zero => rfl
  | succ n ih =>
    unfold printed at *
    rw [List.range_succ, List.flatMap_append, List.length_append, ih]
    simp; omega

theorem printed_get (d : ℕ) (val : ℕ → ℚ) (err : ℕ → Str) {n p : ℕ} (h : p < n) :
    (printed d val err n).getD (2 * p) [] = fmtFortran d (val p) ∧ (printed d val err n).getD (2 * p + 1) [] = err p := by
  induction n with
  | zero => omega
  | succ n ih =>
    have hl := printed_length d val err n
    have e : printed d val err (n + 1) = printed d val err n ++ [fmtFortran d (val n), err n] := by
      unfold printed
      rw [List.range_succ, List.flatMap_append]; simp
    rw [e]
    rcases Nat.lt_succ_iff_lt_or_eq.mp h with hp | rfl
    · obtain ⟨h1, h2⟩ := ih hp
      simp only [List.getD_eq_getElem?_getD] at h1 h2 ⊢
      rw [List.getElem?_append_left (by omega), List.getElem?_append_left (by omega)]
      exact ⟨h1, h2⟩
    · simp only [List.getD_eq_getElem?_getD]
      rw [List.getElem?_append_right (by omega), List.getElem?_append_right (by omega), hl]
      simp

/-- **C193 (MCTAL).** The values of a tally are read as they are written if their exponents have two digits; a value with an exponent of
three digits, however large, is read as zero with the error zero, without a warning. -/
theorem values_printed {d : ℕ} {val : ℕ → ℚ} {err : ℕ → Str} {er : ℕ → ℚ} (he : ∀ p, parseFloat (err p) = some (er p))
    (empty : List Nat → Num × Num) (shape : List Nat) (ls rest : List Str) (hg : ∀ l ∈ ls, ValueLine l)
    (hs : stream ls = printed d val err (binOrder shape).length) :
    ∃ v, readValues pyFloat empty shape (ls ++ rest) = .ok (v, lastLine ls [], rest) ∧
      ∀ idx, IsBin shape idx →
        (TwoDigits d (val (position shape idx)) → v idx = (some (roundSig d (val (position shape idx))), some (er (position shape idx)))) ∧
        (¬ TwoDigits d (val (position shape idx)) → v idx = (some 0, some 0)) := by
  obtain ⟨v, h1, h2⟩ := values_exact pyFloat empty shape ls rest hg (by rw [hs, printed_length])
  refine ⟨v, h1, fun idx hi => ?_⟩
  have hlt : position shape idx < (binOrder shape).length := by
    obtain ⟨nC, nD, nU, nS, nM, nA, nE, nT, nI, nJ, nK, c, d', u, s, m, a, e, t, i, j, k, rfl, rfl,
      b1, b2, b3, b4, b5, b6, b7, b8, b9, b10, b11⟩ := forall₂_11 hi
    have := binOrder_get b1 b2 b3 b4 b5 b6 b7 b8 b9 b10 b11
    exact (List.getElem?_eq_some_iff.mp this).1
  obtain ⟨g1, g2⟩ := printed_get d val err hlt
  have h3 := h2 idx hi
  rw [pairNo, hs, g1, g2, pairOf] at h3
  constructor
  · intro ht
    rw [h3]
    simp only [pyFloat, fortran_read ht, he, Option.map_some]
  · intro ht
    rw [h3]
    simp only [pyFloat, fortran_refused ht, Option.map_none]

/-- **C193 (MCTAL, false).** No value with an exponent of three digits is read as what is written. -/
theorem long_value_lost {d : ℕ} {q : ℚ} (h : ¬ TwoDigits d q) : (some (roundSig d q) : Num) ≠ some 0 := by
  have hq : q ≠ 0 := fun h0 => h (.inl h0)
  simpa using (roundSig_sign d hq).2

/-- two values, one of them 1e+105 (example) -/
def twoValues : ℕ → ℚ := fun p => if p = 0 then 5 / 4 else 10 ^ 105

example : (∀ l ∈ [" 1.25000E+00 0.0100 1.00000+105 0.0100\n".toList], ValueLine l) ∧
    stream [" 1.25000E+00 0.0100 1.00000+105 0.0100\n".toList] =
      printed 5 twoValues (fun _ => "0.0100".toList) (binOrder [1, 1, 1, 1, 1, 1, 2, 1, 1, 1, 1]).length ∧
    parseFloat "0.0100".toList = some (1 / 100) ∧ TwoDigits 5 (twoValues 0) ∧ ¬ TwoDigits 5 (twoValues 1) := by
  refine ⟨by decide +kernel, by decide +kernel, by decide +kernel, ?_, ?_⟩ <;> rw [twoDigits_iff] <;> decide +kernel

end F4Enix.Mctal

namespace F4Enix.Mesh
open F4Enix

/-- the last two words of a line (specification) -/
def LastTwo (l a b : Str) : Prop := ∃ ws, tokens l = ws ++ [a, b]

theorem columnLine_last (num : ParseNum) {l a b : Str} (h : LastTwo l a b) (hn : num a = none ∨ num b = none) :
    columnLine num l = .error .valueError := by
  obtain ⟨ws, hw⟩ := h
  have e2 : fromEnd (tokens l) 2 = .ok a := by unfold fromEnd; rw [hw]; simp
  have e1 : fromEnd (tokens l) 1 = .ok b := by unfold fromEnd; rw [hw]; simp
  unfold columnLine
  simp only [e2, e1, toNum]
  rcases hn with hn | hn
  · simp only [hn]
  · cases ha : num a with
    | none => rfl
    | some x => simp only [hn]

theorem columnLoop_refused {num : ParseNum} {is : List (List Nat)} {ls : List Str} {d : Data} {f g : ℕ → Str}
    (h : ∀ p, p < is.length → LastTwo (ls.getD p []) (f p) (g p)) (hx : ∃ p, p < is.length ∧ (num (f p) = none ∨ num (g p) = none)) :
    columnLoop num is ls d = .error .valueError := by
  induction is generalizing ls d f g with
  | nil => obtain ⟨p, hp, _⟩ := hx; simp at hp
  | cons i is ih =>
    have h0 : LastTwo (ls.headD []) (f 0) (g 0) := by have := h 0 (by simp); cases ls <;> simpa using this
    unfold columnLoop
    by_cases hb : num (f 0) = none ∨ num (g 0) = none
    · rw [columnLine_last num h0 hb]
    · cases hc : columnLine num (ls.headD []) with
      | error e =>
        exfalso
        have : columnLine num (ls.headD []) = .ok (((num (f 0)).getD 0), ((num (g 0)).getD 0)) := by
          rw [columnLine_iff]
          obtain ⟨ws, hw⟩ := h0
          push Not at hb
          obtain ⟨x, hx⟩ := Option.ne_none_iff_exists'.mp hb.1
          obtain ⟨y, hy⟩ := Option.ne_none_iff_exists'.mp hb.2
          exact ⟨ws, f 0, g 0, hw, by simp [hx], by simp [hy]⟩
        rw [hc] at this; cases this
      | ok v =>
        simp only
        refine ih (f := fun p => f (p + 1)) (g := fun p => g (p + 1)) (fun p hp => ?_) ?_
        · have := h (p + 1) (by simpa using hp)
          cases ls <;> simpa using this
        · obtain ⟨p, hp, hv⟩ := hx
          cases p with
          | zero => exact absurd hv hb
          | succ p => exact ⟨p, by simpa using hp, hv⟩

/-- values and errors of a column file, one line for each: the last two words are the numbers as Fortran writes them (specification) -/
def ColumnPrinted (d d' n : ℕ) (val err : ℕ → ℚ) (ls : List Str) : Prop :=
  ls.length = n ∧ ∀ p, p < n → LastTwo (ls.getD p []) (fmtFortran d (val p)) (fmtFortran d' (err p))

theorem column_refused {d d' : ℕ} {val err : ℕ → ℚ} {ls : List Str} (junk : Data) {nt ne nx3 nx2 nx1 : ℕ}
    (h : ColumnPrinted d d' (ne * nt * nx1 * nx2 * nx3) val err ls)
    (hx : ∃ p, p < ne * nt * nx1 * nx2 * nx3 ∧ (¬ TwoDigits d (val p) ∨ ¬ TwoDigits d' (err p))) (title : Str) (rest : List Str) :
    readColumn parseFloat junk nt ne nx3 nx2 nx1 (title :: (ls ++ rest)) = .error .valueError := by
  have el : (loops [ne, nt, nx1, nx2, nx3]).length = ne * nt * nx1 * nx2 * nx3 := by
    rw [loops_length]; simp only [List.foldr_cons, List.foldr_nil]; ring
  unfold readColumn
  rw [List.tail_cons, columnLoop_refused (f := fun p => fmtFortran d (val p)) (g := fun p => fmtFortran d' (err p))]
  · intro p hp
    rw [el] at hp
    have := h.2 p hp
    simp only [List.getD_eq_getElem?_getD] at this ⊢
    rw [List.getElem?_append_left (by rw [h.1]; exact hp)]
    exact this
  · obtain ⟨p, hp, hv⟩ := hx
    refine ⟨p, by rw [el]; exact hp, ?_⟩
    rcases hv with hv | hv
    · exact .inl (fortran_refused hv)
    · exact .inr (fortran_refused hv)

end F4Enix.Mesh

namespace F4Enix.MeshFile
open F4Enix F4Enix.Mesh

/-- the data of a tally in the column format, as Fortran writes them: a title with the word `Result`, then one line for each bin (specification) -/
def DataPrinted (d d' : ℕ) (b : Bounds) (val err : ℕ → ℚ) (data : List Str) : Prop :=
  ∃ title ls, data = title :: ls ∧ "Result".toList <:+: title ∧ ColumnPrinted d d' (b.ne * b.nt * b.n1 * b.n2 * b.n3) val err ls

/-- **C193 (mesh tallies).** If all numbers have exponents of two digits, the tally is read with the numbers that are written. -/
theorem mesh_printed_partial {d d' : ℕ} {b : Bounds} {val err : ℕ → ℚ} {data : List Str} (h : DataPrinted d d' b val err data)
    (hx : ∀ p, p < b.ne * b.nt * b.n1 * b.n2 * b.n3 → TwoDigits d (val p) ∧ TwoDigits d' (err p)) :
    ShowsValues parseFloat b (fun t e k3 k2 k1 =>
      (roundSig d (val (columnPos b.nt b.n3 b.n2 b.n1 t e k3 k2 k1)), roundSig d' (err (columnPos b.nt b.n3 b.n2 b.n1 t e k3 k2 k1)))) data := by
  obtain ⟨title, ls, rfl, ht, hc⟩ := h
  refine .column ht hc.1 (fun t e k3 k2 k1 h1 h2 h3 h4 h5 => ?_)
  have hp : columnPos b.nt b.n3 b.n2 b.n1 t e k3 k2 k1 < b.ne * b.nt * b.n1 * b.n2 * b.n3 := by
    have hi : InLoops [b.ne, b.nt, b.n1, b.n2, b.n3] [e, t, k1, k2, k3] :=
      .cons h2 (.cons h1 (.cons h5 (.cons h4 (.cons h3 .nil))))
    have := rank_lt hi
    rw [rank_column] at this
    have el : [b.ne, b.nt, b.n1, b.n2, b.n3].foldr (· * ·) 1 = b.ne * b.nt * b.n1 * b.n2 * b.n3 := by
      simp only [List.foldr_cons, List.foldr_nil]; ring
    rw [← el]; exact this
  obtain ⟨ws, hw⟩ := hc.2 _ hp
  exact ⟨ws, _, _, hw, fortran_read (hx _ hp).1, fortran_read (hx _ hp).2⟩

/-- **C193 (mesh tallies, false).** A single number with an exponent of three digits refuses the tally: no mesh is returned, and the meshes read
before are kept. -/
theorem mesh_refused (cs sn : ℚ → ℚ) (junk : Data) {pre post : List (Nat × TallyText)} {n : Nat} {t : TallyText} {file : List Str}
    (h : IsFile (pre ++ (n, t) :: post) file) (hn : ∀ x ∈ post, x.1 ≠ n) {b : Bounds} (hb : ShowsBounds parseFloat b t.bins) (hu : Usable b)
    {d d' : ℕ} {val err : ℕ → ℚ} (hd : DataPrinted d d' b val err t.data)
    (hx : ∃ p, p < b.ne * b.nt * b.n1 * b.n2 * b.n3 ∧ (¬ TwoDigits d (val p) ∨ ¬ TwoDigits d' (err p))) :
    ∃ c, scan .outside file [] = .ok c ∧ getFMesh cs sn parseFloat junk c (natStr n) = .error .valueError ∧
      ∀ (names : List Str) (old : Dict ℤ Tally), n ≠ 0 →
        afterRead (getFMesh cs sn parseFloat junk c) names old (.one n) = (old, some .valueError) := by
  have ht : IsTally n t := h.tallies (n, t) (by simp)
  obtain ⟨r0, hr, _⟩ := boundaries_of hb ht.gap2 (t.data ++ allLines post)
  have key : getFMesh cs sn parseFloat junk (catalog (pre ++ (n, t) :: post) []) (natStr n) = .error .valueError := by
    unfold getFMesh
    rw [catalog_get [] hn]
    simp only [placesOf, List.tail_cons]
    have e : t.fromBins ++ allLines post = t.bins ++ t.gap2 :: (t.data ++ allLines post) := by simp [TallyText.fromBins]
    rw [e, hr]
    simp only
    obtain ⟨title, ls, hd1, ht1, hc⟩ := hd
    unfold meshValues
    rw [hd1, List.cons_append, meshType_col ht1]
    simp only [hu.nonempty]
    simp only [Bool.false_eq_true, if_false]
    rw [column_refused junk hc hx title (allLines post)]
  refine ⟨_, scan_file h, key, fun names old h0 => ?_⟩
  exact (read_refused names (as := []) (n := (n : ℤ)) (bs := []) (by simp) key old).2 (by exact_mod_cast h0)

/-- tally 4 with a very small value (example) -/
def tallyTiny : TallyText :=
  { tally4 with data := fileOf ["   X  Y  Z  Result  Rel Error", " 0 2 1  7.00000E+00 1.0E-01", " 1 2 1  8.00000-101 2.0E-01"] }

/-- its values (example) -/
def tinyVal : ℕ → ℚ := fun p => if p = 0 then 7 else 8 / 10 ^ 101

/-- its errors (example) -/
def tinyErr : ℕ → ℚ := fun p => if p = 0 then 1 / 10 else 1 / 5

theorem tiny_printed : DataPrinted 5 1 theBounds tinyVal tinyErr tallyTiny.data := by
  refine ⟨_, _, rfl, by decide +kernel, by decide, ?_⟩
  intro p hp
  have hp : p < 2 := hp
  rcases (show p = 0 ∨ p = 1 by omega) with rfl | rfl
  · exact ⟨["0".toList, "2".toList, "1".toList], by decide +kernel⟩
  · exact ⟨["1".toList, "2".toList, "1".toList], by decide +kernel⟩

theorem tiny_bounds : ShowsBounds parseFloat theBounds tallyTiny.bins :=
  ⟨[], ln "    X direction:   0  1  2", ln "    Y direction:   0  5", ln "    Z direction:   0  3", [ln "    Energy bin boundaries:  0 9"],
    "    X direction".toList, "    Y direction".toList, "    Z direction".toList, rfl, .flat,
    ⟨by decide, ln "   0  1  2", by decide, by decide +kernel⟩, ⟨by decide, ln "   0  5", by decide, by decide +kernel⟩,
    ⟨by decide, ln "   0  3", by decide, by decide +kernel⟩,
    .one ⟨rfl, "    Energy bin boundaries".toList, (by decide +kernel : "Energy".toList <:+: "    Energy bin boundaries".toList), by decide,
      ln "  0 9", by decide, by decide +kernel⟩ (by decide +kernel), fun _ => by decide +kernel⟩

/-- a file whose tally 4 has one very small value: the tally cannot be read, however good the others are -/
example (cs sn : ℚ → ℚ) (junk : Data) : ∃ c, scan .outside (fileOf ["mcnp", ""] ++ allLines [(14, tally14), (4, tallyTiny)]) [] = .ok c ∧
    getFMesh cs sn parseFloat junk c "4".toList = .error .valueError := by
  obtain ⟨c, h1, h2, _⟩ := mesh_refused cs sn junk (pre := [(14, tally14)]) (post := []) (n := 4) (t := tallyTiny)
    (file := fileOf ["mcnp", ""] ++ allLines [(14, tally14), (4, tallyTiny)])
    ⟨by
      intro x hx
      simp only [List.cons_append, List.nil_append, List.mem_cons, List.not_mem_nil, or_false] at hx
      rcases hx with rfl | rfl
      · exact isTally14
      · exact { isTally4 with data := by decide +kernel }, _, rfl, by decide +kernel⟩ (by simp) tiny_bounds usableBounds tiny_printed
    ⟨1, by decide, .inl (by rw [twoDigits_iff]; decide +kernel)⟩
  exact ⟨c, h1, h2⟩

end F4Enix.MeshFile

namespace F4Enix.Eeout
open F4Enix

instance (d : ℕ) (q : ℚ) : Decidable (TwoDigits d q) := decidable_of_iff _ (twoDigits_iff d q).symm

theorem padZeros_two {n : ℕ} (h : n < 100) : (padZeros 2 n).length = 2 := by
  have h1 := padZeros_length (w := 2) (k := 1) (n := n) (by norm_num) (by simpa using h)
  have h2 : 2 ≤ (padZeros 2 n).length := by
    simp only [padZeros, List.length_append, List.length_replicate]; omega
  omega

/-- a number with an exponent of two digits has the form of the numbers of an eeout file -/
theorem fortran_isNum {q : ℚ} (h : TwoDigits 5 q) : IsNum (fmtFortran 5 q) := by
  have h' := (twoDigits_iff 5 q).mp h
  have hm := (sciParts_digits 5 q).1
  have hd : (sciParts 5 q).1 / 10 ^ 5 < 10 := by
    rw [Nat.div_lt_iff_lt_mul (by positivity)]; rw [pow_succ] at hm; linarith
  refine ⟨⟨decide (q < 0), digitChar ((sciParts 5 q).1 / 10 ^ 5), if (sciParts 5 q).2 < 0 then '-' else '+', digitsW 5 (sciParts 5 q).1,
    padZeros 2 (sciParts 5 q).2.natAbs, ?_, isDigit_digitChar hd, digitsW_length _ _, digitsW_digit _ _, ?_, padZeros_two h', padZeros_digit _ _⟩⟩
  · rw [fmtFortran, if_pos h', fmtSci, sciStr, signStr]
    by_cases hq : q < 0 <;> simp [hq]
  · split <;> simp

/-- **C193 (eeout, false).** On a line of coordinates the numbers with exponents of two digits are read; those with exponents
of three digits are passed over, and the following numbers take their places. -/
theorem eeout_dropped (qs : List ℚ) {l : Str} (hl : tokens l = qs.map (fmtFortran 5)) :
    sciWords l = (qs.filter (fun q => TwoDigits 5 q)).map (fmtFortran 5) ∧
      floats parseFloat (sciWords l) = .ok ((qs.filter (fun q => TwoDigits 5 q)).map (roundSig 5)) := by
  have h1 : sciWords l = (qs.filter (fun q => TwoDigits 5 q)).map (fmtFortran 5) := by
    unfold sciWords
    rw [hl]
    clear hl
    induction qs with
    | nil => rfl
    | cons q qs ih =>
      rw [List.map_cons, List.filterMap_cons]
      by_cases hq : TwoDigits 5 q
      · have e : Find.search sciAt (fmtFortran 5 q) = some (fmtFortran 5 q) := by
          cases hw : fmtFortran 5 q with
          | nil => exact absurd hw (fortran_ne 5 q)
          | cons c cs => rw [Find.search, ← hw, sciAt_num (fortran_isNum hq)]
        rw [e]
        simp only [List.filter_cons, hq, decide_true, if_true, List.map_cons, ih]
      · have e : Find.search sciAt (fmtFortran 5 q) = none := by
          apply search_E
          intro hE
          rcases long_chars hq 'E' hE with h | h | h | h <;> revert h <;> decide
        rw [e]
        simp only [List.filter_cons, hq, decide_false, Bool.false_eq_true, if_false, ih]
  refine ⟨h1, ?_⟩
  rw [h1]
  apply floats_ok
  rw [List.map_map, List.map_map]
  apply List.map_congr_left
  intro q hq
  have : TwoDigits 5 q := by simpa using (List.mem_filter.mp hq).2
  exact fortran_read this

theorem floats_long {d : ℕ} {ws : List Str} {q : ℚ} (h : fmtFortran d q ∈ ws) (hq : ¬ TwoDigits d q) : floats parseFloat ws = .error .valueError := by
  induction ws with
  | nil => cases h
  | cons w ws ih =>
    rw [floats]
    cases hw : parseFloat w with
    | none => rfl
    | some x =>
      rcases List.mem_cons.mp h with rfl | h
      · rw [fortran_refused hq] at hw; cases hw
      · simp only [ih h]

/-- **C193 (eeout, false).** A result or an error of an edit with an exponent of three digits makes the reading of the file fail. -/
theorem eeout_results_refused {d : ℕ} {q : ℚ} {s : State ℚ} {w : Which} {acc : List ℚ} (hs : s.reading = some (w, acc)) {l : Str}
    (hl : isValueLine l = true) (hd : has "DATA OUTPUT PARTICLE" l = false) (h : fmtFortran d q ∈ tokens l) (hq : ¬ TwoDigits d q) (rest : List Str) :
    editsLoop parseFloat s (l :: rest) = .error .valueError := by
  rw [editsLoop, editStep]
  simp only [hd, Bool.false_eq_true, if_false, hs, hl, if_true, floats_long h hq]

/-- **C193 (eeout, false).** The same for a density or a volume. -/
theorem eeout_volume_refused {d : ℕ} {q : ℚ} {fd fv : Bool} (hf : (fd || fv) = true) (ds vs : List ℚ) {l : Str}
    (hl : isValueLine l = true) (h : fmtFortran d q ∈ tokens l) (hq : ¬ TwoDigits d q) (rest : List Str) :
    rhoVolLoop parseFloat fd fv ds vs (l :: rest) = .error .valueError := by
  rw [rhoVolLoop]
  simp only [hf, hl, Bool.and_self, if_true, floats_long h hq]

example : isValueLine "  1.00000E+00  1.00000-120\n".toList = true ∧ has "DATA OUTPUT PARTICLE" "  1.00000E+00  1.00000-120\n".toList = false ∧
    fmtFortran 5 (1 / 10 ^ 120) ∈ tokens "  1.00000E+00  1.00000-120\n".toList := by
  refine ⟨?_, ?_, ?_⟩ <;> decide +kernel

example : fmtFortran 5 (1 / 10 ^ 120) = "1.00000-120".toList ∧
    sciWords " 1.00000E+00 1.00000-120 2.00000E+00\n".toList = ["1.00000E+00".toList, "2.00000E+00".toList] := by
  constructor <;> decide +kernel

end F4Enix.Eeout

namespace F4Enix.Outp
open F4Enix F4Enix.Find

theorem sciHere_prefix {s w : Str} (h : sciHere s = some w) : w <+: s ∧ 'E' ∈ w := by
  unfold sciHere at h
  simp only at h
  split at h
  · rename_i d p r hr
    split at h
    · rename_i e g r2 h2
      split at h
      · rename_i hc
        obtain ⟨_, _, _, rfl, _⟩ := hc
        have hw := (Option.some.inj h).symm
        subst hw
        refine ⟨⟨r2.dropWhile isDigit, ?_⟩, by simp⟩
        conv_rhs => rw [← List.takeWhile_append_dropWhile (p := fun c => decide (c = '-' ∨ c = '+')) (l := s), hr,
          ← List.takeWhile_append_dropWhile (p := isDigit) (l := r), h2, ← List.takeWhile_append_dropWhile (p := isDigit) (l := r2)]
        simp
      · cases h
    · cases h
  · cases h

/-- every match has a letter `E` of its own -/
theorem findAll_count (s : Str) (n : ℕ) : (findAll sciHere n s).length ≤ (s.drop n).count 'E' := by
  induction s generalizing n with
  | nil => cases n <;> simp [findAll]
  | cons c s ih =>
    cases n with
    | succ n => rw [findAll]; simpa using ih n
    | zero =>
      rw [findAll]
      cases hm : sciHere (c :: s) with
      | none =>
        simp only
        refine le_trans (ih 0) ?_
        simp only [List.drop_zero, List.count_cons]; omega
      | some w =>
        simp only [List.length_cons, List.drop_zero]
        obtain ⟨⟨t, ht⟩, hE⟩ := sciHere_prefix hm
        cases w with
        | nil => cases hE
        | cons x w =>
          have hs : s = w ++ t := by simpa using (List.cons.inj ht).2.symm
          have e : (c :: s).count 'E' = (x :: w).count 'E' + t.count 'E' := by rw [← ht, List.count_append]
          have h1 : 0 < (x :: w).count 'E' := List.count_pos_iff.mpr hE
          have h2 := ih ((x :: w).length - 1)
          rw [hs] at h2
          simp only [List.length_cons, Nat.add_sub_cancel, List.drop_left] at h2
          rw [e, hs]
          simp only [List.length_cons, Nat.add_sub_cancel]
          omega

theorem fortran_count (d : ℕ) (q : ℚ) : (fmtFortran d q).count 'E' ≤ 1 ∧ (¬ TwoDigits d q → (fmtFortran d q).count 'E' = 0) := by
  have hz : ∀ l : Str, (∀ c ∈ l, isDigit c = true) → l.count 'E' = 0 := by
    intro l hl
    apply List.count_eq_zero.mpr
    intro hE
    exact absurd (hl _ hE) (by decide)
  have hsg : (signStr q).count 'E' = 0 := by unfold signStr; split <;> decide
  have hlong : ¬ TwoDigits d q → (fmtFortran d q).count 'E' = 0 := by
    intro h
    apply List.count_eq_zero.mpr
    intro hE
    rcases long_chars h 'E' hE with h | h | h | h <;> revert h <;> decide
  refine ⟨?_, hlong⟩
  by_cases h : TwoDigits d q
  · have hm := (sciParts_digits d q).1
    have hd : (sciParts d q).1 / 10 ^ d < 10 := by
      rw [Nat.div_lt_iff_lt_mul (by positivity)]; rw [pow_succ] at hm; linarith
    have hx : digitChar ((sciParts d q).1 / 10 ^ d) ≠ 'E' := by
      intro e; have := isDigit_digitChar hd; rw [e] at this; revert this; decide
    have hs : (if (sciParts d q).2 < 0 then '-' else '+') ≠ 'E' := by split <;> decide
    rw [fmtFortran, if_pos ((twoDigits_iff d q).mp h), fmtSci, sciStr, List.count_append, hsg, List.count_cons_of_ne hx,
      List.count_cons_of_ne (by decide), List.count_append, hz _ (digitsW_digit _ _), List.count_cons_self, List.count_cons_of_ne hs,
      hz _ (padZeros_digit _ _)]
  · rw [hlong h]; omega

/-- three numbers as Fortran writes them, with other text around them that has no capital `E` (specification) -/
def PointPrinted (d : ℕ) (x y z : ℚ) (l : Str) : Prop :=
  ∃ l0 l1 l2 l3, l = l0 ++ fmtFortran d x ++ l1 ++ fmtFortran d y ++ l2 ++ fmtFortran d z ++ l3 ∧ 'E' ∉ l0 ∧ 'E' ∉ l1 ∧ 'E' ∉ l2 ∧ 'E' ∉ l3

/-- **C193 (lost particles, false).** One coordinate with an exponent of three digits makes the table of lost particles fail. -/
theorem point_refused (num : Str → Option ℚ) {d : ℕ} {x y z : ℚ} {l : Str} (h : PointPrinted d x y z l)
    (hx : ¬ TwoDigits d x ∨ ¬ TwoDigits d y ∨ ¬ TwoDigits d z) : three num (findAll sciHere 0 l) = .error .indexError := by
  obtain ⟨l0, l1, l2, l3, rfl, h0, h1, h2, h3⟩ := h
  have hlt : (findAll sciHere 0 (l0 ++ fmtFortran d x ++ l1 ++ fmtFortran d y ++ l2 ++ fmtFortran d z ++ l3)).length < 3 := by
    refine lt_of_le_of_lt (findAll_count _ 0) ?_
    rw [List.drop_zero]
    simp only [List.count_append, List.count_eq_zero.mpr h0, List.count_eq_zero.mpr h1, List.count_eq_zero.mpr h2, List.count_eq_zero.mpr h3]
    have a := fortran_count d x
    have b := fortran_count d y
    have c := fortran_count d z
    rcases hx with hx | hx | hx
    · have := a.2 hx; omega
    · have := b.2 hx; omega
    · have := c.2 hx; omega
  match hf : findAll sciHere 0 (l0 ++ fmtFortran d x ++ l1 ++ fmtFortran d y ++ l2 ++ fmtFortran d z ++ l3), hlt with
  | [], _ => rfl
  | [_], _ => rfl
  | [_, _], _ => rfl
  | _ :: _ :: _ :: _, hlt => simp at hlt; omega

/-- the same for the whole table: no row of it is returned -/
theorem table_refused_long (num : Str → Option ℚ) (cosine : Bool) {d : ℕ} {x y z : ℚ} {first l1 l2 l3 l4 l5 l6 l7 surface cell : Str}
    (hf : surfaceId <:+: first) (hs : FirstNumber surface first) (hc : FirstNumber cell l1) (h : PointPrinted d x y z l6)
    (hx : ¬ TwoDigits d x ∨ ¬ TwoDigits d y ∨ ¬ TwoDigits d z) (rest : List Str) :
    lpTable num cosine none (first :: l1 :: l2 :: l3 :: l4 :: l5 :: l6 :: l7 :: rest) = .error .indexError := by
  have e : lpRow num cosine none first (l1 :: l2 :: l3 :: l4 :: l5 :: l6 :: l7 :: rest) = .error .indexError := by
    unfold lpRow
    rw [digitsOf_first hs]
    have a0 : lineAt (l1 :: l2 :: l3 :: l4 :: l5 :: l6 :: l7 :: rest) 0 = .ok l1 := rfl
    have a5 : lineAt (l1 :: l2 :: l3 :: l4 :: l5 :: l6 :: l7 :: rest) 5 = .ok l6 := rfl
    have a6 : lineAt (l1 :: l2 :: l3 :: l4 :: l5 :: l6 :: l7 :: rest) 6 = .ok l7 := rfl
    rw [a0, a5, a6]
    simp only [bind, Except.bind, pure, Except.pure]
    rw [digitsOf_first hc]
    simp only [point_refused num h hx]
  rw [lpTable, if_pos ((contains_iff _ _).2 hf), e]

example : PointPrinted 4 1 (1 / 10 ^ 103) (-2) " point: 1.0000E+00,1.0000-103,-2.0000E+00\n".toList ∧
    findAll sciHere 0 " point: 1.0000E+00,1.0000-103,-2.0000E+00\n".toList = ["1.0000E+00".toList, "-2.0000E+00".toList] := by
  refine ⟨⟨" point: ".toList, [','], [','], ['\n'], ?_, ?_, ?_, ?_, ?_⟩, ?_⟩ <;> decide +kernel

end F4Enix.Outp
