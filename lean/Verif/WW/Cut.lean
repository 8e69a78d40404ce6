import Verif.Base.Cut
import Verif.WW.ParserProps
/-!
# A window file cut off while it is written (C198)

`write` (ww_parser.py:287-317) opens the file for writing and writes line after line: an
interruption (a full disk, a killed process) leaves an initial part of the text. What does the
reader say of such a part?
-/
namespace F4Enix.WW
open F4Enix

/-! ## Counting the numbers the reader needs -/

/-- the number of words of some lines (specification) -/
def wordCount (ls : List Str) : ℕ := (ls.map (fun l => (tokens l).length)).sum

theorem wordCount_append (a b : List Str) : wordCount (a ++ b) = wordCount a + wordCount b := by
  simp [wordCount]

theorem wordCount_tokens (ls : List Str) : wordCount ls = ((ls.map tokens).flatten).length := by
  simp [wordCount, List.length_flatten, Function.comp_def]

theorem floats_length {f : NumFmt} {ws : List Str} {qs : List ℚ} (h : floats f ws = .ok qs) : qs.length = ws.length := by
  induction ws generalizing qs with
  | nil => cases h; rfl
  | cons w ws ih =>
    simp only [floats] at h
    cases hw : f.num w with
    | none => simp only [hw] at h; cases h
    | some q =>
      simp only [hw] at h
      cases hf : floats f ws with
      | error x => simp only [hf] at h; cases h
      | ok qs' =>
        simp only [hf] at h
        cases h
        simp [ih hf]

/-- a vector that was read took as many words as it has numbers, at least those expected -/
theorem readUntil_count {f : NumFmt} {n : ℤ} {acc : List ℚ} {ls : List Str} {qs : List ℚ} {rest : List Str}
    (h : readUntil f n acc ls = .ok (qs, rest)) :
    acc.length + wordCount ls = qs.length + wordCount rest ∧ n ≤ qs.length := by
  induction ls generalizing acc with
  | nil =>
    unfold readUntil at h
    split at h
    · cases h
    · cases h; exact ⟨rfl, by omega⟩
  | cons l ls ih =>
    unfold readUntil at h
    split at h
    · cases hf : floats f (tokens l) with
      | error x => simp only [hf] at h; cases h
      | ok q =>
        simp only [hf] at h
        obtain ⟨h1, h2⟩ := ih h
        have := floats_length hf
        refine ⟨?_, h2⟩
        rw [List.length_append] at h1
        have e : wordCount (l :: ls) = (tokens l).length + wordCount ls := by simp [wordCount]
        omega
    · cases h; exact ⟨rfl, by omega⟩

/-- how many numbers the third block of `n` particles needs (specification) -/
def need3 (nvox : ℤ) (n : ℕ) (nes : List ℤ) : ℤ := ((nes.take n).map (fun ne => ne + nvox * ne)).sum

theorem readBlock3_count {f : NumFmt} {nvox : ℤ} {n : ℕ} {nes : List ℤ} {ls : List Str} {o : List (List ℚ) × List (List ℚ)}
    (h : readBlock3 f nvox n nes ls = .ok o) : need3 nvox n nes ≤ wordCount ls := by
  induction n generalizing nes ls o with
  | zero => simp [need3]
  | succ n ih =>
    cases nes with
    | nil => simp [need3]
    | cons ne nes =>
      simp only [readBlock3] at h
      cases h1 : readUntil f ne [] ls with
      | error x => simp only [h1] at h; cases h
      | ok p1 =>
        obtain ⟨es, ls1⟩ := p1
        simp only [h1] at h
        cases h2 : readUntil f (nvox * ne) [] ls1 with
        | error x => simp only [h2] at h; cases h
        | ok p2 =>
          obtain ⟨vs, ls2⟩ := p2
          simp only [h2] at h
          cases h3 : readBlock3 f nvox n nes ls2 with
          | error x => simp only [h3] at h; cases h
          | ok p3 =>
            have c1 := readUntil_count h1
            have c2 := readUntil_count h2
            have c3 := ih h3
            simp only [List.length_nil, Nat.zero_add] at c1 c2
            simp only [need3, List.take_succ_cons, List.map_cons, List.sum_cons] at c3 ⊢
            omega

/-- a header that was read: four lines at least, the numbers of the fourth complete -/
theorem parseHeader_inv {f : NumFmt} {ls : List Str} {h : Header} {rest : List Str}
    (hp : parseHeader f ls = .ok (h, rest)) :
    ∃ l1 l2 l3 l4 tl, ls = l1 :: l2 :: l3 :: l4 :: tl ∧ intAt (tokens l1) 3 = .ok h.nr ∧
      intFloatAt f (tokens l4) 0 = .ok h.ncx ∧ 3 ≤ (tokens l4).length ∧
      rest = if h.nr = 10 then tl else tl.tail := by
  have t0 : ∀ i, intFloatAt f (tokens []) i = .error .indexError := by
    intro i; rw [tokens_nil]; simp [intFloatAt]
  have t1 : intAt (tokens []) 0 = .error .indexError := by rw [tokens_nil]; simp [intAt]
  match ls with
  | [] => simp only [parseHeader, readline, t1, bind, Except.bind] at hp; cases hp
  | [l1] =>
    simp only [parseHeader, readline, bind, Except.bind, t0] at hp
    repeat' split at hp
    all_goals cases hp
  | [l1, l2] =>
    simp only [parseHeader, readline, bind, Except.bind, t0] at hp
    repeat' split at hp
    all_goals cases hp
  | [l1, l2, l3] =>
    simp only [parseHeader, readline, bind, Except.bind, t0] at hp
    repeat' split at hp
    all_goals cases hp
  | l1 :: l2 :: l3 :: l4 :: tl =>
    refine ⟨l1, l2, l3, l4, tl, rfl, ?_⟩
    have hz : ∀ {n : ℤ}, intFloatAt f (tokens l4) 2 = .ok n → 3 ≤ (tokens l4).length := by
      intro n hn
      by_contra hlt
      rw [intFloatAt, List.getElem?_eq_none (by omega)] at hn
      cases hn
    simp only [parseHeader, readline, bind, Except.bind] at hp
    cases a1 : intAt (tokens l1) 0 <;> simp only [a1] at hp <;> try cases hp
    cases a2 : intAt (tokens l1) 1 <;> simp only [a2] at hp <;> try cases hp
    cases a3 : intAt (tokens l1) 2 <;> simp only [a3] at hp <;> try cases hp
    cases a4 : intAt (tokens l1) 3 <;> simp only [a4] at hp <;> try cases hp
    cases a5 : intsOf (tokens l2) <;> simp only [a5] at hp <;> try cases hp
    cases a6 : intFloatAt f (tokens l3) 0 <;> simp only [a6] at hp <;> try cases hp
    cases a7 : intFloatAt f (tokens l3) 1 <;> simp only [a7] at hp <;> try cases hp
    cases a8 : intFloatAt f (tokens l3) 2 <;> simp only [a8] at hp <;> try cases hp
    cases a9 : floats f ((tokens l3).drop 3) <;> simp only [a9] at hp <;> try cases hp
    cases b1 : intFloatAt f (tokens l4) 0 <;> simp only [b1] at hp <;> try cases hp
    cases b2 : intFloatAt f (tokens l4) 1 <;> simp only [b2] at hp <;> try cases hp
    cases b3 : intFloatAt f (tokens l4) 2 <;> simp only [b3] at hp <;> try cases hp
    split at hp
    · rename_i h10
      cases hp
      exact ⟨rfl, rfl, hz b3, by rw [if_pos h10]⟩
    · rename_i h10
      cases b4 : floats f ((tokens l4).drop 3) <;> simp only [b4] at hp <;> try cases hp
      cases tl with
      | nil =>
        cases b5 : floats f ((tokens []).take 3) <;> simp only [b5] at hp <;> cases hp
        exact ⟨rfl, rfl, hz b3, by rw [if_neg h10]; rfl⟩
      | cons l5 tl =>
        cases b5 : floats f ((tokens l5).take 3) <;> simp only [b5] at hp <;> cases hp
        exact ⟨rfl, rfl, hz b3, by rw [if_neg h10]; rfl⟩

/-! ## A cut in the header -/

theorem readUntil_none {f : NumFmt} {n : ℤ} (h : 0 < n) : readUntil f n [] [] = .error .diverges := by
  unfold readUntil; rw [if_pos (by simpa using h)]

/-- the lines of the header, and what is read of them whatever follows -/
theorem header_lines {f : NumFmt} {rg re : ℚ → ℚ} {r : ParseResult} (h : Writable f rg re r) :
    ∃ L1 L2 L3 L4 TL, headerLines f r.header = .ok (L1 :: L2 :: L3 :: L4 :: TL) ∧
      (∀ l ∈ L1 :: L2 :: L3 :: L4 :: TL, IsLine l) ∧
      (∀ rest, parseHeader f (L1 :: L2 :: L3 :: L4 :: TL ++ rest) = .ok ((rounded rg re r).header, rest)) ∧
      intAt (tokens L1) 3 = .ok r.header.nr ∧ intFloatAt f (tokens L4) 0 = .ok r.header.ncx ∧
      TL.length = if r.header.nr = 10 then 0 else 1 := by
  obtain ⟨hl, e1, e2, e3⟩ := header_roundtrip f rg re r h []
  have hall : ∀ rest, parseHeader f (hl ++ rest) = .ok ((rounded rg re r).header, rest) := by
    intro rest
    obtain ⟨hl', e1', _, e3'⟩ := header_roundtrip f rg re r h rest
    rw [e1] at e1'
    cases e1'
    exact e3'
  obtain ⟨L1, L2, L3, L4, TL, rfl, i1, i2, i3, i4⟩ := parseHeader_inv ((List.append_nil hl ▸ hall []))
  obtain ⟨M1, M2, M3, M4, TL', j0, _, _, _, j4⟩ := parseHeader_inv (hall [['x']])
  simp only [List.cons_append, List.cons.injEq] at j0
  obtain ⟨_, _, _, _, rfl⟩ := j0
  refine ⟨L1, L2, L3, L4, TL, e1, e2, hall, i1, i2, ?_⟩
  have hnr : (rounded rg re r).header.nr = r.header.nr := rfl
  rw [hnr] at i4 j4
  by_cases h10 : r.header.nr = 10
  · rw [if_pos h10] at i4 ⊢
    rw [← i4]; rfl
  · rw [if_neg h10] at i4 j4 ⊢
    cases TL with
    | nil => simp at j4
    | cons a TL =>
      simp only [List.tail_cons] at i4
      rw [← i4]; rfl

theorem ncx_nonneg {f : NumFmt} {rg re : ℚ → ℚ} {r : ParseResult} (h : Writable f rg re r) : 0 ≤ r.header.ncx := by
  have := h.b2i.1
  have : (0 : ℤ) ≤ (r.b2i.length : ℤ) := by positivity
  omega

theorem cut_header {f : NumFmt} {rg re : ℚ → ℚ} {r : ParseResult} (h : Writable f rg re r) {hl : List Str}
    (hh : headerLines f r.header = .ok hl) {cut : Str} (hc : cut <+: hl.flatten) : ∃ e, parse f cut = .error e := by
  obtain ⟨L1, L2, L3, L4, TL, e1, e2, e3, e4, e5, e6⟩ := header_lines h
  rw [hh] at e1
  cases e1
  have key : ∀ hd rest, parseHeader f (fileLines cut) = .ok (hd, rest) → hd.ncx = r.header.ncx ∧ rest = [] := by
    intro hd rest hp
    rcases cut_lines _ e2 hc with rfl | ⟨ls1, l, ls2, part, d1, d2, d3, rfl⟩
    · have hfl := fileLines_flatten _ e2 []
      rw [List.append_nil] at hfl
      rw [hfl] at hp
      have := e3 []
      rw [show fileLines [] = ([] : List Str) from rfl, this] at hp
      cases hp
      exact ⟨rfl, rfl⟩
    · have hl1 : ∀ l ∈ ls1, IsLine l := fun m hm => e2 m (by rw [d1]; exact List.mem_append_left _ hm)
      rw [fileLines_flatten ls1 hl1, fileLines_noNl d3] at hp
      obtain ⟨l1, l2, l3, l4, tl, f0, f1, f2, f3, f4⟩ := parseHeader_inv hp
      have hP : (if part = [] then [] else [part]).length ≤ 1 := by split <;> simp
      generalize hPe : (if part = [] then ([] : List Str) else [part]) = P at f0 hP
      match ls1, d1, f0 with
      | [], _, f0 => simp only [List.nil_append] at f0; rw [f0] at hP; simp at hP
      | [a], _, f0 => simp only [List.cons_append, List.nil_append, List.cons.injEq] at f0; rw [f0.2] at hP; simp at hP
      | [a, b], _, f0 => simp only [List.cons_append, List.nil_append, List.cons.injEq] at f0; rw [f0.2.2] at hP; simp at hP
      | [a, b, c], d1, f0 =>
        simp only [List.cons_append, List.nil_append, List.cons.injEq] at f0 d1
        obtain ⟨rfl, rfl, rfl, g0⟩ := f0
        obtain ⟨rfl, rfl, rfl, rfl, rfl⟩ := d1
        by_cases hp0 : part = []
        · rw [if_pos hp0] at hPe; rw [← hPe] at g0; cases g0
        · rw [if_neg hp0] at hPe
          rw [← hPe] at g0
          obtain ⟨rfl, rfl⟩ := List.cons.inj g0
          refine ⟨?_, by rw [f4]; split <;> rfl⟩
          rw [intFloatAt, tokens_prefix_get d2 (by omega)] at f2
          have : Except.ok hd.ncx = Except.ok (ε := PyErr) r.header.ncx := by rw [← f2, ← e5]; rfl
          injection this
      | a :: b :: c :: d :: ls1, d1, f0 =>
        simp only [List.cons_append, List.cons.injEq] at f0 d1
        obtain ⟨rfl, rfl, rfl, rfl, g0⟩ := f0
        obtain ⟨rfl, rfl, rfl, rfl, g1⟩ := d1
        have n1 : Except.ok hd.nr = Except.ok (ε := PyErr) r.header.nr := by rw [← f1, ← e4]
        have n2 : Except.ok hd.ncx = Except.ok (ε := PyErr) r.header.ncx := by rw [← f2, ← e5]
        refine ⟨by injection n2, ?_⟩
        have n1 : hd.nr = r.header.nr := by injection n1
        by_cases h10 : r.header.nr = 10
        · rw [if_pos h10, g1] at e6; simp at e6
        · rw [if_neg h10, g1] at e6
          rw [n1, if_neg h10] at f4
          have : ls1 = [] := by
            rw [← List.length_eq_zero_iff]; simp only [List.length_append, List.length_cons] at e6; omega
          subst this
          rw [f4, ← g0, List.nil_append]
          cases P with
          | nil => rfl
          | cons a P => simp only [List.length_cons] at hP; rw [List.tail_cons, ← List.length_eq_zero_iff]; omega
  cases hp : parseHeader f (fileLines cut) with
  | error x => exact ⟨x, by unfold parse; rw [hp]⟩
  | ok p =>
    obtain ⟨hd, rest⟩ := p
    obtain ⟨k1, rfl⟩ := key hd rest hp
    refine ⟨.diverges, ?_⟩
    unfold parse
    rw [hp]
    have := ncx_nonneg h
    simp only
    rw [readUntil_none (by rw [k1]; omega)]

end F4Enix.WW
