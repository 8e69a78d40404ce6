import Verif.WW.Cut
import Verif.WW.Numbers
/-!
# What the reader says of a window file that was cut off (C198)
-/
namespace F4Enix.WW
open F4Enix

/-! ## Specification -/

/-- the window whose very last number is another (specification) -/
def withLast (r : ParseResult) (x : ℚ) : ParseResult :=
  { r with values := r.values.dropLast ++ [(r.values.getLastD []).dropLast ++ [x]] }

/-! ## Lemmas -/

theorem wordCount_map (line : List ℚ → Str) (ps : List (List ℚ)) (h : ∀ p ∈ ps, (tokens (line p)).length = p.length) :
    wordCount (ps.map line) = ps.flatten.length := by
  induction ps with
  | nil => rfl
  | cons p ps ih =>
    have e : wordCount ((p :: ps).map line) = (tokens (line p)).length + wordCount (ps.map line) := by simp [wordCount]
    rw [e, ih (fun p hp => h p (List.mem_cons_of_mem _ hp)), h p (by simp)]
    simp

theorem mem_packs {α : Type} {v p : List α} (hp : p ∈ packs6 v) {q : α} (hq : q ∈ p) : q ∈ v := by
  rw [← packs6_flatten v]; exact List.mem_flatten.mpr ⟨p, hp, hq⟩

theorem wordCount_gLines {f : NumFmt} {rg : ℚ → ℚ} {v : List ℚ} (h : ∀ q ∈ v, NumOk f f.g rg q) :
    wordCount (gLines f v) = v.length := by
  unfold gLines
  rw [wordCount_map, packs6_flatten]
  intro p hp
  rw [tokens_gLine f rg p (fun q hq => h q (mem_packs hp hq)), List.length_map]

theorem wordCount_eLines {f : NumFmt} {re : ℚ → ℚ} {v : List ℚ} (h : ∀ q ∈ v, NumOk f f.e re q) :
    wordCount (eLines f v) = v.length := by
  unfold eLines
  rw [wordCount_map, packs6_flatten]
  intro p hp
  rw [tokens_eLine f re p (fun q hq => h q (mem_packs hp hq)), List.length_map]

theorem wordCount_block3 {f : NumFmt} {rg re : ℚ → ℚ} {nvox : ℤ} {es vs : List (List ℚ)} {bl : List Str}
    (hl : vs.map (fun vs => (vs.length : ℤ)) = es.map (fun es => nvox * (es.length : ℤ)))
    (he : ∀ x ∈ es, ∀ q ∈ x, NumOk f f.g rg q) (hv : ∀ x ∈ vs, ∀ q ∈ x, NumOk f f.e re q)
    (hb : block3Lines f es vs = .ok bl) :
    (wordCount bl : ℤ) = need3 nvox es.length (es.map (fun es => (es.length : ℤ))) := by
  induction es generalizing vs bl with
  | nil => cases hb; rfl
  | cons e es ih =>
    cases vs with
    | nil => simp at hl
    | cons v vs =>
      simp only [List.map_cons, List.cons.injEq] at hl
      simp only [block3Lines] at hb
      cases hb' : block3Lines f es vs with
      | error x => simp only [hb'] at hb; cases hb
      | ok bl' =>
        simp only [hb'] at hb
        cases hb
        have := ih hl.2 (fun x hx => he x (List.mem_cons_of_mem _ hx)) (fun x hx => hv x (List.mem_cons_of_mem _ hx)) hb'
        rw [wordCount_append, wordCount_append, wordCount_gLines (he e (by simp)), wordCount_eLines (hv v (by simp))]
        simp only [need3, List.length_cons, List.map_cons, List.take_succ_cons, List.sum_cons] at this ⊢
        push_cast
        omega

/-- the lines of a written window -/
theorem write_lines {f : NumFmt} {rg re : ℚ → ℚ} {r : ParseResult} (h : Writable f rg re r) {text : Str} (hw : write f r = .ok text) :
    ∃ hl bl, headerLines f r.header = .ok hl ∧ block3Lines f r.energies r.values = .ok bl ∧
      (∀ l ∈ hl, IsLine l) ∧ (∀ l ∈ gLines f r.b2i ++ gLines f r.b2j ++ gLines f r.b2k ++ bl, IsLine l) ∧
      (∀ rest, parseHeader f (hl ++ rest) = .ok ((rounded rg re r).header, rest)) ∧
      text = hl.flatten ++ (gLines f r.b2i ++ gLines f r.b2j ++ gLines f r.b2k ++ bl).flatten := by
  obtain ⟨bl, b1, b2, _⟩ := block3_roundtrip f rg re (r.header.nfx * r.header.nfy * r.header.nfz)
    r.energies r.values h.nvals h.energies h.values
  obtain ⟨L1, L2, L3, L4, TL, e1, e2, e3, _⟩ := header_lines h
  refine ⟨_, bl, e1, b1, e2, ?_, e3, ?_⟩
  · intro l hm
    simp only [List.mem_append] at hm
    rcases hm with ((hm | hm) | hm) | hm
    · exact isLine_gLines f rg _ h.b2i.2 l hm
    · exact isLine_gLines f rg _ h.b2j.2 l hm
    · exact isLine_gLines f rg _ h.b2k.2 l hm
    · exact b2 l hm
  · simp only [write, e1, b1] at hw
    cases hw
    simp [List.append_assoc]

/-- the numbers that follow the header in a written window are just those the reader needs -/
theorem body_count {f : NumFmt} {rg re : ℚ → ℚ} {r : ParseResult} (h : Writable f rg re r) {bl : List Str}
    (hb : block3Lines f r.energies r.values = .ok bl) :
    (wordCount (gLines f r.b2i ++ gLines f r.b2j ++ gLines f r.b2k ++ bl) : ℤ) =
      (3 * r.header.ncx + 1) + (3 * r.header.ncy + 1) + (3 * r.header.ncz + 1) +
        need3 (r.header.nfx * r.header.nfy * r.header.nfz) r.header.ni.toNat r.header.ne := by
  have := wordCount_block3 h.nvals h.energies h.values hb
  rw [wordCount_append, wordCount_append, wordCount_append, wordCount_gLines h.b2i.2, wordCount_gLines h.b2j.2,
    wordCount_gLines h.b2k.2, h.particles, h.ne, Int.toNat_natCast]
  have := h.b2i.1; have := h.b2j.1; have := h.b2k.1
  push_cast
  omega

/-- a file that was read holds at least the numbers its header calls for -/
theorem parse_count {f : NumFmt} {text : Str} {o : ParseResult} {hd : Header} {rest : List Str}
    (hp : parseHeader f (fileLines text) = .ok (hd, rest)) (h : parse f text = .ok o) :
    (3 * hd.ncx + 1) + (3 * hd.ncy + 1) + (3 * hd.ncz + 1) + need3 (hd.nfx * hd.nfy * hd.nfz) hd.ni.toNat hd.ne
      ≤ wordCount rest := by
  unfold parse at h
  simp only [hp] at h
  cases h1 : readUntil f (3 * hd.ncx + 1) [] rest with
  | error x => simp only [h1] at h; cases h
  | ok p1 =>
    obtain ⟨bi, l1⟩ := p1
    simp only [h1] at h
    cases h2 : readUntil f (3 * hd.ncy + 1) [] l1 with
    | error x => simp only [h2] at h; cases h
    | ok p2 =>
      obtain ⟨bj, l2⟩ := p2
      simp only [h2] at h
      cases h3 : readUntil f (3 * hd.ncz + 1) [] l2 with
      | error x => simp only [h3] at h; cases h
      | ok p3 =>
        obtain ⟨bk, l3⟩ := p3
        simp only [h3] at h
        cases h4 : readBlock3 f (hd.nfx * hd.nfy * hd.nfz) hd.ni.toNat hd.ne l3 with
        | error x => simp only [h4] at h; cases h
        | ok p4 =>
          have c1 := readUntil_count h1
          have c2 := readUntil_count h2
          have c3 := readUntil_count h3
          have c4 := readBlock3_count h4
          simp only [List.length_nil, Nat.zero_add] at c1 c2 c3
          omega

theorem cut_body {f : NumFmt} {rg re : ℚ → ℚ} {r : ParseResult} (h : Writable f rg re r) {text : Str} (hw : write f r = .ok text)
    {cut : Str} (hc : cut <+: text) (hlt : (tokens cut).length < (tokens text).length) : ∃ e, parse f cut = .error e := by
  obtain ⟨hl, bl, e1, e2, e3, e4, e5, rfl⟩ := write_lines h hw
  by_cases hlen : cut.length ≤ hl.flatten.length
  · exact cut_header h e1 (List.prefix_of_prefix_length_le hc (List.prefix_append _ _) hlen)
  · have hpre : hl.flatten <+: cut := List.prefix_of_prefix_length_le (List.prefix_append _ _) hc (by omega)
    obtain ⟨b, rfl⟩ := hpre
    have hb := (List.prefix_append_right_inj _).mp hc
    rw [tokens_lines hl e3, tokens_lines hl e3, List.length_append, List.length_append] at hlt
    have hfl : fileLines (hl.flatten ++ b) = hl ++ fileLines b := fileLines_flatten hl e3 b
    have hh := e5 (fileLines b)
    rw [← hfl] at hh
    cases hp : parse f (hl.flatten ++ b) with
    | error e => exact ⟨e, rfl⟩
    | ok o =>
      exfalso
      have c1 := parse_count hh hp
      have c2 := body_count h e2
      have t1 : wordCount (fileLines b) = (tokens b).length := by
        rcases cut_lines _ e4 hb with rfl | ⟨ls1, l, ls2, part, d1, d2, d3, rfl⟩
        · have := fileLines_flatten _ e4 []
          rw [List.append_nil] at this
          rw [this]
          have t := tokens_lines _ e4 []
          rw [List.append_nil, tokens_nil, List.append_nil] at t
          rw [t, show fileLines [] = ([] : List Str) from rfl, List.append_nil, wordCount_tokens]
        · have hl1 : ∀ l ∈ ls1, IsLine l := fun m hm => e4 m (by rw [d1]; exact List.mem_append_left _ hm)
          rw [fileLines_flatten ls1 hl1, tokens_lines ls1 hl1, fileLines_noNl d3, wordCount_append, wordCount_tokens,
            List.length_append]
          congr 1
          split
          · rename_i h0; rw [h0, tokens_nil]; rfl
          · simp [wordCount]
      have t2 : wordCount (gLines f r.b2i ++ gLines f r.b2j ++ gLines f r.b2k ++ bl) =
          (tokens (gLines f r.b2i ++ gLines f r.b2j ++ gLines f r.b2k ++ bl).flatten).length := by
        have t := tokens_lines _ e4 []
        rw [List.append_nil, tokens_nil, List.append_nil] at t
        rw [t, wordCount_tokens]
      have k1 : (rounded rg re r).header.ncx = r.header.ncx := rfl
      have k2 : (rounded rg re r).header.ncy = r.header.ncy := rfl
      have k3 : (rounded rg re r).header.ncz = r.header.ncz := rfl
      have k4 : need3 ((rounded rg re r).header.nfx * (rounded rg re r).header.nfy * (rounded rg re r).header.nfz)
        (rounded rg re r).header.ni.toNat (rounded rg re r).header.ne =
          need3 (r.header.nfx * r.header.nfy * r.header.nfz) r.header.ni.toNat r.header.ne := rfl
      rw [k1, k2, k3, k4, ← c2, t1, t2] at c1
      omega

/-! ## A cut inside the last number -/

theorem floats_last {f : NumFmt} {re : ℚ → ℚ} (p : List ℚ) (h : ∀ q ∈ p, NumOk f f.e re q) (w : Str) :
    floats f (p.map f.e ++ [w]) = match f.num w with
      | none => .error .valueError
      | some x => .ok (p.map re ++ [x]) := by
  induction p with
  | nil =>
    cases hw : f.num w <;> simp [floats, hw]
  | cons q p ih =>
    have := ih (fun q hq => h q (List.mem_cons_of_mem _ hq))
    simp only [List.map_cons, List.cons_append, floats, (h q (by simp)).2.2]
    rw [this]
    cases hw : f.num w <;> simp

theorem readUntil_last {f : NumFmt} {re : ℚ → ℚ} {ps : List (List ℚ)} {p : List ℚ} {w X : Str}
    (hne : ∀ p ∈ ps, p ≠ []) (hps : ∀ p ∈ ps, ∀ q ∈ p, NumOk f f.e re q) (hp : ∀ q ∈ p, NumOk f f.e re q)
    (hX : tokens X = p.map f.e ++ [w]) (acc : List ℚ) {n : ℤ} (hn : n = acc.length + ps.flatten.length + p.length + 1) :
    readUntil f n acc (ps.map (eLine f) ++ [X]) = match f.num w with
      | none => .error .valueError
      | some x => .ok (acc ++ ps.flatten.map re ++ p.map re ++ [x], []) := by
  induction ps generalizing acc with
  | nil =>
    simp only [List.map_nil, List.nil_append, List.flatten_nil, List.append_nil] at hn ⊢
    unfold readUntil
    rw [if_pos (by simp at hn; omega), hX, floats_last p hp]
    cases hw : f.num w with
    | none => rfl
    | some x =>
      simp only
      rw [readUntil_done f n _ (by simp at hn ⊢; omega)]
      simp
  | cons a ps ih =>
    have ha : 0 < a.length := List.length_pos_of_ne_nil (hne a (by simp))
    simp only [List.map_cons, List.cons_append, List.flatten_cons, List.map_append]
    simp only [List.flatten_cons, List.length_append] at hn
    unfold readUntil
    rw [if_pos (by omega), tokens_eLine f re a (hps a (by simp)), floats_ok f f.e re a (hps a (by simp))]
    simp only
    rw [ih (fun p h => hne p (List.mem_cons_of_mem _ h)) (fun p h => hps p (List.mem_cons_of_mem _ h))
      (acc ++ a.map re) (by rw [List.length_append, List.length_map]; push_cast; omega)]
    cases hw : f.num w <;> simp

/-- the lines of the last particle, its last line replaced -/
theorem packs6_last {α : Type} (v : List α) (x : α) : ∃ ps p, packs6 (v ++ [x]) = ps ++ [p ++ [x]] ∧ v = ps.flatten ++ p := by
  have h0 : packs6 (v ++ [x]) ≠ [] := by
    intro h
    have := packs6_flatten (v ++ [x])
    rw [h] at this
    simp at this
  obtain ⟨ps, l, hl⟩ : ∃ ps l, packs6 (v ++ [x]) = ps ++ [l] := ⟨_, _, (List.dropLast_append_getLast h0).symm⟩
  have hne : l ≠ [] := packs6_ne (v ++ [x]) l (by rw [hl]; simp)
  obtain ⟨p, y, hy⟩ : ∃ p y, l = p ++ [y] := ⟨_, _, (List.dropLast_append_getLast hne).symm⟩
  have hf := packs6_flatten (v ++ [x])
  rw [hl, hy, List.flatten_append, List.flatten_singleton, ← List.append_assoc] at hf
  obtain ⟨h1, h2⟩ := List.append_inj' hf rfl
  obtain rfl := List.singleton_inj.mp h2
  exact ⟨ps, p, by rw [hl, hy], h1.symm⟩

theorem readBlock3_more {f : NumFmt} {rg re : ℚ → ℚ} {nvox : ℤ} {es vs : List (List ℚ)} {bl : List Str}
    (hl : vs.map (fun vs => (vs.length : ℤ)) = es.map (fun es => nvox * (es.length : ℤ)))
    (he : ∀ x ∈ es, ∀ q ∈ x, NumOk f f.g rg q) (hv : ∀ x ∈ vs, ∀ q ∈ x, NumOk f f.e re q)
    (hb : block3Lines f es vs = .ok bl) (k : ℕ) (nes : List ℤ) (rest : List Str) :
    readBlock3 f nvox (es.length + k) (es.map (fun es => (es.length : ℤ)) ++ nes) (bl ++ rest) =
      match readBlock3 f nvox k nes rest with
      | .error x => .error x
      | .ok (a, b) => .ok (es.map (List.map rg) ++ a, vs.map (List.map re) ++ b) := by
  induction es generalizing vs bl with
  | nil =>
    cases hb
    have : vs = [] := by simpa using hl
    subst this
    simp only [List.length_nil, Nat.zero_add, List.map_nil, List.nil_append]
    cases readBlock3 f nvox k nes rest <;> rfl
  | cons e es ih =>
    cases vs with
    | nil => simp at hl
    | cons v vs =>
      simp only [List.map_cons, List.cons.injEq] at hl
      simp only [block3Lines] at hb
      cases hb' : block3Lines f es vs with
      | error x => simp only [hb'] at hb; cases hb
      | ok bl' =>
        simp only [hb'] at hb
        cases hb
        have := ih hl.2 (fun x hx => he x (List.mem_cons_of_mem _ hx)) (fun x hx => hv x (List.mem_cons_of_mem _ hx)) hb'
        rw [List.length_cons, show es.length + 1 + k = (es.length + k) + 1 by omega]
        simp only [List.map_cons, List.cons_append, readBlock3]
        rw [List.append_assoc, List.append_assoc, readUntil_g f rg e (he e (by simp)) _ rfl]
        simp only
        rw [readUntil_e f re v (hv v (by simp)) _ hl.1.symm]
        simp only [this]
        cases readBlock3 f nvox k nes rest <;> rfl

theorem block3Lines_append {f : NumFmt} {es es' vs vs' : List (List ℚ)} (hlen : es.length = vs.length) :
    block3Lines f (es ++ es') (vs ++ vs') =
      match block3Lines f es vs with
      | .error x => .error x
      | .ok a =>
        match block3Lines f es' vs' with
        | .error x => .error x
        | .ok b => .ok (a ++ b) := by
  induction es generalizing vs with
  | nil =>
    have : vs = [] := by simpa using hlen.symm
    subst this
    simp only [List.nil_append, block3Lines]
    cases block3Lines f es' vs' <;> simp
  | cons e es ih =>
    cases vs with
    | nil => simp at hlen
    | cons v vs =>
      simp only [List.cons_append, block3Lines]
      rw [ih (by simpa using hlen)]
      cases block3Lines f es vs with
      | error x => rfl
      | ok a => cases block3Lines f es' vs' <;> simp

theorem word_prefix {w w' : Str} (hw : IsWord w) (h : w' <+: w) (h0 : w' ≠ []) : IsWord w' :=
  ⟨h0, fun c hc => hw.2 c (h.subset hc)⟩

/-- a value line up to its last number -/
theorem eLine_last {f : NumFmt} (p : List ℚ) (q : ℚ) :
    eLine f (p ++ [q]) = fields (p.map (fun y => (13, f.e y))) ++ List.replicate (13 - (f.e q).length) ' ' ++ f.e q ++ ['\n'] := by
  simp [eLine, fields, padLeft, List.append_assoc]

theorem tokens_cut_line {f : NumFmt} {re : ℚ → ℚ} {p : List ℚ} {q : ℚ} (hp : ∀ y ∈ p ++ [q], NumOk f f.e re y) {w' : Str}
    (hw : w' <+: f.e q) (h0 : w' ≠ []) :
    tokens (fields (p.map (fun y => (13, f.e y))) ++ List.replicate (13 - (f.e q).length) ' ' ++ w') = p.map f.e ++ [w'] ∧
      ∀ c ∈ fields (p.map (fun y => (13, f.e y))) ++ List.replicate (13 - (f.e q).length) ' ' ++ w', c ≠ '\n' := by
  obtain ⟨q1, q2, _⟩ := hp q (by simp)
  have hword := word_prefix q1 hw h0
  obtain ⟨k, hk⟩ : ∃ k, 13 - (f.e q).length = k + 1 := ⟨13 - (f.e q).length - 1, by omega⟩
  constructor
  · have := (fields_tail_ok (p.map (fun y => (13, f.e y))) (by
      intro g hg
      obtain ⟨y, hy, rfl⟩ := List.mem_map.mp hg
      have := hp y (List.mem_append_left _ hy)
      exact ⟨this.1, this.2.1⟩) (List.replicate (13 - (f.e q).length) ' ' ++ w') (by
        rw [hk, List.replicate_succ]; rfl)).2
    rw [List.append_assoc, this, tokens_spaces]
    have tw := tokens_word hword (s := []) (Or.inl rfl)
    rw [List.append_nil, tokens_nil] at tw
    rw [tw, List.map_map]
    rfl
  · intro c hc
    simp only [List.mem_append] at hc
    rcases hc with (hc | hc) | hc
    · refine fields_no_nl _ ?_ c hc
      intro g hg
      obtain ⟨y, hy, rfl⟩ := List.mem_map.mp hg
      exact word_no_nl (hp y (List.mem_append_left _ hy)).1
    · rw [List.eq_of_mem_replicate hc]; decide
    · exact word_no_nl hword c hc

/-- **C198** (a cut in the last number). A written window ends with its last number and a newline; cut inside that number, the file is
refused with a `ValueError` if what is left is no number, and otherwise it is read as the window whose last number is what is left. -/
theorem cut_last {f : NumFmt} {rg re : ℚ → ℚ} {r : ParseResult} (h : Writable f rg re r) {vss : List (List ℚ)} {v : List ℚ} {q : ℚ}
    (hv : r.values = vss ++ [v ++ [q]]) :
    ∃ pre, write f r = .ok (pre ++ f.e q ++ ['\n']) ∧ pre.getLast? = some ' ' ∧
      ∀ w', w' <+: f.e q → w' ≠ [] → parse f (pre ++ w') = match f.num w' with
        | none => .error .valueError
        | some x => .ok (withLast (rounded rg re r) x) := by
  have hlen : r.values.length = r.energies.length := by
    have := congrArg List.length h.nvals
    simpa using this
  have hene : r.energies ≠ [] := by
    intro h0; rw [h0, hv] at hlen; simp at hlen
  obtain ⟨ess, e, he⟩ : ∃ ess e, r.energies = ess ++ [e] := ⟨_, _, (List.dropLast_append_getLast hene).symm⟩
  have hl2 : ess.length = vss.length := by rw [he, hv] at hlen; simp at hlen; omega
  obtain ⟨text, hw, _⟩ := c03_roundtrip f rg re r h
  obtain ⟨hl, bl, e1, e2, e3, e4, e5, e6⟩ := write_lines h hw
  have e2' := e2
  rw [he, hv, block3Lines_append hl2] at e2'
  cases ha : block3Lines f ess vss with
  | error x => simp only [ha] at e2'; cases e2'
  | ok a =>
    simp only [ha, block3Lines, List.append_nil] at e2'
    obtain rfl := (Except.ok.inj e2').symm
    obtain ⟨ps, p, hps, rfl⟩ := packs6_last v q
    have hel : eLines f (ps.flatten ++ p ++ [q]) = ps.map (eLine f) ++ [eLine f (p ++ [q])] := by rw [eLines, hps]; simp
    have hne : ∀ x ∈ ps, x ≠ [] := fun x hx => packs6_ne _ x (by rw [hps]; exact List.mem_append_left _ hx)
    have hvq : ∀ y ∈ ps.flatten ++ p ++ [q], NumOk f f.e re y := h.values _ (by rw [hv]; simp)
    have hpq : ∀ y ∈ p ++ [q], NumOk f f.e re y := fun y hy => hvq y (by
      simp only [List.mem_append] at hy ⊢; rcases hy with hy | hy
      · exact Or.inl (Or.inr hy)
      · exact Or.inr hy)
    have hpsq : ∀ x ∈ ps, ∀ y ∈ x, NumOk f f.e re y := fun x hx y hy => hvq y (by
      simp only [List.mem_append]; exact Or.inl (Or.inl (List.mem_flatten.mpr ⟨x, hx, hy⟩)))
    obtain ⟨k, hk⟩ : ∃ k, 13 - (f.e q).length = k + 1 := ⟨13 - (f.e q).length - 1, by have := (hpq q (by simp)).2.1; omega⟩
    rw [hel, eLine_last] at e4 e6
    refine ⟨(hl ++ (gLines f r.b2i ++ gLines f r.b2j ++ gLines f r.b2k ++ (a ++ (gLines f e ++ ps.map (eLine f))))).flatten ++
      (fields (p.map (fun y => (13, f.e y))) ++ List.replicate (13 - (f.e q).length) ' '), ?_, ?_, ?_⟩
    · rw [hw, e6]; simp [List.append_assoc]
    · rw [hk, List.replicate_succ', ← List.append_assoc, ← List.append_assoc, List.getLast?_append]; rfl
    · intro w' hw1 hw0
      obtain ⟨x1, x2⟩ := tokens_cut_line hpq hw1 hw0
      have hlines : ∀ l ∈ hl ++ (gLines f r.b2i ++ gLines f r.b2j ++ gLines f r.b2k ++ (a ++ (gLines f e ++ ps.map (eLine f)))), IsLine l := by
        intro l hm
        rcases List.mem_append.mp hm with hm | hm
        · exact e3 l hm
        · apply e4
          simp only [List.mem_append] at hm ⊢
          tauto
      have hX0 : fields (p.map (fun y => (13, f.e y))) ++ List.replicate (13 - (f.e q).length) ' ' ++ w' ≠ [] := by
        simp [hw0]
      rw [List.append_assoc]
      generalize fields (p.map (fun y => (13, f.e y))) ++ List.replicate (13 - (f.e q).length) ' ' ++ w' = X at x1 x2 hX0 ⊢
      have hfl : fileLines ((hl ++ (gLines f r.b2i ++ gLines f r.b2j ++ gLines f r.b2k ++ (a ++ (gLines f e ++ ps.map (eLine f))))).flatten ++ X) =
          hl ++ (gLines f r.b2i ++ (gLines f r.b2j ++ (gLines f r.b2k ++ (a ++ (gLines f e ++ (ps.map (eLine f) ++ [X])))))) := by
        rw [fileLines_flatten _ hlines, fileLines_noNl x2, if_neg hX0]; simp [List.append_assoc]
      have k1 : (rounded rg re r).header.ncx = r.header.ncx := rfl
      have k2 : (rounded rg re r).header.ncy = r.header.ncy := rfl
      have k3 : (rounded rg re r).header.ncz = r.header.ncz := rfl
      have k4 : (rounded rg re r).header.ni = r.header.ni := rfl
      have k5 : (rounded rg re r).header.ne = r.header.ne := rfl
      have k6 : (rounded rg re r).header.nfx * (rounded rg re r).header.nfy * (rounded rg re r).header.nfz
        = r.header.nfx * r.header.nfy * r.header.nfz := rfl
      have hnv := h.nvals
      rw [he, hv, List.map_append, List.map_append] at hnv
      obtain ⟨hn1, hn2⟩ := List.append_inj hnv (by simp [hl2])
      have hn2 : (((ps.flatten ++ p ++ [q]).length : ℕ) : ℤ) = r.header.nfx * r.header.nfy * r.header.nfz * (e.length : ℤ) := by
        simpa using hn2
      have hb := readBlock3_more (rg := rg) (re := re) hn1 (fun x hx => h.energies x (by rw [he]; exact List.mem_append_left _ hx))
        (fun x hx => h.values x (by rw [hv]; exact List.mem_append_left _ hx)) ha 1 [(e.length : ℤ)]
        (gLines f e ++ (ps.map (eLine f) ++ [X]))
      have hlast : readBlock3 f (r.header.nfx * r.header.nfy * r.header.nfz) 1 [(e.length : ℤ)] (gLines f e ++ (ps.map (eLine f) ++ [X])) =
          match f.num w' with
          | none => .error .valueError
          | some x => .ok ([e.map rg], [ps.flatten.map re ++ p.map re ++ [x]]) := by
        simp only [readBlock3]
        rw [readUntil_g f rg e (h.energies e (by rw [he]; simp)) _ rfl]
        simp only
        rw [readUntil_last hne hpsq (fun y hy => hpq y (List.mem_append_left _ hy)) x1 [] (by
          rw [← hn2]; simp [List.length_append]; ring)]
        cases hnum : f.num w' <;> simp
      unfold parse
      rw [hfl, e5]
      simp only [k1, k2, k3, k4, k5, k6]
      rw [readUntil_g f rg r.b2i h.b2i.2 _ h.b2i.1.symm]
      simp only
      rw [readUntil_g f rg r.b2j h.b2j.2 _ h.b2j.1.symm]
      simp only
      rw [readUntil_g f rg r.b2k h.b2k.2 _ h.b2k.1.symm]
      simp only
      have k7 : r.header.ni.toNat = ess.length + 1 := by rw [h.particles, he]; simp
      have k8 : r.header.ne = ess.map (fun es => (es.length : ℤ)) ++ [(e.length : ℤ)] := by rw [h.ne, he]; simp
      rw [k7, k8, hb, hlast]
      cases hnum : f.num w' with
      | none => rfl
      | some x =>
        simp only [withLast, rounded, hv, he, List.map_append, List.map_cons, List.map_nil, List.dropLast_concat]
        congr 2
        simp

/-! ## C198 -/

/-- **C198** (partial: a cut inside the very last number may be read). For every window that can be written, and every initial part of its
file: a part that has lost a whole number, be it in the header or the data, is never read as a window; any other part ends
inside the last number, and is refused or read as the window with that last number replaced by what is left of it. Nothing else of the
window is ever changed. -/
theorem cut_refused_partial {f : NumFmt} {rg re : ℚ → ℚ} {r : ParseResult} (h : Writable f rg re r) {vss : List (List ℚ)} {v : List ℚ}
    {q : ℚ} (hv : r.values = vss ++ [v ++ [q]]) {text : Str} (hw : write f r = .ok text) {cut : Str} (hc : cut <+: text) :
    ((tokens cut).length < (tokens text).length → ∃ e, parse f cut = .error e) ∧
      ((tokens cut).length = (tokens text).length → (∃ e, parse f cut = .error e) ∨
        ∃ w' x, w' ≠ [] ∧ w' <+: f.e q ∧ f.num w' = some x ∧ parse f cut = .ok (withLast (rounded rg re r) x)) := by
  refine ⟨cut_body h hw hc, fun hlen => ?_⟩
  obtain ⟨pre, p1, p2, p3⟩ := cut_last h hv
  rw [hw] at p1
  cases p1
  have hq : NumOk f f.e re q := h.values (v ++ [q]) (by rw [hv]; simp) q (by simp)
  obtain ⟨pre', rfl⟩ : ∃ pre', pre = pre' ++ [' '] := by
    have hne : pre ≠ [] := by rintro rfl; simp at p2
    have e := List.dropLast_append_getLast hne
    rw [List.getLast?_eq_getLast_of_ne_nil hne] at p2
    injection p2 with p2
    rw [p2] at e
    exact ⟨_, e.symm⟩
  have htok : ∀ s, tokens (pre' ++ [' '] ++ s) = tokens (pre' ++ [' ']) ++ tokens s := by
    intro s
    rw [List.append_assoc, List.singleton_append, tokens_append_space pre' (by decide), tokens_append_space pre' (by decide), tokens_nil,
      List.append_nil]
  have hwn : tokens (f.e q ++ ['\n']) = [f.e q] := by
    rw [tokens_word hq.1 (Or.inr (by decide))]; rfl
  by_cases hl : cut.length ≤ (pre' ++ [' ']).length
  · have hpre : cut <+: pre' ++ [' '] :=
      List.prefix_of_prefix_length_le hc (by rw [List.append_assoc (pre' ++ [' '])]; exact List.prefix_append _ _) hl
    have := tokens_prefix_length hpre
    rw [List.append_assoc (pre' ++ [' ']), htok, hwn, List.length_append] at hlen
    simp at hlen; omega
  · have hpre : pre' ++ [' '] <+: cut :=
      List.prefix_of_prefix_length_le (by rw [List.append_assoc (pre' ++ [' '])]; exact List.prefix_append _ _) hc (by omega)
    obtain ⟨u, rfl⟩ := hpre
    rw [List.append_assoc (pre' ++ [' '])] at hc
    have hu := (List.prefix_append_right_inj _).mp hc
    have hu0 : u ≠ [] := by rintro rfl; simp at hl
    by_cases hul : u.length ≤ (f.e q).length
    · have hu' : u <+: f.e q := List.prefix_of_prefix_length_le hu (List.prefix_append _ _) hul
      have := p3 u hu' hu0
      cases hn : f.num u with
      | none => simp only [hn] at this; exact Or.inl ⟨_, this⟩
      | some x => simp only [hn] at this; exact Or.inr ⟨u, x, hu0, hu', hn, this⟩
    · have : u = f.e q ++ ['\n'] := by
        apply hu.eq_of_length
        have := hu.length_le
        simp only [List.length_append, List.length_singleton] at this ⊢; omega
      subst this
      right
      refine ⟨f.e q, re q, hq.1.1, List.prefix_refl _, hq.2.2, ?_⟩
      have whole := p3 (f.e q) (List.prefix_refl _) hq.1.1
      rw [hq.2.2] at whole
      obtain ⟨text', t1, t2⟩ := c03_roundtrip f rg re r h
      rw [hw] at t1
      cases t1
      rw [← List.append_assoc, t2]
      simp only [withLast, rounded, hv, List.map_append, List.map_cons, List.map_nil, List.dropLast_concat]
      congr 2
      simp

/-- a cut that loses the newline at the end of the file only loses nothing -/
theorem cut_newline {f : NumFmt} {rg re : ℚ → ℚ} {r : ParseResult} (h : Writable f rg re r) {vss : List (List ℚ)} {v : List ℚ}
    {q : ℚ} (hv : r.values = vss ++ [v ++ [q]]) {cut : Str} (hw : write f r = .ok (cut ++ ['\n'])) :
    parse f cut = .ok (rounded rg re r) := by
  obtain ⟨pre, p1, p2, p3⟩ := cut_last h hv
  rw [hw] at p1
  have := List.append_inj_left' (Except.ok.inj p1) rfl
  subst this
  have hq : NumOk f f.e re q := h.values (v ++ [q]) (by rw [hv]; simp) q (by simp)
  have whole := p3 (f.e q) (List.prefix_refl _) hq.1.1
  rw [hq.2.2] at whole
  rw [whole]
  simp only [withLast, rounded, hv, List.map_append, List.map_cons, List.map_nil, List.dropLast_concat]
  congr 2
  simp

/-! ## The reader hangs on a file that was cut between two lines -/

theorem readUntil_numeric {f : NumFmt} {n : ℤ} {acc : List ℚ} {ls : List Str} (hf : ∀ l ∈ ls, ∃ qs, floats f (tokens l) = .ok qs) :
    readUntil f n acc ls = .error .diverges ∨ ∃ qs rest, readUntil f n acc ls = .ok (qs, rest) ∧ ∀ l ∈ rest, l ∈ ls := by
  induction ls generalizing acc with
  | nil =>
    unfold readUntil
    split
    · exact Or.inl rfl
    · exact Or.inr ⟨acc, [], rfl, by simp⟩
  | cons l ls ih =>
    unfold readUntil
    split
    · obtain ⟨qs, hq⟩ := hf l (by simp)
      simp only [hq]
      rcases ih (acc := acc ++ qs) (fun l hl => hf l (List.mem_cons_of_mem _ hl)) with h | ⟨a, b, h, hb⟩
      · exact Or.inl h
      · exact Or.inr ⟨a, b, h, fun l hl => List.mem_cons_of_mem _ (hb l hl)⟩
    · exact Or.inr ⟨acc, l :: ls, rfl, fun l hl => hl⟩

theorem readBlock3_numeric {f : NumFmt} {nvox : ℤ} {n : ℕ} {nes : List ℤ} {ls : List Str} (hn : n ≤ nes.length)
    (hf : ∀ l ∈ ls, ∃ qs, floats f (tokens l) = .ok qs) :
    readBlock3 f nvox n nes ls = .error .diverges ∨ ∃ o, readBlock3 f nvox n nes ls = .ok o := by
  induction n generalizing nes ls with
  | zero => exact Or.inr ⟨([], []), by simp only [readBlock3]⟩
  | succ n ih =>
    cases nes with
    | nil => simp at hn
    | cons ne nes =>
      simp only [readBlock3]
      rcases readUntil_numeric (n := ne) (acc := []) hf with h1 | ⟨es, l1, h1, m1⟩
      · simp [h1]
      · simp only [h1]
        have hf1 : ∀ l ∈ l1, ∃ qs, floats f (tokens l) = .ok qs := fun l hl => hf l (m1 l hl)
        rcases readUntil_numeric (n := nvox * ne) (acc := []) hf1 with h2 | ⟨vs, l2, h2, m2⟩
        · simp [h2]
        · simp only [h2]
          rcases ih (nes := nes) (by simpa using hn) (fun l hl => hf1 l (m2 l hl)) with h3 | ⟨o, h3⟩
          · simp [h3]
          · right; simp [h3]

/-- a file whose header is complete and whose other lines hold numbers only is read, or the reader loops for ever -/
theorem parse_numeric {f : NumFmt} {text : Str} {hd : Header} {rest : List Str} (hp : parseHeader f (fileLines text) = .ok (hd, rest))
    (hn : hd.ni.toNat ≤ hd.ne.length) (hf : ∀ l ∈ rest, ∃ qs, floats f (tokens l) = .ok qs) :
    parse f text = .error .diverges ∨ ∃ o, parse f text = .ok o := by
  unfold parse
  simp only [hp]
  rcases readUntil_numeric (n := 3 * hd.ncx + 1) (acc := []) hf with h1 | ⟨bi, l1, h1, m1⟩
  · simp [h1]
  · simp only [h1]
    have hf1 : ∀ l ∈ l1, ∃ qs, floats f (tokens l) = .ok qs := fun l hl => hf l (m1 l hl)
    rcases readUntil_numeric (n := 3 * hd.ncy + 1) (acc := []) hf1 with h2 | ⟨bj, l2, h2, m2⟩
    · simp [h2]
    · simp only [h2]
      have hf2 : ∀ l ∈ l2, ∃ qs, floats f (tokens l) = .ok qs := fun l hl => hf1 l (m2 l hl)
      rcases readUntil_numeric (n := 3 * hd.ncz + 1) (acc := []) hf2 with h3 | ⟨bk, l3, h3, m3⟩
      · simp [h3]
      · simp only [h3]
        rcases readBlock3_numeric (nvox := hd.nfx * hd.nfy * hd.nfz) hn (fun l hl => hf2 l (m3 l hl)) with h4 | ⟨o, h4⟩
        · simp [h4]
        · right; simp [h4]

/-- a line of the data holds numbers, one at least -/
theorem line_numeric {f : NumFmt} {rg re : ℚ → ℚ} {v : List ℚ} :
    ((∀ q ∈ v, NumOk f f.g rg q) → ∀ l ∈ gLines f v, (∃ qs, floats f (tokens l) = .ok qs) ∧ tokens l ≠ []) ∧
      ((∀ q ∈ v, NumOk f f.e re q) → ∀ l ∈ eLines f v, (∃ qs, floats f (tokens l) = .ok qs) ∧ tokens l ≠ []) := by
  refine ⟨fun h l hl => ?_, fun h l hl => ?_⟩
  · obtain ⟨p, hp, rfl⟩ := List.mem_map.mp hl
    have hq : ∀ q ∈ p, NumOk f f.g rg q := fun q hq => h q (mem_packs hp hq)
    rw [tokens_gLine f rg p hq]
    exact ⟨⟨_, floats_ok f f.g rg p hq⟩, by simpa using packs6_ne v p hp⟩
  · obtain ⟨p, hp, rfl⟩ := List.mem_map.mp hl
    have hq : ∀ q ∈ p, NumOk f f.e re q := fun q hq => h q (mem_packs hp hq)
    rw [tokens_eLine f re p hq]
    exact ⟨⟨_, floats_ok f f.e re p hq⟩, by simpa using packs6_ne v p hp⟩

theorem block3_numeric {f : NumFmt} {rg re : ℚ → ℚ} {es vs : List (List ℚ)} {bl : List Str}
    (he : ∀ x ∈ es, ∀ q ∈ x, NumOk f f.g rg q) (hv : ∀ x ∈ vs, ∀ q ∈ x, NumOk f f.e re q)
    (hb : block3Lines f es vs = .ok bl) : ∀ l ∈ bl, (∃ qs, floats f (tokens l) = .ok qs) ∧ tokens l ≠ [] := by
  induction es generalizing vs bl with
  | nil => cases hb; simp
  | cons e es ih =>
    cases vs with
    | nil => cases hb
    | cons v vs =>
      simp only [block3Lines] at hb
      cases hb' : block3Lines f es vs with
      | error x => simp only [hb'] at hb; cases hb
      | ok bl' =>
        simp only [hb'] at hb
        cases hb
        intro l hl
        simp only [List.mem_append] at hl
        rcases hl with (hl | hl) | hl
        · exact (line_numeric (rg := rg) (re := re)).1 (he e (by simp)) l hl
        · exact (line_numeric (rg := rg) (re := re)).2 (hv v (by simp)) l hl
        · exact ih (fun x hx => he x (List.mem_cons_of_mem _ hx)) (fun x hx => hv x (List.mem_cons_of_mem _ hx)) hb' l hl

theorem count_lines (ls : List Str) (h : ∀ l ∈ ls, IsLine l) : ls.flatten.count '\n' = ls.length := by
  induction ls with
  | nil => rfl
  | cons l ls ih =>
    obtain ⟨b, hb, hb'⟩ := h l (by simp)
    have : b.count '\n' = 0 := List.count_eq_zero.mpr (fun hm => hb' _ hm rfl)
    rw [List.flatten_cons, List.count_append, ih (fun l hl => h l (List.mem_cons_of_mem _ hl)), hb, List.count_append, this]
    simp; omega

/-- **C198** (the reader hangs). A written window file that was cut between two lines, after its header (four lines, five for a
cylindrical mesh), is neither read nor refused: the reader never returns. -/
theorem cut_hangs {f : NumFmt} {rg re : ℚ → ℚ} {r : ParseResult} (h : Writable f rg re r) {text : Str} (hw : write f r = .ok text)
    {cut : Str} (hc : cut <+: text) (hne : cut ≠ text) (hnl : cut.getLast? = some '\n')
    (hhead : (if r.header.nr = 10 then 4 else 5) ≤ cut.count '\n') : parse f cut = .error .diverges := by
  obtain ⟨hl, bl, e1, e2, e3, e4, e5, rfl⟩ := write_lines h hw
  obtain ⟨L1, L2, L3, L4, TL, f1, _, _, _, _, f6⟩ := header_lines h
  rw [e1] at f1
  have hhl : hl.length = if r.header.nr = 10 then 4 else 5 := by
    obtain rfl := Except.ok.inj f1
    simp only [List.length_cons, f6]
    split <;> rfl
  have hall : ∀ l ∈ hl ++ (gLines f r.b2i ++ gLines f r.b2j ++ gLines f r.b2k ++ bl), IsLine l := by
    intro l hm
    rcases List.mem_append.mp hm with hm | hm
    · exact e3 l hm
    · exact e4 l hm
  rw [← List.flatten_append] at hc hne
  rcases cut_lines _ hall hc with rfl | ⟨ls1, l, ls2, part, d1, d2, d3, rfl⟩
  · exact absurd rfl hne
  · have hpart : part = [] := by
      by_contra h0
      rw [List.getLast?_append_of_ne_nil _ h0, List.getLast?_eq_getLast_of_ne_nil h0] at hnl
      injection hnl with hnl
      exact d3 _ (List.getLast_mem h0) hnl
    subst hpart
    rw [List.append_nil] at hc hne hhead ⊢
    have hl1 : ∀ l ∈ ls1, IsLine l := fun m hm => hall m (by rw [d1]; exact List.mem_append_left _ hm)
    rw [count_lines ls1 hl1, ← hhl] at hhead
    have hpre : hl <+: ls1 := by
      refine List.prefix_of_prefix_length_le (List.prefix_append hl (gLines f r.b2i ++ gLines f r.b2j ++ gLines f r.b2k ++ bl)) ?_ hhead
      rw [d1]; exact List.prefix_append _ _
    obtain ⟨b1, rfl⟩ := hpre
    rw [List.append_assoc hl b1] at d1
    have d1 := List.append_cancel_left d1
    have hnum : ∀ m ∈ gLines f r.b2i ++ gLines f r.b2j ++ gLines f r.b2k ++ bl,
        (∃ qs, floats f (tokens m) = .ok qs) ∧ tokens m ≠ [] := by
      intro m hm
      simp only [List.mem_append] at hm
      rcases hm with ((hm | hm) | hm) | hm
      · exact (line_numeric (rg := rg) (re := re)).1 h.b2i.2 m hm
      · exact (line_numeric (rg := rg) (re := re)).1 h.b2j.2 m hm
      · exact (line_numeric (rg := rg) (re := re)).1 h.b2k.2 m hm
      · exact block3_numeric h.energies h.values e2 m hm
    have hb1 : ∀ m ∈ b1, IsLine m := fun m hm => hl1 m (List.mem_append_right _ hm)
    have hfl : fileLines (hl ++ b1).flatten = hl ++ b1 := by
      have := fileLines_flatten _ hl1 []
      rw [List.append_nil] at this
      rw [this]; simp [fileLines]
    have hh := e5 b1
    rw [← hfl] at hh
    rcases parse_numeric hh (by
      have k4 : (rounded rg re r).header.ni = r.header.ni := rfl
      have k5 : (rounded rg re r).header.ne = r.header.ne := rfl
      rw [k4, k5, h.particles, h.ne]; simp) (fun m hm => (hnum m (by rw [d1]; exact List.mem_append_left _ hm)).1) with h1 | ⟨o, h1⟩
    · exact h1
    · exfalso
      have hlt : (tokens (hl ++ b1).flatten).length <
          (tokens (hl.flatten ++ (gLines f r.b2i ++ gLines f r.b2j ++ gLines f r.b2k ++ bl).flatten)).length := by
        have t1 := tokens_lines (hl ++ b1) hl1 []
        have t2 := tokens_lines _ hall []
        rw [List.append_nil, tokens_nil, List.append_nil] at t1 t2
        rw [← List.flatten_append, t1, t2, d1, ← List.append_assoc, List.map_append, List.map_append (l₁ := hl ++ b1), List.flatten_append,
          List.flatten_append, List.map_cons, List.flatten_cons]
        have h0 : 0 < (tokens l).length := List.length_pos_of_ne_nil (hnum l (by rw [d1]; simp)).2
        simp only [List.length_append, List.map_append, List.flatten_append]
        omega
      obtain ⟨e, he⟩ := cut_body h hw (by rw [← List.flatten_append]; exact hc) hlt
      rw [h1] at he
      cases he

/-! ## With the numbers as Python prints them -/

theorem mantissa_read {m : ℕ} (hm : m < 10 ^ 5) (q : ℚ) :
    parseFloat (signStr q ++ fixStr 4 m) = some ((if q < 0 then -1 else 1) * ((m : ℚ) * (10 : ℚ) ^ (-(4 : ℤ)))) ∧
      ∀ e : ℤ, signStr q ++ fixStr 4 m <+: signStr q ++ sciStr 'E' 2 4 m e := by
  have hd : m / 10 ^ 4 < 10 := by omega
  have hnat : natStr (m / 10 ^ 4) = [digitChar (m / 10 ^ 4)] := by
    generalize m / 10 ^ 4 = d at hd
    rcases (by omega : d = 0 ∨ d = 1 ∨ d = 2 ∨ d = 3 ∨ d = 4 ∨ d = 5 ∨ d = 6 ∨ d = 7 ∨ d = 8 ∨ d = 9) with
      rfl | rfl | rfl | rfl | rfl | rfl | rfl | rfl | rfl | rfl <;> rfl
  have hsci : ∀ e : ℤ, sciStr 'E' 2 4 m e = fixStr 4 m ++ 'E' :: (if e < 0 then '-' else '+') :: padZeros 2 e.natAbs := by
    intro e; rw [sciStr, fixStr, hnat]; simp
  constructor
  · refine parseFloat_signed ?_ ?_ (parse_fixStr 4 m) (by simp [fixStr])
    · intro c hc
      exact sciStr_chars (e := 0) (w := 2) (p := 4) (m := m) (Or.inr rfl) hm c (by rw [hsci]; exact List.mem_append_left _ hc)
    · intro c t hct
      rw [fixStr, hnat] at hct
      simp only [List.cons_append, List.cons.injEq] at hct
      rw [← hct.1]; exact isDigit_digitChar hd
  · intro e
    rw [hsci, ← List.append_assoc]
    exact List.prefix_append _ _

/-- **C198** (the exception is real). Every window file written by the tool, cut before the exponent of its last number, is read without a
word: the last weight is the mantissa of the one written, between 1 and 10 whatever its magnitude was. -/
theorem cut_exponent {r : ParseResult} (h : FileFits r) {vss : List (List ℚ)} {v : List ℚ} {q : ℚ} (hv : r.values = vss ++ [v ++ [q]]) :
    ∃ text cut x, write pyFmt r = .ok text ∧ cut <+: text ∧ cut ≠ text ∧ (∃ e : ℤ, five q = x * (10 : ℚ) ^ e) ∧ |x| < 10 ∧
      (q ≠ 0 → 1 ≤ |x|) ∧ parse pyFmt cut = .ok (withLast (rounded five five r) x) := by
  obtain ⟨pre, p1, _, p3⟩ := cut_last (fits_writable h) hv
  obtain ⟨m1, m2⟩ := sciParts_digits 4 q
  obtain ⟨r1, r2⟩ := mantissa_read (m := (sciParts 4 q).1) (by simpa using m1) q
  have hpre : signStr q ++ fixStr 4 (sciParts 4 q).1 <+: pyFmt.e q := r2 _
  have hread := p3 _ hpre (by simp [fixStr])
  have hnum : pyFmt.num (signStr q ++ fixStr 4 (sciParts 4 q).1) = _ := r1
  rw [hnum] at hread
  have habs : |(if q < 0 then (-1 : ℚ) else 1)| = 1 := by split <;> simp
  refine ⟨_, _, _, p1, ?_, ?_, ⟨(sciParts 4 q).2, ?_⟩, ?_, ?_, hread⟩
  · rw [List.append_assoc]
    exact (List.prefix_append_right_inj _).mpr (hpre.trans (List.prefix_append _ _))
  · intro h0
    have := congrArg List.length h0
    have l := hpre.length_le
    simp only [List.length_append, List.length_singleton] at this l
    omega
  · rw [five, roundSig, mul_assoc, mul_assoc, mul_assoc, ← zpow_add₀ (by norm_num)]
    congr 3
    push_cast; ring
  · rw [abs_mul, habs, one_mul, abs_of_nonneg (by positivity)]
    have : ((sciParts 4 q).1 : ℚ) < 10 ^ 5 := by exact_mod_cast m1
    norm_num
    linarith
  · intro hq
    rw [abs_mul, habs, one_mul, abs_of_nonneg (by positivity)]
    have : (10 : ℚ) ^ 4 ≤ ((sciParts 4 q).1 : ℚ) := by exact_mod_cast m2 hq
    norm_num
    linarith

/-! ### a concrete instance -/

/-- a cylindrical window of two particles, its last weight 80000 (example) -/
def cutWindow : ParseResult := { toyWindow with values := [[1, 2, 3, 4, 5, 6, 7000.0001], [80000]] }

theorem cutWindow_fits : FileFits cutWindow := by
  refine ⟨by decide, ⟨["Created".toList, "by".toList, "f4enix_ww".toList], by decide, by decide, by decide⟩, by decide, ⟨rfl, inRange_all (by decide +kernel)⟩,
    Or.inr ⟨by decide, _, _, rfl, rfl, rfl, inRange_all (by decide +kernel)⟩, ⟨rfl, inRange_all (by decide +kernel)⟩, ⟨rfl, inRange_all (by decide +kernel)⟩,
    ⟨rfl, inRange_all (by decide +kernel)⟩, rfl, by decide, by decide, ?_, ?_⟩
  · intro es hes
    simp only [cutWindow, toyWindow, List.mem_cons, List.not_mem_nil, or_false] at hes
    rcases hes with rfl | rfl <;> exact inRange_all (by decide +kernel)
  · intro es hes
    simp only [cutWindow, List.mem_cons, List.not_mem_nil, or_false] at hes
    rcases hes with rfl | rfl <;> exact inRange_all (by decide +kernel)

/-- the hypotheses of `cut_refused_partial` and `cut_exponent` are met by it -/
example : Writable pyFmt five five cutWindow ∧ cutWindow.values = [[1, 2, 3, 4, 5, 6, 7000.0001]] ++ [[] ++ [80000]] :=
  ⟨fits_writable cutWindow_fits, rfl⟩

/-- its file without the last five characters (`8.0000`) or the last ten (`8`) is read, and the last weight is 8; without the last eleven
the reader hangs; without the last three (`8.0000E+`) it is a `ValueError`; cut in the header it is an `IndexError` -/
example : (match write pyFmt cutWindow with
    | .error _ => false
    | .ok text =>
      (match parse pyFmt (text.take (text.length - 5)) with
        | .ok r => decide (r.values = [[1, 2, 3, 4, 5, 6, 7000], [8]])
        | _ => false) &&
      (match parse pyFmt (text.take (text.length - 10)) with
        | .ok r => decide (r.values = [[1, 2, 3, 4, 5, 6, 7000], [8]])
        | _ => false) &&
      (match parse pyFmt (text.take (text.length - 11)) with
        | .error .diverges => true
        | _ => false) &&
      (match parse pyFmt (text.take (text.length - 3)) with
        | .error .valueError => true
        | _ => false) &&
      (match parse pyFmt (text.take 200) with
        | .error .indexError => true
        | _ => false) &&
      (match parse pyFmt (text.take 420) with
        | .error .diverges => true
        | _ => false)) = true := by
  decide +kernel

end F4Enix.WW
