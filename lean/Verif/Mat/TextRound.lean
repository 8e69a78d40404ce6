import Verif.Mat.TextProps
/-!
# Material cards: what is read wrongly (C109), and writing then reading (C110)
-/
namespace F4Enix.Mat
open F4Enix F4Enix.Write

/-! ### C109: what is not read as it stands -/

/-- **C109 (false for a pair broken over two lines).** A zaid at the end of a line is dropped, whatever the next
line says. -/
theorem broken_pair (num : Str → Option ℚ) {l w : Str} {ps : List (Str × Str × ℚ)} (hl : l ≠ [])
    (hw : (tokens l).takeWhile (fun w => !isDollar w) = ps.flatMap (fun p => [p.1, p.2.1]) ++ [w])
    (h : ∀ p ∈ ps, startsDigit p.1 = true ∧ num p.2.1 = some p.2.2) (hd : startsDigit w = true) :
    readLine num l = .ok (ps.map (fun p => fromString p.1 p.2.2), none) := by
  rw [readLine_tokens num hl, hw]
  clear hw
  induction ps with
  | nil => simp [readPairs, hd]
  | cons p ps ih =>
    obtain ⟨d1, d2⟩ := h p (by simp)
    rw [List.flatMap_cons, List.append_assoc]
    show readPairs num (p.1 :: p.2.1 :: ([] ++ _)) = _
    simp only [readPairs, d1, if_true, d2, List.nil_append]
    rw [ih (fun q hq => h q (List.mem_cons_of_mem _ hq))]
    rfl

/-- **C109 (false for an indented comment).** All its words become keywords of the material. -/
theorem indented_comment (num : Str → Option ℚ) {l : Str} {w : Str} {ws : List Str} (hl : l ≠ [])
    (h : (tokens l).takeWhile (fun w => !isDollar w) = w :: ws) (hw : startsDigit w = false) :
    readLine num l = .ok ([], some (w :: ws)) := by
  rw [readLine_tokens num hl, h]
  cases ws with
  | nil => simp [readPairs, hw]
  | cons x xs => simp [readPairs, hw]

/-- **C109 (false for keywords under the name).** When the part under the name has keywords but no zaid, the
keywords are lost: the material is read as if they were not there. -/
theorem keywords_lost (num : Str → Option ℚ) (text hs : List Str) (l nm rest : Str) (body : List Str)
    (ks0 ks : List Str) (gs : List Group)
    (ht : text.map delCR = hs ++ l :: (body ++ gs.flatMap Group.lines))
    (hh : ∀ l ∈ hs, isComm l = true) (hn : NameLine l nm rest) (h0 : LineSays num rest [] ks0)
    (hb : ∀ l ∈ body, BodyLine l) (hbs : BodySays num body [] ks) (hg : ∀ g ∈ gs, GroupOk num g) :
    matFromText num text = .ok ⟨nm, some hs.flatten, gs.map Group.read, []⟩ := by
  rw [material_read_partial num text hs l nm rest body [] [] ks0 ks gs ht hh hn h0 hb hbs hg]
  simp

/-- **C109 (false for a comment at the end).** A card that ends with comment lines is refused
(`UnboundLocalError`). -/
theorem comment_at_end (num : Str → Option ℚ) (text hs : List Str) (l nm rest : Str) (body : List Str)
    (zs0 zs : List Zaid) (ks0 ks : List Str) (gs : List Group) (cs : List Str)
    (ht : text.map delCR = hs ++ l :: (body ++ (gs.flatMap Group.lines ++ cs)))
    (hh : ∀ l ∈ hs, isComm l = true) (hn : NameLine l nm rest) (h0 : LineSays num rest zs0 ks0)
    (hb : ∀ l ∈ body, BodyLine l) (hbs : BodySays num body zs ks) (hg : ∀ g ∈ gs, GroupOk num g)
    (hcs : ∀ l ∈ cs, isComm l = true) (hne : cs ≠ []) :
    matFromText num text = .error .unboundLocal := by
  obtain ⟨sp, e, hsp, _, hw⟩ := nameLine_name hn
  have key : ∀ (gs : List Group), (∀ g ∈ gs, GroupOk num g) → ∀ (H : Option Str) (sub : List Str)
      (s : Option Str × SubMat), subFromText num sub = .ok s → ∀ subs : List (Option Str × SubMat),
      matLoop num (gs.flatMap Group.lines ++ cs) H false sub subs = .error .unboundLocal := by
    intro gs
    induction gs with
    | nil =>
      intro _ H sub s hs subs
      cases hc : cs with
      | nil => exact absurd hc hne
      | cons c cs' =>
        rw [hc] at hcs
        have hcc := hcs c (by simp)
        rw [List.flatMap_nil, List.nil_append, matLoop]
        simp only [comm_no_name hcc, Option.isSome_none, Bool.false_eq_true, if_false, hcc, if_true, hs]
        have := loop_comments num cs' [] (fun l hl => hcs l (List.mem_cons_of_mem _ hl)) H [c] (subs ++ [s])
        rw [List.append_nil] at this
        rw [this, matLoop]
        have hd : ([c] ++ cs').dropWhile isComm = [] := by
          rw [List.dropWhile_eq_nil_iff]
          intro x hx; exact hcs x (by simpa using hx)
        unfold subFromText
        rw [hd]
    | cons g gs ih =>
      intro hg H sub s hs subs
      have hgo := hg g (by simp)
      rw [List.flatMap_cons]
      cases hc : g.comments with
      | nil => exact absurd hc hgo.some_comment
      | cons c cs' =>
        have hcc : isComm c = true := hgo.comments c (by rw [hc]; simp)
        cases hb : g.body with
        | nil => exact absurd hb hgo.some_body
        | cons b bs =>
          have hbl : BodyLine b := hgo.body b (by rw [hb]; simp)
          have e : g.lines ++ gs.flatMap Group.lines ++ cs = c :: (cs' ++ b :: (bs ++ (gs.flatMap Group.lines ++ cs))) := by
            unfold Group.lines; rw [hc, hb]; simp
          rw [e, matLoop]
          simp only [comm_no_name hcc, Option.isSome_none, Bool.false_eq_true, if_false, hcc, if_true, hs]
          rw [loop_comments num cs' _ (fun l hl => hgo.comments l (by rw [hc]; simp [hl])), matLoop]
          simp only [hbl.2, Option.isSome_none, Bool.false_eq_true, if_false, if_true, bodyLine_not_comm hbl]
          rw [loop_body num bs _ (fun l hl => hgo.body l (by rw [hb]; simp [hl]))]
          have hgl : [c] ++ cs' ++ [b] ++ bs = g.lines := by unfold Group.lines; rw [hc, hb]; simp
          rw [hgl]
          exact ih (fun g hg' => hg g (List.mem_cons_of_mem _ hg')) _ _ _ (sub_group hgo) _
  unfold matFromText
  rw [ht, loop_comments num hs _ hh, matLoop]
  simp only [e, Option.isSome_some, if_true, nameLine_not_comm hn, List.nil_append]
  rw [loop_body num body _ hb, key gs hg _ _ _ (by
    rw [List.singleton_append]; exact sub_first hn h0 hb hbs)]

/-! ### C110: specification -/

/-- a comment line, without its newline (specification) -/
def IsCommLine (l : Str) : Prop := isComm (endl l) = true ∧ l ≠ [] ∧ ∀ c ∈ l, c ≠ '\n' ∧ c ≠ '\r'

/-- a zaid that can be written on a line of its own (specification) -/
structure ZaidOk (z : Zaid) : Prop where
  canon : Canon z
  word : IsWord z.name
  digit : startsDigit z.name = true
  short : z.name.length < 15

/-- a keyword (specification) -/
structure KeyOk (k : Str) : Prop where
  word : IsWord k
  digit : startsDigit k = false
  dollar : isDollar k = false
  name : matName k = none

/-- a submaterial that can be written: comments `cs`, zaids and keywords, at least one of which (specification) -/
structure SubOk (s : SubMat) (cs : List Str) : Prop where
  header : s.header = some (unl cs)
  comments : ∀ l ∈ cs, IsCommLine l
  zaids : ∀ z ∈ s.written, ZaidOk z
  keys : ∀ k ∈ s.keys, KeyOk k
  some : s.written ≠ [] ∨ s.keys ≠ []

/-- number to text and back: `rnd` is the rounding to seven digits (specification) -/
structure FmtOk (num : Str → Option ℚ) (fmt : ℚ → Str) (rnd : ℚ → ℚ) : Prop where
  word : ∀ q, IsWord (fmt q) ∧ isDollar (fmt q) = false
  back : ∀ q, num (fmt q) = some (rnd q)

/-- the text behind the `$` stays on its line (specification) -/
def InfoOk (info : Zaid → Str) : Prop := ∀ z, ∀ c ∈ info z, c ≠ '\n' ∧ c ≠ '\r'

/-- the material after rounding of its fractions (specification) -/
def rounded (rnd : ℚ → ℚ) (s : SubMat) : SubMat :=
  mkSub (s.written.map (fun z => { z with fraction := rnd z.fraction })) s.header s.keys

/-! ### lines written -/

/-- the line of the keywords (specification) -/
def keyLine (ks : List Str) : Str := '\t' :: ks.flatMap (fun k => ' ' :: k)

/-- the lines of a submaterial below its comments (specification) -/
def bodyOf (fmt : ℚ → Str) (info : Zaid → Str) (s : SubMat) : List Str :=
  s.written.map (zaidLine fmt info) ++ (if s.keys = [] then [] else [keyLine s.keys])

theorem word_no {w : Str} (h : IsWord w) : ∀ c ∈ w, c ≠ '\n' ∧ c ≠ '\r' := by
  intro c hc
  have := h.2 c hc
  constructor <;> (rintro rfl; revert this; decide)

theorem padLeft_no {n : Nat} {w : Str} (h : ∀ c ∈ w, c ≠ '\n' ∧ c ≠ '\r') : ∀ c ∈ padLeft n w, c ≠ '\n' ∧ c ≠ '\r' := by
  intro c hc
  simp only [padLeft, List.mem_append, List.mem_replicate] at hc
  rcases hc with ⟨_, rfl⟩ | hc
  · decide
  · exact h c hc

theorem zaidLine_no {num : Str → Option ℚ} {fmt : ℚ → Str} {rnd : ℚ → ℚ} (hf : FmtOk num fmt rnd) {info : Zaid → Str}
    (hi : InfoOk info) {z : Zaid} (hz : ZaidOk z) :
    zaidLine fmt info z ≠ [] ∧ ∀ c ∈ zaidLine fmt info z, c ≠ '\n' ∧ c ≠ '\r' := by
  constructor
  · simp [zaidLine]
  · have h0 : ∀ c ∈ "     $ ".toList, c ≠ '\n' ∧ c ≠ '\r' := by decide
    intro c hc
    unfold zaidLine at hc
    rcases List.mem_append.1 hc with hc | hc
    · rcases List.mem_append.1 hc with hc | hc
      · rcases List.mem_append.1 hc with hc | hc
        · exact padLeft_no (word_no hz.word) c hc
        · rcases List.mem_cons.1 hc with rfl | hc
          · decide
          · exact padLeft_no (word_no (hf.word z.fraction).1) c hc
      · exact h0 c hc
    · exact hi z c hc

theorem zaidLine_says {num : Str → Option ℚ} {fmt : ℚ → Str} {rnd : ℚ → ℚ} (hf : FmtOk num fmt rnd) (info : Zaid → Str)
    {z : Zaid} (hz : ZaidOk z) :
    BodyLine (endl (zaidLine fmt info z)) ∧
      LineSays num (endl (zaidLine fmt info z)) [{ z with fraction := rnd z.fraction }] [] := by
  have e : endl (zaidLine fmt info z) =
      padLeft 15 z.name ++ (' ' :: (padLeft 18 (fmt z.fraction) ++ (' ' :: ("    ".toList ++ (['$'] ++ ' ' :: (info z ++ ['\n'])))))) := by
    have : "     $ ".toList = ' ' :: ("    ".toList ++ (['$'] ++ [' '])) := by decide
    unfold endl zaidLine
    rw [this]
    simp only [List.append_assoc, List.cons_append, List.nil_append]
  have hst : startsSpace (endl (zaidLine fmt info z)) = true := by
    rw [e]; exact startsSpace_pad hz.short
  have htok : tokens (endl (zaidLine fmt info z)) = z.name :: fmt z.fraction :: ['$'] :: tokens (info z ++ ['\n']) := by
    have h4 : "    ".toList = List.replicate 4 ' ' := by decide
    rw [e, tokens_padLeft hz.word (Or.inr rfl), tokens_space _ isSpace_space,
      tokens_padLeft (hf.word z.fraction).1 (Or.inr rfl), tokens_space _ isSpace_space, h4, tokens_spaces,
      tokens_word (w := ['$']) (by decide) (Or.inr rfl), tokens_space _ isSpace_space]
  refine ⟨⟨hst, ?_⟩, ?_⟩
  · unfold matName
    have hd : (endl (zaidLine fmt info z)).dropWhile isSpace = z.name ++ (' ' :: (padLeft 18 (fmt z.fraction) ++
        (' ' :: ("    ".toList ++ (['$'] ++ ' ' :: (info z ++ ['\n'])))))) := by
      rw [e]
      unfold padLeft
      rw [List.append_assoc]
      have := lstrip_spaces (sp := List.replicate (15 - z.name.length) ' ') (s := z.name ++ (' ' :: (padLeft 18 (fmt z.fraction) ++
        (' ' :: ("    ".toList ++ (['$'] ++ ' ' :: (info z ++ ['\n']))))))) (by
          intro c hc; rw [List.mem_replicate] at hc; rw [hc.2]; decide)
      unfold lstrip padLeft at this
      rw [this]
      exact lstrip_of_not_startsSpace (startsSpace_word_append hz.word)
    rw [hd]
    cases hn : z.name with
    | nil => exact absurd hn hz.word.1
    | cons c cs =>
      have hdg : isDigit c = true := by have := hz.digit; rw [hn] at this; exact this
      simp only [List.cons_append]
      rw [if_neg]
      simp only [Bool.and_eq_true, Bool.or_eq_true, beq_iff_eq]
      rintro ⟨rfl | rfl, _⟩ <;> (revert hdg; decide)
  · refine ⟨[fmt z.fraction], .cons (hf.back z.fraction) .nil, ?_, ?_, by simp⟩
    · have h1 : isDollar z.name = false := by
        cases hn : z.name with
        | nil => rfl
        | cons c cs =>
          have hdg : isDigit c = true := by have := hz.digit; rw [hn] at this; exact this
          unfold isDollar
          split
          · rename_i h; rw [(List.cons.inj h).1] at hdg; revert hdg; decide
          · rfl
      have h2 := (hf.word z.fraction).2
      rw [htok, List.takeWhile_cons, List.takeWhile_cons, List.takeWhile_cons, h1, h2]
      simp [isDollar, Zaid.name, Zaid.num]
    · intro y hy
      simp only [List.mem_singleton] at hy
      subst hy
      have hc := hz.canon
      exact ⟨⟨hc.elementDot, hc.isotopeDot, hc.libraryDot, hc.isotopeLen⟩, hz.digit⟩

theorem tokens_keys {ks : List Str} (h : ∀ k ∈ ks, IsWord k) :
    tokens (ks.flatMap (fun k => ' ' :: k) ++ ['\n']) = ks := by
  induction ks with
  | nil => decide
  | cons k ks ih =>
    rw [List.flatMap_cons, List.append_assoc, List.cons_append, tokens_space _ isSpace_space, tokens_word (h k (by simp)),
      ih (fun x hx => h x (List.mem_cons_of_mem _ hx))]
    right
    cases ks <;> rfl

theorem keyLine_says {num : Str → Option ℚ} {ks : List Str} (hne : ks ≠ []) (h : ∀ k ∈ ks, KeyOk k) :
    BodyLine (endl (keyLine ks)) ∧ LineSays num (endl (keyLine ks)) [] ks := by
  have htok : tokens (endl (keyLine ks)) = ks := by
    unfold endl keyLine
    rw [List.cons_append, tokens_space _ (by decide)]
    exact tokens_keys (fun k hk => (h k hk).word)
  refine ⟨⟨rfl, ?_⟩, [], .nil, ?_, by simp, ?_⟩
  · cases ks with
    | nil => exact absurd rfl hne
    | cons k ks =>
      have hk := h k (by simp)
      have hd : ∀ s, (k ++ s).dropWhile isSpace = k ++ s := fun s =>
        lstrip_of_not_startsSpace (startsSpace_word_append hk.word)
      have hd0 := hd []
      rw [List.append_nil] at hd0
      have hnm := hk.name
      unfold matName at hnm ⊢
      unfold endl keyLine
      rw [List.flatMap_cons, List.cons_append, List.dropWhile_cons, if_pos (by decide), List.append_assoc,
        List.cons_append, List.dropWhile_cons, if_pos (by decide), hd]
      rw [hd0] at hnm
      cases hkk : k with
      | nil => exact absurd hkk hk.word.1
      | cons c cs =>
        rw [hkk] at hnm
        simp only at hnm
        simp only [List.cons_append]
        rw [if_neg]
        intro hcon
        simp only [Bool.and_eq_true] at hcon
        cases cs with
        | nil =>
          have h2 := hcon.2
          cases ks with
          | nil => revert h2; decide
          | cons x xs =>
            have : isDigit ' ' = true := h2
            revert this; decide
        | cons d ds =>
          have : startsDigit (d :: ds) = true := hcon.2
          rw [if_pos (by rw [hcon.1, this]; rfl)] at hnm
          cases hnm
  · rw [htok]
    simp only [List.zip_nil_left, List.flatMap_nil, List.nil_append]
    rw [List.takeWhile_eq_self_iff]
    intro k hk
    simp [(h k hk).dollar]
  · intro k hk
    exact (h k (List.mem_of_mem_head? hk)).digit

theorem keyLine_no {ks : List Str} (h : ∀ k ∈ ks, KeyOk k) :
    keyLine ks ≠ [] ∧ ∀ c ∈ keyLine ks, c ≠ '\n' ∧ c ≠ '\r' := by
  refine ⟨by simp [keyLine], ?_⟩
  intro c hc
  unfold keyLine at hc
  rcases List.mem_cons.1 hc with rfl | hc
  · decide
  · obtain ⟨k, hk, hc⟩ := List.mem_flatMap.1 hc
    rcases List.mem_cons.1 hc with rfl | hc
    · decide
    · exact word_no (h k hk).word c hc

theorem bodySays_append {num : Str → Option ℚ} {a b : List Str} {za zb : List Zaid} {ka kb : List Str}
    (ha : BodySays num a za ka) (hb : BodySays num b zb kb) : BodySays num (a ++ b) (za ++ zb) (ka ++ kb) := by
  induction ha with
  | nil => exact hb
  | cons h1 _ ih =>
    rw [List.cons_append, List.append_assoc, List.append_assoc]
    exact .cons h1 ih

theorem bodyOf_ok {num : Str → Option ℚ} {fmt : ℚ → Str} {rnd : ℚ → ℚ} (hf : FmtOk num fmt rnd) {info : Zaid → Str}
    (hi : InfoOk info) {s : SubMat} {cs : List Str} (hs : SubOk s cs) :
    (∀ l ∈ (bodyOf fmt info s).map endl, BodyLine l) ∧
      BodySays num ((bodyOf fmt info s).map endl) (s.written.map (fun z => { z with fraction := rnd z.fraction })) s.keys ∧
      (∀ l ∈ bodyOf fmt info s, l ≠ [] ∧ ∀ c ∈ l, c ≠ '\n' ∧ c ≠ '\r') ∧ bodyOf fmt info s ≠ [] := by
  have hz : ∀ zs : List Zaid, (∀ z ∈ zs, ZaidOk z) →
      BodySays num ((zs.map (zaidLine fmt info)).map endl) (zs.map (fun z => { z with fraction := rnd z.fraction })) [] := by
    intro zs h
    induction zs with
    | nil => exact .nil
    | cons z zs ih =>
      exact .cons (zaidLine_says hf info (h z (by simp))).2 (ih (fun y hy => h y (List.mem_cons_of_mem _ hy)))
  have hk : BodySays num ((if s.keys = [] then [] else [keyLine s.keys]).map endl) [] s.keys := by
    split_ifs with h
    · rw [h]; exact .nil
    · have := BodySays.cons (keyLine_says (num := num) h hs.keys).2 .nil
      simpa using this
  refine ⟨?_, ?_, ?_, ?_⟩
  · intro l hl
    obtain ⟨x, hx, rfl⟩ := List.mem_map.1 hl
    unfold bodyOf at hx
    rcases List.mem_append.1 hx with hx | hx
    · obtain ⟨z, hz, rfl⟩ := List.mem_map.1 hx
      exact (zaidLine_says hf info (hs.zaids z hz)).1
    · split_ifs at hx with h
      · cases hx
      · simp only [List.mem_singleton] at hx
        subst hx
        exact (keyLine_says (num := num) h hs.keys).1
  · unfold bodyOf
    rw [List.map_append]
    have := bodySays_append (hz s.written hs.zaids) hk
    simpa using this
  · intro l hl
    unfold bodyOf at hl
    rcases List.mem_append.1 hl with hl | hl
    · obtain ⟨z, hz, rfl⟩ := List.mem_map.1 hl
      exact zaidLine_no hf hi (hs.zaids z hz)
    · split_ifs at hl with h
      · cases hl
      · simp only [List.mem_singleton] at hl
        subst hl
        exact keyLine_no hs.keys
  · unfold bodyOf
    rcases hs.some with h | h
    · intro h0
      rw [List.append_eq_nil_iff, List.map_eq_nil_iff] at h0
      exact h h0.1
    · intro h0
      rw [List.append_eq_nil_iff, if_neg h] at h0
      cases h0.2

/-- the text of a submaterial is its comments and its lines -/
theorem sub_text {num : Str → Option ℚ} {fmt : ℚ → Str} {rnd : ℚ → ℚ} (hf : FmtOk num fmt rnd) {info : Zaid → Str}
    (hi : InfoOk info) {s : SubMat} {cs : List Str} (hs : SubOk s cs) :
    s.toText fmt info = unl (cs ++ bodyOf fmt info s) ∧
      ∀ l ∈ cs ++ bodyOf fmt info s, l ≠ [] ∧ ∀ c ∈ l, c ≠ '\n' ∧ c ≠ '\r' := by
  obtain ⟨_, _, hb, hne⟩ := bodyOf_ok hf hi hs
  have hlines : ∀ l ∈ cs ++ bodyOf fmt info s, l ≠ [] ∧ ∀ c ∈ l, c ≠ '\n' ∧ c ≠ '\r' := by
    intro l hl
    rcases List.mem_append.1 hl with hl | hl
    · exact ⟨(hs.comments l hl).2.1, (hs.comments l hl).2.2⟩
    · exact hb l hl
  refine ⟨?_, hlines⟩
  have htidy : Tidy (unl (cs ++ bodyOf fmt info s)) :=
    unl_tidy (by simp [hne]) (fun l hl => ⟨(hlines l hl).1, fun c hc => ((hlines l hl).2 c hc).1⟩)
  have hz : s.written.flatMap (fun z => zaidLine fmt info z ++ ['\n']) = (s.written.map (zaidLine fmt info)).flatMap endl := by
    rw [List.flatMap_map]; rfl
  have hhead : ∃ a, unl cs ++ ['\n'] = List.replicate a '\n' ++ cs.flatMap endl := by
    cases cs with
    | nil => exact ⟨1, rfl⟩
    | cons c cs => exact ⟨0, unl_endl (by simp)⟩
  obtain ⟨a, ha⟩ := hhead
  unfold SubMat.toText
  rw [hs.header]
  simp only
  rw [ha, hz, List.append_assoc (List.replicate a '\n'), ← List.flatMap_append, List.append_assoc]
  by_cases hk : s.keys = []
  · rw [if_pos hk, List.append_nil]
    have hbo : bodyOf fmt info s = s.written.map (zaidLine fmt info) := by unfold bodyOf; rw [if_pos hk, List.append_nil]
    rw [← hbo, ← unl_endl (by simp [hne]), ← List.append_assoc]
    exact stripNL_pad htidy a 1
  · rw [if_neg hk]
    have hbo : bodyOf fmt info s = s.written.map (zaidLine fmt info) ++ [keyLine s.keys] := by unfold bodyOf; rw [if_neg hk]
    have e : (cs ++ s.written.map (zaidLine fmt info)).flatMap endl ++ '\t' :: s.keys.flatMap (fun k => ' ' :: k) =
        unl (cs ++ bodyOf fmt info s) := by
      rw [hbo, ← List.append_assoc]
      cases hc : cs ++ s.written.map (zaidLine fmt info) with
      | nil => rfl
      | cons x xs =>
        rw [unl_append (by simp) (by simp), ← unl_endl (by simp)]
        simp [unl, keyLine]
    rw [e]
    have := stripNL_pad htidy a 0
    simpa using this

/-- a material that can be written: comments `hs` above its name and `css` above its parts (specification) -/
structure TMatText (m : TMat) (hs : List Str) (css : List (List Str)) : Prop where
  name : ∃ c ds, m.name = c :: ds ∧ (c = 'm' ∨ c = 'M') ∧ ds ≠ [] ∧ ∀ d ∈ ds, isDigit d = true
  header : m.header = some (hs.flatMap endl)
  comments : ∀ l ∈ hs, IsCommLine l
  subs : List.Forall₂ SubOk m.subs css
  mx : m.mx = []

/-- a material that can be read back: only the first part may have no comment, and then it needs a zaid (specification) -/
structure TMatOk (m : TMat) (hs : List Str) (css : List (List Str)) : Prop extends TMatText m hs css where
  first : ∀ s ss, m.subs = s :: ss → css.head? = some [] → s.written ≠ []
  others : ∀ cs ∈ css.tail, cs ≠ []

/-- the lines of the written material (specification) -/
def matLinesOf (fmt : ℚ → Str) (info : Zaid → Str) (m : TMat) (hs : List Str) (css : List (List Str)) : List Str :=
  hs ++ Inp.upper m.name :: (List.zip m.subs css).flatMap (fun p => p.2 ++ bodyOf fmt info p.1)

theorem upper_name {n : Str} (h : ∃ c ds, n = c :: ds ∧ (c = 'm' ∨ c = 'M') ∧ ds ≠ [] ∧ ∀ d ∈ ds, isDigit d = true) :
    ∃ ds, Inp.upper n = 'M' :: ds ∧ ds ≠ [] ∧ ∀ d ∈ ds, isDigit d = true := by
  obtain ⟨c, ds, rfl, hc, hne, hd⟩ := h
  refine ⟨ds, ?_, hne, hd⟩
  have hup : ∀ d, isDigit d = true → Inp.upperC d = d := by
    intro d hd
    simp only [isDigit, Bool.and_eq_true, decide_eq_true_eq] at hd
    unfold Inp.upperC
    rw [if_neg]
    intro h
    omega
  have e : Inp.upper ds = ds := by
    unfold Inp.upper
    conv_rhs => rw [← List.map_id ds]
    exact List.map_congr_left (fun d hdd => hup d (hd d hdd))
  show Inp.upperC c :: Inp.upper ds = _
  rw [e]
  rcases hc with rfl | rfl <;> rfl

theorem forall2_zip_map {num : Str → Option ℚ} {fmt : ℚ → Str} {rnd : ℚ → ℚ} (hf : FmtOk num fmt rnd)
    {info : Zaid → Str} (hi : InfoOk info) {ss : List SubMat} {css : List (List Str)} (h : List.Forall₂ SubOk ss css) :
    (∀ l ∈ (List.zip ss css).flatMap (fun p => p.2 ++ bodyOf fmt info p.1), l ≠ [] ∧ ∀ c ∈ l, c ≠ '\n' ∧ c ≠ '\r') ∧
      ∀ a : List Str, a ≠ [] → unl a ++ ss.flatMap (fun s => '\n' :: s.toText fmt info) =
        unl (a ++ (List.zip ss css).flatMap (fun p => p.2 ++ bodyOf fmt info p.1)) := by
  induction h with
  | nil => exact ⟨by simp, by intro a _; simp⟩
  | @cons s cs ss css h _ ih =>
    obtain ⟨e, hl⟩ := sub_text hf hi h
    have hne := (bodyOf_ok hf hi h).2.2.2
    constructor
    · intro l hl'
      rw [List.zip_cons_cons, List.flatMap_cons] at hl'
      rcases List.mem_append.1 hl' with hl' | hl'
      · exact hl l hl'
      · exact ih.1 l hl'
    · intro a ha
      rw [List.zip_cons_cons, List.flatMap_cons, List.flatMap_cons, ← List.append_assoc a, e]
      rw [← ih.2 _ (by simp [ha]), unl_append ha (by simp [hne])]
      simp [List.append_assoc]

/-- the text of a material is the comments, the name in capitals and the lines of its parts -/
theorem mat_text {num : Str → Option ℚ} {fmt : ℚ → Str} {rnd : ℚ → ℚ} (hf : FmtOk num fmt rnd) {info : Zaid → Str}
    (hi : InfoOk info) {m : TMat} {hs : List Str} {css : List (List Str)} (h : TMatText m hs css) :
    m.toText fmt info = unl (matLinesOf fmt info m hs css) ∧
      ∀ l ∈ matLinesOf fmt info m hs css, l ≠ [] ∧ ∀ c ∈ l, c ≠ '\n' ∧ c ≠ '\r' := by
  obtain ⟨ds, hn, hne, hd⟩ := upper_name h.name
  have hword : IsWord (Inp.upper m.name) := by
    rw [hn]
    refine ⟨by simp, ?_⟩
    intro c hc
    rcases List.mem_cons.1 hc with rfl | hc
    · decide
    · exact isSpace_of_isDigit (hd c hc)
  obtain ⟨h1, h2⟩ := forall2_zip_map hf hi h.subs
  have hlines : ∀ l ∈ matLinesOf fmt info m hs css, l ≠ [] ∧ ∀ c ∈ l, c ≠ '\n' ∧ c ≠ '\r' := by
    intro l hl
    unfold matLinesOf at hl
    rcases List.mem_append.1 hl with hl | hl
    · exact ⟨(h.comments l hl).2.1, (h.comments l hl).2.2⟩
    · rcases List.mem_cons.1 hl with rfl | hl
      · exact ⟨hword.1, word_no hword⟩
      · exact h1 l hl
  refine ⟨?_, hlines⟩
  have hmne : matLinesOf fmt info m hs css ≠ [] := by simp [matLinesOf]
  have htidy : Tidy (unl (matLinesOf fmt info m hs css)) :=
    unl_tidy hmne (fun l hl => ⟨(hlines l hl).1, fun c hc => ((hlines l hl).2 c hc).1⟩)
  have hnt : stripNL (Inp.upper m.name) = Inp.upper m.name := stripNL_tidy (unl_tidy (ls := [Inp.upper m.name]) (by simp) (by
    intro l hl
    simp only [List.mem_singleton] at hl
    subst hl
    exact ⟨hword.1, fun c hc => (word_no hword c hc).1⟩))
  have hhead : ∃ a, stripNL (hs.flatMap endl) ++ '\n' :: Inp.upper m.name = List.replicate a '\n' ++ unl (hs ++ [Inp.upper m.name]) := by
    by_cases hh : hs = []
    · subst hh; exact ⟨1, rfl⟩
    · refine ⟨0, ?_⟩
      have ht : Tidy (unl hs) := unl_tidy hh (fun l hl => ⟨(h.comments l hl).2.1, fun c hc => ((h.comments l hl).2.2 c hc).1⟩)
      have := stripNL_pad ht 0 1
      rw [List.replicate_zero, List.nil_append, List.replicate_one, unl_endl hh] at this
      rw [this, unl_append hh (by simp)]
      rfl
  obtain ⟨a, ha⟩ := hhead
  unfold TMat.toText
  rw [h.header, h.mx]
  simp only [List.flatMap_nil, List.append_nil]
  rw [hnt, ha, List.append_assoc, h2 _ (by simp)]
  have e : hs ++ [Inp.upper m.name] ++ (List.zip m.subs css).flatMap (fun p => p.2 ++ bodyOf fmt info p.1) =
      matLinesOf fmt info m hs css := by simp [matLinesOf]
  rw [e]
  have := stripNL_pad htidy a 0
  simpa using this

theorem delCR_none {l : Str} (h : ∀ c ∈ l, c ≠ '\n' ∧ c ≠ '\r') : delCR (endl l) = endl l := by
  unfold delCR endl
  rw [List.filter_eq_self]
  intro c hc
  rcases List.mem_append.1 hc with hc | hc
  · simpa using (h c hc).2
  · simp only [List.mem_singleton] at hc; subst hc; decide

/-- the part of a submaterial under its comments (proof) -/
def groupOf (fmt : ℚ → Str) (info : Zaid → Str) (rnd : ℚ → ℚ) (p : SubMat × List Str) : Group :=
  ⟨p.2.map endl, (bodyOf fmt info p.1).map endl, p.1.written.map (fun z => { z with fraction := rnd z.fraction }), p.1.keys⟩

theorem groups_ok {num : Str → Option ℚ} {fmt : ℚ → Str} {rnd : ℚ → ℚ} (hf : FmtOk num fmt rnd) {info : Zaid → Str}
    (hi : InfoOk info) {ss : List SubMat} {css : List (List Str)} (h : List.Forall₂ SubOk ss css)
    (hc : ∀ cs ∈ css, cs ≠ []) :
    (∀ g ∈ (List.zip ss css).map (groupOf fmt info rnd), GroupOk num g) ∧
    ((List.zip ss css).flatMap (fun p => p.2 ++ bodyOf fmt info p.1)).map endl =
      ((List.zip ss css).map (groupOf fmt info rnd)).flatMap Group.lines ∧
    ((List.zip ss css).map (groupOf fmt info rnd)).map Group.read = ss.map (rounded rnd) := by
  induction h with
  | nil => exact ⟨by simp, rfl, rfl⟩
  | @cons s cs ss css h _ ih =>
    obtain ⟨i1, i2, i3⟩ := ih (fun x hx => hc x (List.mem_cons_of_mem _ hx))
    have hne := hc cs (by simp)
    obtain ⟨b1, b2, b3, b4⟩ := bodyOf_ok hf hi h
    refine ⟨?_, ?_, ?_⟩
    · intro g hg
      rw [List.zip_cons_cons, List.map_cons] at hg
      rcases List.mem_cons.1 hg with rfl | hg
      · refine ⟨by simpa [groupOf] using hne, ?_, by simpa [groupOf] using b4, b1, b2⟩
        intro l hl
        obtain ⟨x, hx, rfl⟩ := List.mem_map.1 hl
        exact (h.comments x hx).1
      · exact i1 g hg
    · rw [List.zip_cons_cons, List.flatMap_cons, List.map_append, i2, List.map_cons, List.flatMap_cons]
      simp [groupOf, Group.lines]
    · rw [List.zip_cons_cons, List.map_cons, List.map_cons, i3, List.map_cons]
      congr 1
      unfold groupOf Group.read rounded
      simp only
      rw [h.header, ← List.flatMap_def, ← unl_endl hne, List.dropLast_concat]

/-- the lines of the written text -/
theorem mat_file {num : Str → Option ℚ} {fmt : ℚ → Str} {rnd : ℚ → ℚ} (hf : FmtOk num fmt rnd) {info : Zaid → Str}
    (hi : InfoOk info) {m : TMat} {hs : List Str} {css : List (List Str)} (h : TMatText m hs css) :
    (fileLines (m.toText fmt info ++ ['\n'])).map delCR = (matLinesOf fmt info m hs css).map endl := by
  obtain ⟨e, hl⟩ := mat_text hf hi h
  rw [e, unl_endl (by simp [matLinesOf])]
  have := fileLines_join _ (fun l hl' c hc => ((hl l hl').2 c hc).1) []
  rw [List.append_nil] at this
  rw [this]
  simp only [fileLines, List.append_nil, List.map_map]
  apply List.map_congr_left
  intro l hl'
  exact delCR_none (hl l hl').2

/-- **C110.** A material written and read back is the same material: name (in capitals), comments, parts in order
with their comments, zaids in order, keywords; the fractions are those written, rounded. Partial: Proved for materials without density and MX cards, in which only the first part may lack a comment; false otherwise: parts_merged. The formatting of numbers is a parameter (FmtOk). -/
theorem material_round_trip_partial {num : Str → Option ℚ} {fmt : ℚ → Str} {rnd : ℚ → ℚ} (hf : FmtOk num fmt rnd)
    {info : Zaid → Str} (hi : InfoOk info) {m : TMat} {hs : List Str} {css : List (List Str)} (h : TMatOk m hs css) :
    matFromText num (fileLines (m.toText fmt info ++ ['\n'])) =
      .ok ⟨Inp.upper m.name, m.header, m.subs.map (rounded rnd), []⟩ := by
  obtain ⟨ds, hn, hne, hd⟩ := upper_name h.name
  have hfl := mat_file hf hi h.toTMatText
  have hname : NameLine (endl (Inp.upper m.name)) (Inp.upper m.name) ['\n'] :=
    ⟨⟨[], 'M', ds, by simp [endl], by simp, hn, Or.inr rfl, hne, hd⟩, rfl⟩
  have h0 : LineSays num ['\n'] [] [] := ⟨[], .nil, by decide, by simp, by simp⟩
  have hh : ∀ l ∈ hs.map endl, isComm l = true := by
    intro l hl'
    obtain ⟨x, hx, rfl⟩ := List.mem_map.1 hl'
    exact (h.comments x hx).1
  have hhead : some (hs.map endl).flatten = m.header := by rw [h.header, ← List.flatMap_def]
  have hsubs := h.subs
  have hothers := h.others
  have hfirst := h.first
  cases hss : m.subs with
  | nil =>
    have hcs : css = [] := by rw [hss] at hsubs; cases hsubs; rfl
    have := material_read_partial num _ (hs.map endl) _ _ _ [] [] [] [] [] []
      (by rw [hfl]; simp [matLinesOf, hss]) hh hname h0 (by simp) .nil (by simp)
    rw [this, hhead]; rfl
  | cons s ss =>
    rw [hss] at hsubs
    cases css with
    | nil => cases hsubs
    | cons cs css =>
      cases hsubs with
      | cons hs1 hs2 =>
        obtain ⟨b1, b2, b3, b4⟩ := bodyOf_ok hf hi hs1
        by_cases hcs : cs = []
        · subst hcs
          obtain ⟨g1, g2, g3⟩ := groups_ok hf hi hs2 hothers
          have := material_read_partial num _ (hs.map endl) _ _ _ ((bodyOf fmt info s).map endl) []
            (s.written.map (fun z => { z with fraction := rnd z.fraction })) [] s.keys
            ((List.zip ss css).map (groupOf fmt info rnd))
            (by rw [hfl, ← g2]; simp [matLinesOf, hss]) hh hname h0 b1 b2 g1
          rw [this, hhead, g3]
          have hw := hfirst s ss hss rfl
          simp only [List.nil_append]
          rw [if_neg (by simpa using hw)]
          have : s.header = some [] := by rw [hs1.header]; rfl
          simp [rounded, this]
        · obtain ⟨g1, g2, g3⟩ := groups_ok hf hi (List.Forall₂.cons hs1 hs2) (by
            intro x hx
            rcases List.mem_cons.1 hx with rfl | hx
            · exact hcs
            · exact hothers x hx)
          have := material_read_partial num _ (hs.map endl) _ _ _ [] [] [] [] []
            ((List.zip (s :: ss) (cs :: css)).map (groupOf fmt info rnd))
            (by rw [hfl, List.nil_append, ← g2]; simp [matLinesOf, hss]) hh hname h0 (by simp) .nil g1
          rw [this, hhead, g3]
          simp

/-! ### C110: several materials -/

theorem lines_unl {ls : List Str} (hne : ls ≠ []) (h : ∀ l ∈ ls, ∀ c ∈ l, c ≠ '\n') : lines (unl ls) = ls := by
  have key : ∀ l : Str, (∀ c ∈ l, c ≠ '\n') → lines l = [l] := by
    intro l hl
    induction l with
    | nil => rfl
    | cons c cs ih =>
      have hc := hl c (by simp)
      rw [lines, if_neg hc, ih (fun x hx => hl x (List.mem_cons_of_mem _ hx))]
  induction ls with
  | nil => exact absurd rfl hne
  | cons l ls ih =>
    cases ls with
    | nil => exact key l (h l (by simp))
    | cons l' ls =>
      rw [unl, lines_append, key l (h l (by simp)), ih (by simp) (fun x hx => h x (List.mem_cons_of_mem _ hx))]
      rfl

theorem visible_of {l : Str} {c : Char} (h : c ∈ l) (hc : isSpace c = false) : isBlank l = false := by
  by_contra hcon
  rw [Bool.not_eq_false] at hcon
  rw [isBlank, List.all_eq_true] at hcon
  rw [hcon c h] at hc; cases hc

theorem comm_visible {l : Str} (h : IsCommLine l) : isBlank l = false := by
  obtain ⟨h1, h2, _⟩ := h
  cases l with
  | nil => exact absurd rfl h2
  | cons c cs =>
    have hc : c = 'C' ∨ c = 'c' := by
      cases cs with
      | nil => simpa [endl, isComm] using (And.left (by simpa [endl, isComm] using h1))
      | cons d cs =>
        simp only [endl, List.cons_append, isComm, Bool.and_eq_true, Bool.or_eq_true, beq_iff_eq] at h1
        exact h1.1
    refine visible_of (c := c) (by simp) ?_
    rcases hc with rfl | rfl <;> decide

theorem bodyOf_visible {fmt : ℚ → Str} {info : Zaid → Str} {s : SubMat} {cs : List Str} (h : SubOk s cs) :
    ∀ l ∈ bodyOf fmt info s, isBlank l = false := by
  intro l hl
  unfold bodyOf at hl
  rcases List.mem_append.1 hl with hl | hl
  · obtain ⟨z, _, rfl⟩ := List.mem_map.1 hl
    have h0 : '$' ∈ "     $ ".toList := by decide
    exact visible_of (c := '$') (List.mem_append_left _ (List.mem_append_right _ h0)) (by decide)
  · split_ifs at hl with hk
    · cases hl
    · simp only [List.mem_singleton] at hl
      subst hl
      cases hks : s.keys with
      | nil => exact absurd hks hk
      | cons k ks =>
        have hko := h.keys k (by rw [hks]; simp)
        cases hkk : k with
        | nil => exact absurd hkk hko.word.1
        | cons c r =>
          refine visible_of (c := c) ?_ (hko.word.2 c (by rw [hkk]; simp))
          unfold keyLine
          simp

theorem matLinesOf_visible {fmt : ℚ → Str} {info : Zaid → Str} {m : TMat} {hs : List Str} {css : List (List Str)}
    (h : TMatText m hs css) : ∀ l ∈ matLinesOf fmt info m hs css, isBlank l = false := by
  intro l hl
  unfold matLinesOf at hl
  rcases List.mem_append.1 hl with hl | hl
  · exact comm_visible (h.comments l hl)
  · rcases List.mem_cons.1 hl with rfl | hl
    · obtain ⟨ds, hn, _⟩ := upper_name h.name
      rw [hn]
      exact visible_of (c := 'M') (by simp) (by decide)
    · obtain ⟨p, hp, hl⟩ := List.mem_flatMap.1 hl
      have hsub : SubOk p.1 p.2 := by
        have := h.subs
        rw [List.forall₂_iff_zip] at this
        exact this.2 hp
      rcases List.mem_append.1 hl with hl | hl
      · exact comm_visible (hsub.comments l hl)
      · exact bodyOf_visible hsub l hl

/-- the materials and the comments of their headers and parts (specification) -/
abbrev TMats := List (TMat × List Str × List (List Str))

/-- **C110.** The text of all materials is, one after the other, the lines of each; none is blank, so the file
written stays in three blocks (C108). -/
theorem mats_text {num : Str → Option ℚ} {fmt : ℚ → Str} {rnd : ℚ → ℚ} (hf : FmtOk num fmt rnd) {info : Zaid → Str}
    (hi : InfoOk info) (ms : TMats) (hne : ms ≠ []) (h : ∀ p ∈ ms, TMatText p.1 p.2.1 p.2.2) :
    lines (matsText fmt info (ms.map Prod.fst)) = ms.flatMap (fun p => matLinesOf fmt info p.1 p.2.1 p.2.2) ∧
      MatsOk (some (matsText fmt info (ms.map Prod.fst))) := by
  have hlines : ∀ l ∈ ms.flatMap (fun p => matLinesOf fmt info p.1 p.2.1 p.2.2), l ≠ [] ∧ ∀ c ∈ l, c ≠ '\n' ∧ c ≠ '\r' := by
    intro l hl
    obtain ⟨p, hp, hl⟩ := List.mem_flatMap.1 hl
    exact (mat_text hf hi (h p hp)).2 l hl
  have hvis : ∀ l ∈ ms.flatMap (fun p => matLinesOf fmt info p.1 p.2.1 p.2.2), isBlank l = false := by
    intro l hl
    obtain ⟨p, hp, hl⟩ := List.mem_flatMap.1 hl
    exact matLinesOf_visible (h p hp) l hl
  have hmne : ms.flatMap (fun p => matLinesOf fmt info p.1 p.2.1 p.2.2) ≠ [] := by
    cases ms with
    | nil => exact absurd rfl hne
    | cons p ms => simp [matLinesOf]
  have key : ∀ ms : TMats, ms ≠ [] → (∀ p ∈ ms, TMatText p.1 p.2.1 p.2.2) →
      (ms.map Prod.fst).flatMap (fun m => '\n' :: m.toText fmt info) =
        '\n' :: unl (ms.flatMap (fun p => matLinesOf fmt info p.1 p.2.1 p.2.2)) := by
    intro ms
    induction ms with
    | nil => intro h; exact absurd rfl h
    | cons p ms ih =>
      intro _ h
      rw [List.map_cons, List.flatMap_cons, List.flatMap_cons, (mat_text hf hi (h p (by simp))).1]
      cases ms with
      | nil => simp
      | cons q ms =>
        rw [ih (by simp) (fun x hx => h x (List.mem_cons_of_mem _ hx)), unl_append (by simp [matLinesOf]) (by simp [matLinesOf])]
        rfl
  have e : matsText fmt info (ms.map Prod.fst) = unl (ms.flatMap (fun p => matLinesOf fmt info p.1 p.2.1 p.2.2)) := by
    unfold matsText
    rw [key ms hne h]
    have := stripNL_pad (unl_tidy hmne (fun l hl => ⟨(hlines l hl).1, fun c hc => ((hlines l hl).2 c hc).1⟩)) 1 0
    simpa using this
  have e2 : lines (matsText fmt info (ms.map Prod.fst)) = ms.flatMap (fun p => matLinesOf fmt info p.1 p.2.1 p.2.2) := by
    rw [e]; exact lines_unl hmne (fun l hl c hc => ((hlines l hl).2 c hc).1)
  refine ⟨e2, ?_⟩
  intro l hl
  rw [e2] at hl
  exact hvis l hl

/-- **C110 (false for a second part without a comment).** Written, its lines follow those of the part before, and
both are read back as one part. -/
theorem parts_merged {num : Str → Option ℚ} {fmt : ℚ → Str} {rnd : ℚ → ℚ} (hf : FmtOk num fmt rnd)
    {info : Zaid → Str} (hi : InfoOk info) {m : TMat} {hs cs : List Str} {s s' : SubMat} (h : TMatText m hs [cs, []])
    (hm : m.subs = [s, s']) (hw : cs ≠ []) :
    ∃ one : SubMat, matFromText num (fileLines (m.toText fmt info ++ ['\n'])) =
        .ok ⟨Inp.upper m.name, m.header, [one], []⟩ ∧
      one.zaids = (s.written ++ s'.written).map (fun z => { z with fraction := rnd z.fraction }) ∧
      one.keys = s.keys ++ s'.keys := by
  have hf2 := h.subs
  rw [hm] at hf2
  cases hf2 with
  | cons hs1 hf2 =>
  cases hf2 with
  | cons hs2 _ =>
  obtain ⟨ds, hnm, hne, hd⟩ := upper_name h.name
  obtain ⟨b1, b2, b3, b4⟩ := bodyOf_ok hf hi hs1
  obtain ⟨c1, c2, c3, c4⟩ := bodyOf_ok hf hi hs2
  have hname : NameLine (endl (Inp.upper m.name)) (Inp.upper m.name) ['\n'] :=
    ⟨⟨[], 'M', ds, by simp [endl], by simp, hnm, Or.inr rfl, hne, hd⟩, rfl⟩
  have h0 : LineSays num ['\n'] [] [] := ⟨[], .nil, by decide, by simp, by simp⟩
  have hg : GroupOk num (⟨cs.map endl, (bodyOf fmt info s).map endl ++ (bodyOf fmt info s').map endl,
        (s.written ++ s'.written).map (fun z => { z with fraction := rnd z.fraction }), s.keys ++ s'.keys⟩ : Group) := by
    refine ⟨by simpa using hw, ?_, by simp [b4], ?_, ?_⟩
    · intro l hl
      obtain ⟨x, hx, rfl⟩ := List.mem_map.1 hl
      exact (hs1.comments x hx).1
    · intro l hl
      rcases List.mem_append.1 hl with hl | hl
      · exact b1 l hl
      · exact c1 l hl
    · simp only [List.map_append]
      exact bodySays_append b2 c2
  have := material_read_partial num (fileLines (m.toText fmt info ++ ['\n'])) (hs.map endl) (endl (Inp.upper m.name))
    (Inp.upper m.name) ['\n'] [] [] [] [] [] [⟨cs.map endl, (bodyOf fmt info s).map endl ++ (bodyOf fmt info s').map endl,
        (s.written ++ s'.written).map (fun z => { z with fraction := rnd z.fraction }), s.keys ++ s'.keys⟩] (by
    rw [mat_file hf hi h]
    simp [matLinesOf, hm, Group.lines]) (by
    intro l hl'
    obtain ⟨x, hx, rfl⟩ := List.mem_map.1 hl'
    exact (h.comments x hx).1) hname h0 (by simp) .nil (by
    intro g hg'
    simp only [List.mem_singleton] at hg'
    subst hg'
    exact hg)
  refine ⟨mkSub ((s.written ++ s'.written).map (fun z => { z with fraction := rnd z.fraction }))
      (some (cs.map endl).flatten.dropLast) (s.keys ++ s'.keys), ?_, rfl, rfl⟩
  rw [this, h.header, ← List.flatMap_def]
  rfl

/-! ### examples -/

/-- numbers as integers: one `num`, `fmt` and rounding that fit together (example) -/
def exNum (s : Str) : Option ℚ := (parseInt s).map (fun i => (i : ℚ))

/-- text of the integer part (example) -/
def exFmt (q : ℚ) : Str := intStr q.floor

/-- the rounding (example) -/
def exRnd (q : ℚ) : ℚ := (q.floor : ℚ)

theorem ex_fmt : FmtOk exNum exFmt exRnd := by
  refine ⟨fun q => ⟨intStr_isWord _, ?_⟩, fun q => ?_⟩
  · unfold exFmt intStr
    split
    · rename_i n _
      have := natStr_all_digit n
      cases h : natStr n with
      | nil => rfl
      | cons c cs =>
        rw [h] at this
        have hc := this c (by simp)
        unfold isDollar
        split
        · rename_i e; rw [(List.cons.inj e).1] at hc; revert hc; decide
        · rfl
    · rfl
  · unfold exNum exFmt exRnd
    rw [parseInt_intStr]; rfl

/-- hydrogen and iron under one comment, oxygen with a keyword under another (example) -/
def exMat : TMat :=
  ⟨"m12".toList, some "C a steel\nC of sorts\n".toList,
    [mkSub [⟨2, "1".toList, "001".toList, "31c".toList⟩, ⟨5, "26".toList, "056".toList, "31c".toList⟩]
        (some "C first".toList) [],
      mkSub [⟨-3, "8".toList, "016".toList, "31c".toList⟩] (some "C second\nC and more".toList) ["nlib=31c".toList]], []⟩

theorem ex_mat : TMatOk exMat ["C a steel".toList, "C of sorts".toList]
    [["C first".toList], ["C second".toList, "C and more".toList]] := by
  have hz : ∀ z ∈ ([⟨2, "1".toList, "001".toList, "31c".toList⟩, ⟨5, "26".toList, "056".toList, "31c".toList⟩,
      ⟨-3, "8".toList, "016".toList, "31c".toList⟩] : List Zaid), ZaidOk z := by
    intro z hz
    simp only [List.mem_cons, List.not_mem_nil, or_false] at hz
    rcases hz with rfl | rfl | rfl <;>
      exact ⟨⟨by decide, by decide, by decide, by decide⟩, by decide, by decide, by decide⟩
  refine ⟨⟨⟨'m', "12".toList, rfl, Or.inl rfl, by decide, by decide⟩, by decide, ?_, ?_, rfl⟩, ?_, ?_⟩
  · intro l hl
    simp only [List.mem_cons, List.not_mem_nil, or_false] at hl
    rcases hl with rfl | rfl <;> exact ⟨by decide, by decide, by decide⟩
  · refine .cons ⟨by decide, ?_, ?_, by simp [mkSub], Or.inl (by decide +kernel)⟩
      (.cons ⟨by decide, ?_, ?_, ?_, Or.inr (by simp [mkSub])⟩ .nil)
    · intro l hl
      simp only [List.mem_cons, List.not_mem_nil, or_false] at hl
      subst hl; exact ⟨by decide, by decide, by decide⟩
    · have e : (mkSub [⟨2, "1".toList, "001".toList, "31c".toList⟩, ⟨5, "26".toList, "056".toList, "31c".toList⟩]
        (some "C first".toList) []).written = [⟨2, "1".toList, "001".toList, "31c".toList⟩, ⟨5, "26".toList, "056".toList, "31c".toList⟩] := by
        decide +kernel
      rw [e]
      intro z h; exact hz z (by
        rcases List.mem_cons.1 h with rfl | h
        · simp
        · rcases List.mem_cons.1 h with rfl | h
          · simp
          · cases h)
    · intro l hl
      simp only [List.mem_cons, List.not_mem_nil, or_false] at hl
      rcases hl with rfl | rfl <;> exact ⟨by decide, by decide, by decide⟩
    · have e : (mkSub [⟨-3, "8".toList, "016".toList, "31c".toList⟩] (some "C second\nC and more".toList)
        ["nlib=31c".toList]).written = [⟨-3, "8".toList, "016".toList, "31c".toList⟩] := by
        decide +kernel
      rw [e]
      intro z h; exact hz z (by
        rcases List.mem_cons.1 h with rfl | h
        · simp
        · cases h)
    · intro k hk
      simp only [mkSub, List.mem_cons, List.not_mem_nil, or_false] at hk
      subst hk
      exact ⟨by decide, by decide, by decide, by decide⟩
  · intro s ss _ h
    simp at h
  · intro cs hcs
    simp only [List.tail_cons, List.mem_singleton] at hcs
    subst hcs; decide

/-- the round trip of the example -/
example : matFromText exNum (fileLines (exMat.toText exFmt (fun _ => "info".toList) ++ ['\n'])) =
    .ok ⟨"M12".toList, exMat.header, exMat.subs.map (rounded exRnd), []⟩ :=
  material_round_trip_partial ex_fmt (fun _ => (by decide : ∀ c ∈ "info".toList, c ≠ '\n' ∧ c ≠ '\r')) ex_mat

/-- and its text -/
example : exMat.toText exFmt (fun _ => "info".toList) =
    ("C a steel\nC of sorts\nM12\nC first\n       1001.31c                  2     $ info\n" ++
      "      26056.31c                  5     $ info\nC second\nC and more\n" ++
      "       8016.31c                 -3     $ info\n\t nlib=31c").toList := by
  decide +kernel

/-- a pair broken over two lines: the zaid of the first line is gone, its fraction is taken for a zaid -/
example : readLine exNum "  1001.31c 2 8016.31c\n".toList = .ok ([⟨2, "1".toList, "001".toList, "31c".toList⟩], none) := by
  decide +kernel

/-- an indented comment becomes keywords -/
example : readLine exNum "  C water here\n".toList = .ok ([], some ["C".toList, "water".toList, "here".toList]) := by
  decide +kernel

/-- keywords under the name are lost -/
example : matFromText exNum ["M1\n".toList, "  nlib=31c\n".toList, "C part\n".toList, "  1001.31c 2\n".toList] =
    matFromText exNum ["M1\n".toList, "C part\n".toList, "  1001.31c 2\n".toList] := by
  decide +kernel

/-- a comment at the end -/
example : matFromText exNum ["M1\n".toList, "  1001.31c 2\n".toList, "C end\n".toList] = .error .unboundLocal := by
  decide +kernel

/-- **C109 (names).** A line begins a material exactly if it is blanks, `m` or `M` and at least one digit; the name is that much of it. -/
theorem matName_iff (l name rest : Str) : matName l = some (name, rest) ↔
    ∃ b m d, l = b ++ m :: (d ++ rest) ∧ name = b ++ m :: d ∧ (∀ c ∈ b, isSpace c = true) ∧ (m = 'm' ∨ m = 'M') ∧ d ≠ [] ∧
      (∀ c ∈ d, isDigit c = true) ∧ ∀ c, rest.head? = some c → isDigit c = false := by
  have htake : ∀ (p : Char → Bool) (l : Str), ∀ c ∈ l.takeWhile p, p c = true := by
    intro p l
    induction l with
    | nil => simp
    | cons x l ih =>
      intro c h
      rw [List.takeWhile_cons] at h
      split at h
      · rename_i hx
        rcases List.mem_cons.1 h with rfl | h
        · exact hx
        · exact ih c h
      · simp at h
  constructor
  · intro h
    unfold matName at h
    split at h
    · rename_i m r hd
      split at h
      · rename_i hc
        simp only [Option.some.injEq, Prod.mk.injEq] at h
        obtain ⟨rfl, rfl⟩ := h
        have hc' := (Bool.and_eq_true _ _).mp hc
        refine ⟨l.takeWhile isSpace, m, r.takeWhile isDigit, ?_, rfl, htake _ _, by simpa using hc'.1, ?_, htake _ _, ?_⟩
        · rw [List.takeWhile_append_dropWhile, ← hd, List.takeWhile_append_dropWhile]
        · cases r with
          | nil => simp [startsDigit] at hc'
          | cons x xs =>
            have hx : isDigit x = true := hc'.2
            rw [List.takeWhile_cons, if_pos hx]
            simp
        · intro c hcc
          have := List.head?_dropWhile_not isDigit r
          rw [hcc] at this
          simpa using this
      · simp at h
    · simp at h
  · rintro ⟨b, m, d, rfl, rfl, hb, hm, hd0, hd, hr⟩
    have hms : ∀ c, (m :: (d ++ rest)).head? = some c → isSpace c = false := by
      intro c hc
      simp only [List.head?_cons, Option.some.injEq] at hc
      subst hc
      rcases hm with rfl | rfl <;> decide
    unfold matName
    rw [dropWhile_all_append hb hms, takeWhile_all_append hb hms]
    simp only
    have hsd : startsDigit (d ++ rest) = true := by
      cases d with
      | nil => exact absurd rfl hd0
      | cons x xs => exact hd x (by simp)
    rw [if_pos (by rw [hsd]; rcases hm with rfl | rfl <;> rfl), takeWhile_all_append hd hr, dropWhile_all_append hd hr]

example : matName "m".toList = none ∧ matName " M12 1001".toList = some (" M12".toList, " 1001".toList) := by decide

end F4Enix.Mat
