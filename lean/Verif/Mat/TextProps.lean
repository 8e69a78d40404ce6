import Verif.Mat.TextLemmas
/-!
# Reading material cards (C109)
-/
namespace F4Enix.Mat
open F4Enix F4Enix.Write

/-! ### specification -/

/-- what a line of a material says in front of a `$`: pairs of a zaid and its fraction, then keywords (specification) -/
def LineSays (num : Str → Option ℚ) (l : Str) (zs : List Zaid) (ks : List Str) : Prop :=
  ∃ fs : List Str, List.Forall₂ (fun f z => num f = some z.fraction) fs zs ∧
    (tokens l).takeWhile (fun w => !isDollar w) = (List.zip zs fs).flatMap (fun p => [p.1.name, p.2]) ++ ks ∧
    (∀ z ∈ zs, Canon z ∧ startsDigit z.name = true) ∧ (∀ k, ks.head? = some k → startsDigit k = false)

/-- what several lines say (specification) -/
inductive BodySays (num : Str → Option ℚ) : List Str → List Zaid → List Str → Prop
  | nil : BodySays num [] [] []
  | cons {l ls zs zs' ks ks'} : LineSays num l zs ks → BodySays num ls zs' ks' →
      BodySays num (l :: ls) (zs ++ zs') (ks ++ ks')

/-- a continuation line: it begins with a blank and does not look like the name of a material (specification) -/
def BodyLine (l : Str) : Prop := startsSpace l = true ∧ matName l = none

/-- the line with the name of the material: `nm` is `m` and digits, `rest` what follows (specification) -/
structure NameLine (l nm rest : Str) : Prop where
  ex : ∃ sp m ds, l = sp ++ nm ++ rest ∧ (∀ c ∈ sp, isSpace c = true) ∧ nm = m :: ds ∧ (m = 'm' ∨ m = 'M') ∧
    ds ≠ [] ∧ (∀ c ∈ ds, isDigit c = true)
  rest : startsSpace rest = true

/-- a part of a material under a comment of its own (specification) -/
structure Group where
  comments : List Str
  body : List Str
  zaids : List Zaid
  keys : List Str

/-- a well-formed part: comment lines, then continuation lines that say its zaids and keywords (specification) -/
structure GroupOk (num : Str → Option ℚ) (g : Group) : Prop where
  some_comment : g.comments ≠ []
  comments : ∀ l ∈ g.comments, isComm l = true
  some_body : g.body ≠ []
  body : ∀ l ∈ g.body, BodyLine l
  contents : BodySays num g.body g.zaids g.keys

/-- the lines of the part (specification) -/
def Group.lines (g : Group) : List Str := g.comments ++ g.body

/-- the part as it should be read (specification) -/
def Group.read (g : Group) : SubMat := mkSub g.zaids (some g.comments.flatten.dropLast) g.keys

/-! ### lines -/

theorem lineSays_pairs {num : Str → Option ℚ} {l : Str} {zs : List Zaid} {ks : List Str} (h : LineSays num l zs ks) :
    readPairs num ((tokens l).takeWhile (fun w => !isDollar w)) = .ok (zs, if ks = [] then none else some ks) := by
  obtain ⟨fs, h1, h2, h3, h4⟩ := h
  rw [h2]
  have key : ∃ ps : List (Str × Str × ℚ), (List.zip zs fs).flatMap (fun p => [p.1.name, p.2]) =
      ps.flatMap (fun p => [p.1, p.2.1]) ∧ (∀ p ∈ ps, startsDigit p.1 = true ∧ num p.2.1 = some p.2.2) ∧
      ps.map (fun p => fromString p.1 p.2.2) = zs := by
    clear h2
    induction h1 with
    | nil => exact ⟨[], rfl, by simp, rfl⟩
    | @cons f z fs zs hf _ ih =>
      obtain ⟨ps, e1, e2, e3⟩ := ih (fun z hz => h3 z (List.mem_cons_of_mem _ hz))
      obtain ⟨c1, c2⟩ := h3 z (by simp)
      refine ⟨(z.name, f, z.fraction) :: ps, ?_, ?_, ?_⟩
      · rw [List.zip_cons_cons, List.flatMap_cons, List.flatMap_cons, e1]
      · intro p hp
        rcases List.mem_cons.1 hp with rfl | hp
        · exact ⟨c2, hf⟩
        · exact e2 p hp
      · rw [List.map_cons, e3, fromString_name c1]
  obtain ⟨ps, e1, e2, e3⟩ := key
  rw [e1, readPairs_ok num ps ks e2 h4, e3]

theorem getD_keys (ks : List Str) : (if ks = [] then none else some ks : Option (List Str)).getD [] = ks := by
  split_ifs with h
  · rw [h]; rfl
  · rfl

theorem bodyLines_ok {num : Str → Option ℚ} {ls : List Str} {zs : List Zaid} {ks : List Str}
    (h : BodySays num ls zs ks) (hne : ∀ l ∈ ls, l ≠ []) : bodyLines num ls = .ok (zs, ks) := by
  induction h with
  | nil => rfl
  | cons h1 _ ih =>
    simp only [bodyLines]
    rw [readLine_tokens num (hne _ (by simp)), lineSays_pairs h1]
    simp only
    rw [ih (fun l hl => hne l (List.mem_cons_of_mem _ hl))]
    simp only [getD_keys]

theorem bodyLine_ne {l : Str} (h : BodyLine l) : l ≠ [] := by
  rintro rfl; exact absurd h.1 (by decide)

theorem bodyLine_not_comm {l : Str} (h : BodyLine l) : isComm l = false := by
  match l, h.1 with
  | [], h => cases h
  | [c], _ => rfl
  | c :: d :: r, h =>
    have hc : isSpace c = true := h
    have h1 : (c == 'C') = false := by
      simp only [beq_eq_false_iff_ne, ne_eq]; rintro rfl; revert hc; decide
    have h2 : (c == 'c') = false := by
      simp only [beq_eq_false_iff_ne, ne_eq]; rintro rfl; revert hc; decide
    simp [isComm, h1, h2]

theorem comm_no_name {l : Str} (h : isComm l = true) : matName l = none := by
  match l, h with
  | [], h => cases h
  | [c], h => cases h
  | c :: d :: r, h =>
    simp only [isComm, Bool.and_eq_true, Bool.or_eq_true, beq_iff_eq] at h
    rcases h with ⟨rfl | rfl, _⟩ <;>
    · unfold matName
      rw [List.dropWhile_cons]
      rw [if_neg (by decide)]
      simp

/-- a line without a name: the first line of a part under a comment -/
theorem firstLine_body {num : Str → Option ℚ} {l : Str} {zs : List Zaid} {ks : List Str} (hb : BodyLine l)
    (h : LineSays num l zs ks) : firstLine num l = .ok (none, zs, if ks = [] then none else some ks) := by
  have hp := lineSays_pairs h
  unfold firstLine
  rw [splitWs_space hb.1, hb.2]
  obtain ⟨a, t, e, _, h2⟩ := splitWs_mid (lstrip_startsSpace l)
  rw [e]
  simp only [Option.map_none]
  by_cases ha : a = []
  · rw [if_pos ha]
    have hl : lstrip l = [] := by
      by_contra hne; exact h2 hne ha
    have ht : tokens l = [] := by rw [← tokens_lstrip', hl]; rfl
    rw [ht] at hp
    simp only [List.takeWhile_nil, readPairs, Except.ok.injEq, Prod.mk.injEq] at hp
    rw [← hp.1, ← hp.2]
  · rw [if_neg ha, readLine_tokens num (bodyLine_ne hb), hp]

theorem nameLine_name {l nm rest : Str} (h : NameLine l nm rest) :
    ∃ sp, matName l = some (sp ++ nm, rest) ∧ (∀ c ∈ sp, isSpace c = true) ∧ l = sp ++ nm ++ rest ∧ IsWord nm := by
  obtain ⟨⟨sp, m, ds, rfl, hsp, rfl, hm, hds, hdig⟩, hr⟩ := h
  have hmsp : isSpace m = false := by rcases hm with rfl | rfl <;> decide
  refine ⟨sp, ?_, hsp, rfl, ?_⟩
  · unfold matName
    rw [List.append_assoc, List.dropWhile_append_of_pos hsp, List.takeWhile_append_of_pos hsp]
    rw [List.cons_append, List.dropWhile_cons, List.takeWhile_cons, hmsp]
    simp only [Bool.false_eq_true, if_false]
    have hsd : startsDigit (ds ++ rest) = true := by
      cases ds with
      | nil => exact absurd rfl hds
      | cons c cs => exact hdig c (by simp)
    have hm' : (m == 'm' || m == 'M') = true := by rcases hm with rfl | rfl <;> rfl
    rw [if_pos (by rw [hm', hsd]; rfl)]
    have hrest : rest.takeWhile isDigit = [] ∧ rest.dropWhile isDigit = rest := by
      cases rest with
      | nil => cases hr
      | cons c cs =>
        have hc : isSpace c = true := hr
        have : isDigit c = false := by
          by_contra hd
          rw [Bool.not_eq_false] at hd
          rw [isSpace_of_isDigit hd] at hc; cases hc
        simp [this]
    rw [List.takeWhile_append_of_pos hdig, List.dropWhile_append_of_pos hdig, hrest.1, hrest.2]
    simp
  · refine ⟨by simp, ?_⟩
    intro c hc
    rcases List.mem_cons.1 hc with rfl | hc
    · exact hmsp
    · exact isSpace_of_isDigit (hdig c hc)

theorem lstrip_spaces {sp s : Str} (h : ∀ c ∈ sp, isSpace c = true) : lstrip (sp ++ s) = lstrip s := by
  unfold lstrip; exact List.dropWhile_append_of_pos h

theorem strip_spaces_word {sp nm : Str} (h : ∀ c ∈ sp, isSpace c = true) (hw : IsWord nm) : strip (sp ++ nm) = nm := by
  unfold strip
  rw [lstrip_spaces h]
  exact strip_word hw

/-- the line with the name -/
theorem firstLine_name {num : Str → Option ℚ} {l nm rest : Str} {zs : List Zaid} {ks : List Str}
    (hn : NameLine l nm rest) (h : LineSays num rest zs ks) :
    ∃ sp, firstLine num l = .ok (some (sp ++ nm), zs, if ks = [] then none else some ks) ∧ (∀ c ∈ sp, isSpace c = true) ∧
      IsWord nm := by
  have hp := lineSays_pairs h
  obtain ⟨sp, e, hsp, hl, hw⟩ := nameLine_name hn
  refine ⟨sp, ?_, hsp, hw⟩
  have hrne : rest ≠ [] := by
    rintro rfl; exact absurd hn.rest (by decide)
  unfold firstLine
  rw [e]
  simp only [Option.map_some]
  cases sp with
  | cons c cs =>
    have hst : startsSpace l = true := by rw [hl]; exact hsp c (by simp)
    have hls : lstrip l = nm ++ rest := by
      rw [hl, List.append_assoc, lstrip_spaces hsp, lstrip_of_not_startsSpace (startsSpace_word_append hw)]
    rw [splitWs_space hst, hls, splitWs_word_space nm rest hw.2 hn.rest]
    obtain ⟨ts, ht⟩ := splitWs_head_of_startsSpace rest hn.rest
    rw [ht]
    simp only
    rw [if_neg hw.1, readLine_tokens num hrne, hp]
  | nil =>
    rw [hl, List.nil_append, splitWs_word_space nm rest hw.2 hn.rest, splitWs_space hn.rest]
    simp only [List.tail_cons]
    obtain ⟨a, t, e', _, h2⟩ := splitWs_mid (lstrip_startsSpace rest)
    rw [e']
    simp only
    by_cases ha : a = []
    · rw [if_pos ha]
      have hl : lstrip rest = [] := by
        by_contra hne; exact h2 hne ha
      have ht : tokens rest = [] := by rw [← tokens_lstrip', hl]; rfl
      rw [ht] at hp
      simp only [List.takeWhile_nil, readPairs, Except.ok.injEq, Prod.mk.injEq] at hp
      rw [← hp.1, ← hp.2]
    · rw [if_neg ha, readLine_tokens num hrne, hp]

/-! ### parts -/

/-- a part under a comment -/
theorem sub_group {num : Str → Option ℚ} {g : Group} (h : GroupOk num g) : subFromText num g.lines = .ok (none, g.read) := by
  obtain ⟨h1, h2, h3, h4, h5⟩ := h
  have hb : ∀ l ∈ g.body, isComm l = false := fun l hl => bodyLine_not_comm (h4 l hl)
  unfold subFromText Group.lines Group.read
  rw [List.dropWhile_append_of_pos h2, List.takeWhile_append_of_pos h2]
  cases hbd : g.body with
  | nil => exact absurd hbd h3
  | cons l ls =>
    rw [hbd] at hb h4 h5
    rw [List.dropWhile_cons, List.takeWhile_cons, hb l (by simp)]
    simp only [Bool.false_eq_true, if_false, List.append_nil]
    generalize hz : g.zaids = zs at h5
    generalize hk : g.keys = ks at h5
    cases h5 with
    | cons q1 q2 =>
      rw [firstLine_body (h4 l (by simp)) q1]
      simp only
      rw [bodyLines_ok q2 (fun l hl => bodyLine_ne (h4 l (List.mem_cons_of_mem _ hl)))]
      simp only [getD_keys, Option.map_none]

theorem nameLine_not_comm {l nm rest : Str} (h : NameLine l nm rest) : isComm l = false := by
  obtain ⟨⟨sp, m, ds, rfl, hsp, rfl, hm, hds, hdig⟩, _⟩ := h
  cases sp with
  | nil =>
    cases ds with
    | nil => exact absurd rfl hds
    | cons d ds => rcases hm with rfl | rfl <;> rfl
  | cons c cs =>
    have hc := hsp c (by simp)
    by_contra hcon
    rw [Bool.not_eq_false] at hcon
    cases cs with
    | nil =>
      simp only [List.cons_append, List.nil_append, isComm, Bool.and_eq_true, Bool.or_eq_true, beq_iff_eq] at hcon
      rcases hcon with ⟨rfl | rfl, _⟩ <;> (revert hc; decide)
    | cons d cs =>
      simp only [List.cons_append, isComm, Bool.and_eq_true, Bool.or_eq_true, beq_iff_eq] at hcon
      rcases hcon with ⟨rfl | rfl, _⟩ <;> (revert hc; decide)

/-- the part under the name -/
theorem sub_first {num : Str → Option ℚ} {l nm rest : Str} {body : List Str} {zs0 zs : List Zaid} {ks0 ks : List Str}
    (hn : NameLine l nm rest) (h0 : LineSays num rest zs0 ks0) (hb : ∀ l ∈ body, BodyLine l) (h : BodySays num body zs ks) :
    subFromText num (l :: body) = .ok (some nm, mkSub (zs0 ++ zs) (some []) (ks0 ++ ks)) := by
  obtain ⟨sp, e, hsp, hw⟩ := firstLine_name hn h0
  unfold subFromText
  rw [List.dropWhile_cons, List.takeWhile_cons, nameLine_not_comm hn]
  simp only [Bool.false_eq_true, if_false]
  rw [e]
  simp only
  rw [bodyLines_ok h (fun l hl => bodyLine_ne (hb l hl))]
  simp only [getD_keys, Option.map_some, strip_spaces_word hsp hw]
  rfl

/-! ### the loop -/

theorem loop_comments (num : Str → Option ℚ) (cs rest : List Str) (h : ∀ l ∈ cs, isComm l = true) (H : Option Str)
    (sub : List Str) (subs : List (Option Str × SubMat)) :
    matLoop num (cs ++ rest) H true sub subs = matLoop num rest H true (sub ++ cs) subs := by
  induction cs generalizing sub with
  | nil => simp
  | cons c cs ih =>
    have hc := h c (by simp)
    rw [List.cons_append, matLoop]
    simp only [comm_no_name hc, Option.isSome_none, Bool.false_eq_true, if_false, if_true, hc]
    rw [ih (fun l hl => h l (List.mem_cons_of_mem _ hl))]
    simp

theorem loop_body (num : Str → Option ℚ) (body rest : List Str) (h : ∀ l ∈ body, BodyLine l) (H : Option Str)
    (sub : List Str) (subs : List (Option Str × SubMat)) :
    matLoop num (body ++ rest) H false sub subs = matLoop num rest H false (sub ++ body) subs := by
  induction body generalizing sub with
  | nil => simp
  | cons l ls ih =>
    have hl := h l (by simp)
    rw [List.cons_append, matLoop]
    simp only [hl.2, Option.isSome_none, Bool.false_eq_true, if_false, bodyLine_not_comm hl]
    rw [ih (fun l hl => h l (List.mem_cons_of_mem _ hl))]
    simp

theorem loop_groups (num : Str → Option ℚ) (gs : List Group) (hg : ∀ g ∈ gs, GroupOk num g) (H : Option Str)
    (sub : List Str) (s : Option Str × SubMat) (hs : subFromText num sub = .ok s) (subs : List (Option Str × SubMat)) :
    matLoop num (gs.flatMap Group.lines) H false sub subs =
      .ok (H, subs ++ [s] ++ gs.map (fun g => ((none : Option Str), g.read))) := by
  induction gs generalizing sub s subs with
  | nil => simp [matLoop, hs]
  | cons g gs ih =>
    have hgo := hg g (by simp)
    rw [List.flatMap_cons]
    cases hc : g.comments with
    | nil => exact absurd hc hgo.some_comment
    | cons c cs =>
      have hcc : isComm c = true := hgo.comments c (by rw [hc]; simp)
      cases hb : g.body with
      | nil => exact absurd hb hgo.some_body
      | cons b bs =>
        have hbl : BodyLine b := hgo.body b (by rw [hb]; simp)
        have e : g.lines ++ gs.flatMap Group.lines = c :: (cs ++ b :: (bs ++ gs.flatMap Group.lines)) := by
          unfold Group.lines; rw [hc, hb]; simp
        rw [e, matLoop]
        simp only [comm_no_name hcc, Option.isSome_none, Bool.false_eq_true, if_false, hcc, if_true, hs]
        rw [loop_comments num cs _ (fun l hl => hgo.comments l (by rw [hc]; simp [hl])), matLoop]
        simp only [hbl.2, Option.isSome_none, Bool.false_eq_true, if_false, if_true, bodyLine_not_comm hbl]
        rw [loop_body num bs _ (fun l hl => hgo.body l (by rw [hb]; simp [hl]))]
        have hgl : [c] ++ cs ++ [b] ++ bs = g.lines := by unfold Group.lines; rw [hc, hb]; simp
        rw [hgl, ih (fun g hg' => hg g (List.mem_cons_of_mem _ hg')) _ _ (sub_group hgo)]
        simp

/-- **C109.** A material card - comment lines, the line with the name, continuation lines, and further parts
under comments of their own - is read as exactly what it says: the name, the comments as header, and in order
each part with its comment, its zaids with their fractions and its keywords. A part under the name that says no
zaid is left out. Partial: Proved for every card whose pairs stay on a line, whose comments are not indented and that does not end with a comment; the full claim is false: broken_pair, indented_comment, keywords_lost, comment_at_end. -/
theorem material_read_partial (num : Str → Option ℚ) (text hs : List Str) (l nm rest : Str) (body : List Str)
    (zs0 zs : List Zaid) (ks0 ks : List Str) (gs : List Group)
    (ht : text.map delCR = hs ++ l :: (body ++ gs.flatMap Group.lines))
    (hh : ∀ l ∈ hs, isComm l = true) (hn : NameLine l nm rest) (h0 : LineSays num rest zs0 ks0)
    (hb : ∀ l ∈ body, BodyLine l) (hbs : BodySays num body zs ks) (hg : ∀ g ∈ gs, GroupOk num g) :
    matFromText num text = .ok ⟨nm, some hs.flatten,
      (if zs0 ++ zs = [] then [] else [mkSub (zs0 ++ zs) (some []) (ks0 ++ ks)]) ++ gs.map Group.read, []⟩ := by
  obtain ⟨sp, e, hsp, _, hw⟩ := nameLine_name hn
  unfold matFromText
  rw [ht, loop_comments num hs _ hh, matLoop]
  simp only [e, Option.isSome_some, if_true, nameLine_not_comm hn, List.nil_append]
  rw [loop_body num body _ hb, loop_groups num gs hg _ _ _ (by
    rw [List.singleton_append]; exact sub_first hn h0 hb hbs)]
  simp only [List.nil_append, List.singleton_append, List.map_map]
  rw [strip_word hw]
  rfl

end F4Enix.Mat
