import Verif.Mat.Xml
/-!
# The xml text of materials read again (C190)

A small reader of xml texts (elements, attributes in double quotes, texts, the five references the writer of `ElementTree` makes), written
independently of the writer, and the proof that it gets back every tree that is written.
-/
namespace F4Enix.MatInfo
open F4Enix F4Enix.Mat

/-! ### specification: a reader of xml texts -/

/-- a text with its references replaced by what they stand for (specification) -/
def unref : Str → Str
  | '&' :: 'a' :: 'm' :: 'p' :: ';' :: r => '&' :: unref r
  | '&' :: 'l' :: 't' :: ';' :: r => '<' :: unref r
  | '&' :: 'g' :: 't' :: ';' :: r => '>' :: unref r
  | '&' :: 'q' :: 'u' :: 'o' :: 't' :: ';' :: r => '"' :: unref r
  | '&' :: '#' :: '1' :: '3' :: ';' :: r => '\r' :: unref r
  | '&' :: '#' :: '1' :: '0' :: ';' :: r => '\n' :: unref r
  | '&' :: '#' :: '0' :: '9' :: ';' :: r => '\t' :: unref r
  | c :: r => c :: unref r
  | [] => []

/-- a character of a tag or of the name of an attribute (specification) -/
def nameChar (c : Char) : Bool := !(c == ' ' || c == '/' || c == '>' || c == '<' || c == '=' || c == '"' || c == '&' || c == '\n' || c == '\t' || c == '\r')

/-- a text, if there is one (specification) -/
def someText (s : Str) : Option Str := if s.isEmpty then none else some (unref s)

/-- the attributes of a start tag, whether it is an empty element, and what follows (specification) -/
def readAttrs : ℕ → Str → Option (List (Str × Str) × Bool × Str)
  | 0, _ => none
  | _ + 1, '>' :: r => some ([], false, r)
  | _ + 1, ' ' :: '/' :: '>' :: r => some ([], true, r)
  | n + 1, ' ' :: r =>
    match r.dropWhile nameChar with
    | '=' :: '"' :: v =>
      match v.dropWhile (· != '"') with
      | '"' :: r' =>
        match readAttrs n r' with
        | none => none
        | some (as, e, r'') => some ((r.takeWhile nameChar, unref (v.takeWhile (· != '"'))) :: as, e, r'')
      | _ => none
    | _ => none
  | _ + 1, _ => none

mutual
/-- an element and what follows it and the text behind it (specification) -/
def readNode : ℕ → Str → Option (Xml × Str)
  | 0, _ => none
  | n + 1, '<' :: r =>
    match readAttrs n (r.dropWhile nameChar) with
    | none => none
    | some (as, true, r2) => some (.node (r.takeWhile nameChar) as none (someText (r2.takeWhile (· != '<'))) [], r2.dropWhile (· != '<'))
    | some (as, false, r2) =>
      match readKids n (r2.dropWhile (· != '<')) with
      | some (ks, '<' :: '/' :: r3) =>
        match r3.dropWhile nameChar with
        | '>' :: r4 =>
          if r3.takeWhile nameChar = r.takeWhile nameChar then
            some (.node (r.takeWhile nameChar) as (someText (r2.takeWhile (· != '<'))) (someText (r4.takeWhile (· != '<'))) ks, r4.dropWhile (· != '<'))
          else none
        | _ => none
      | _ => none
  | _ + 1, _ => none
/-- the children of an element, up to its end (specification) -/
def readKids : ℕ → Str → Option (List Xml × Str)
  | 0, _ => none
  | n + 1, s =>
    if s.take 2 = ['<', '/'] then some ([], s)
    else match readNode n s with
      | none => none
      | some (x, r) =>
        match readKids n r with
        | none => none
        | some (xs, r') => some (x :: xs, r')
end

/-- a text that is one element (specification) -/
def readXml (s : Str) : Option Xml :=
  match readNode (s.length + 1) s with
  | some (x, []) => some x
  | _ => none

mutual
/-- names of characters of names, no text that is empty (specification) -/
def Named : Xml → Prop
  | .node t a tx tl ks => (∀ c ∈ t, nameChar c = true) ∧ (∀ p ∈ a, ∀ c ∈ p.1, nameChar c = true) ∧ tx ≠ some [] ∧ tl ≠ some [] ∧ NamedAll ks
/-- `NamedAll` (specification) -/
def NamedAll : List Xml → Prop
  | [] => True
  | x :: xs => Named x ∧ NamedAll xs
end

/-! ### lemmas -/

theorem unref_other {c : Char} (hc : c ≠ '&') (r : Str) : unref (c :: r) = c :: unref r := by
  rw [unref.eq_def]
  split
  case h_8 => rename_i h; simp only [List.cons.injEq] at h; rw [h.1, h.2]
  all_goals simp_all

theorem unref_escAttr (s : Str) : unref (escAttr s) = s := by
  induction s with
  | nil => rfl
  | cons c s ih =>
    have hs : escAttr (c :: s) = (if c = '&' then "&amp;".toList else if c = '<' then "&lt;".toList else if c = '>' then "&gt;".toList
      else if c = '"' then "&quot;".toList else if c = '\r' then "&#13;".toList else if c = '\n' then "&#10;".toList else if c = '\t' then "&#09;".toList else [c]) ++ escAttr s := by
      simp only [escAttr, List.flatMap_cons]
    rw [hs]
    by_cases h1 : c = '&'
    · subst h1; rw [if_pos rfl]; exact congrArg ('&' :: ·) ih
    rw [if_neg h1]
    by_cases h2 : c = '<'
    · subst h2; rw [if_pos rfl]; exact congrArg ('<' :: ·) ih
    rw [if_neg h2]
    by_cases h3 : c = '>'
    · subst h3; rw [if_pos rfl]; exact congrArg ('>' :: ·) ih
    rw [if_neg h3]
    by_cases h4 : c = '"'
    · subst h4; rw [if_pos rfl]; exact congrArg ('"' :: ·) ih
    rw [if_neg h4]
    by_cases h5 : c = '\r'
    · subst h5; rw [if_pos rfl]; exact congrArg ('\r' :: ·) ih
    rw [if_neg h5]
    by_cases h6 : c = '\n'
    · subst h6; rw [if_pos rfl]; exact congrArg ('\n' :: ·) ih
    rw [if_neg h6]
    by_cases h7 : c = '\t'
    · subst h7; rw [if_pos rfl]; exact congrArg ('\t' :: ·) ih
    rw [if_neg h7]
    show unref (c :: escAttr s) = _
    rw [unref_other h1, ih]

theorem unref_escText (s : Str) : unref (escText s) = s := by
  induction s with
  | nil => rfl
  | cons c s ih =>
    have hs : escText (c :: s) = (if c = '&' then "&amp;".toList else if c = '<' then "&lt;".toList else if c = '>' then "&gt;".toList else [c]) ++ escText s := by
      simp only [escText, List.flatMap_cons]
    rw [hs]
    by_cases h1 : c = '&'
    · subst h1; rw [if_pos rfl]; exact congrArg ('&' :: ·) ih
    rw [if_neg h1]
    by_cases h2 : c = '<'
    · subst h2; rw [if_pos rfl]; exact congrArg ('<' :: ·) ih
    rw [if_neg h2]
    by_cases h3 : c = '>'
    · subst h3; rw [if_pos rfl]; exact congrArg ('>' :: ·) ih
    rw [if_neg h3]
    show unref (c :: escText s) = _
    rw [unref_other h1, ih]

theorem escText_safe (s : Str) : ∀ c ∈ escText s, (c != '<') = true := by
  intro c hc
  unfold escText at hc
  obtain ⟨d, -, hd⟩ := List.mem_flatMap.1 hc
  clear hc
  split at hd
  · revert hd; revert c; decide
  split at hd
  · revert hd; revert c; decide
  split at hd
  · revert hd; revert c; decide
  · rename_i h1 h2 h3
    rw [List.mem_singleton] at hd
    subst hd
    simpa using h2

theorem takeWhile_front {p : Char → Bool} {a b : Str} (ha : ∀ c ∈ a, p c = true) (hb : ∀ c ∈ b.head?, p c = false) : (a ++ b).takeWhile p = a := by
  rw [List.takeWhile_append_of_pos ha]
  cases b with
  | nil => simp
  | cons c b => rw [List.takeWhile_cons_of_neg (by simp [hb c (by simp)])]; simp

theorem dropWhile_front {p : Char → Bool} {a b : Str} (ha : ∀ c ∈ a, p c = true) (hb : ∀ c ∈ b.head?, p c = false) : (a ++ b).dropWhile p = b := by
  rw [List.dropWhile_append_of_pos ha]
  cases b with
  | nil => simp
  | cons c b => rw [List.dropWhile_cons_of_neg (by simp [hb c (by simp)])]

theorem escText_nil {s : Str} (h : escText s = []) : s = [] := by
  have := unref_escText s
  rw [h] at this
  exact this.symm

theorem text_back {o : Option Str} (h : o ≠ some []) : someText (optText o) = o := by
  unfold someText
  cases o with
  | none => rfl
  | some s =>
    have : escText s ≠ [] := fun hh => h (by rw [escText_nil hh])
    show (if (escText s).isEmpty then none else some (unref (escText s))) = _
    rw [if_neg (by simpa using this), unref_escText]

theorem optText_safe (o : Option Str) : ∀ c ∈ optText o, (c != '<') = true := by
  cases o with
  | none => intro c hc; cases hc
  | some s => exact escText_safe s

theorem attrs_back {as : List (Str × Str)} (ha : ∀ p ∈ as, ∀ c ∈ p.1, nameChar c = true) (n : ℕ) (hn : as.length + 1 ≤ n) (r : Str) :
    readAttrs n (attrText as ++ '>' :: r) = some (as, false, r) ∧ readAttrs n (attrText as ++ " />".toList ++ r) = some (as, true, r) := by
  induction as generalizing n with
  | nil =>
    obtain ⟨m, rfl⟩ : ∃ m, n = m + 1 := ⟨n - 1, by simp at hn; omega⟩
    exact ⟨rfl, rfl⟩
  | cons p as ih =>
    obtain ⟨m, rfl⟩ : ∃ m, n = m + 1 := ⟨n - 1, by simp at hn; omega⟩
    obtain ⟨k, v⟩ := p
    have hk : ∀ c ∈ k, nameChar c = true := ha (k, v) (by simp)
    obtain ⟨i1, i2⟩ := ih (fun q hq => ha q (by simp [hq])) m (by simp at hn; omega)
    have step : ∀ (rest : Str) (b : Bool), readAttrs m rest = some (as, b, r) →
        readAttrs (m + 1) (' ' :: (k ++ ('=' :: '"' :: (escAttr v ++ '"' :: rest)))) = some ((k, v) :: as, b, r) := by
      intro rest b hr
      have h1 : (k ++ ('=' :: '"' :: (escAttr v ++ '"' :: rest))).dropWhile nameChar = '=' :: '"' :: (escAttr v ++ '"' :: rest) :=
        dropWhile_front hk (by intro c hc; simp at hc; subst hc; rfl)
      have h2 : (k ++ ('=' :: '"' :: (escAttr v ++ '"' :: rest))).takeWhile nameChar = k :=
        takeWhile_front hk (by intro c hc; simp at hc; subst hc; rfl)
      have hv : ∀ c ∈ escAttr v, (c != '"') = true := fun c hc => by simpa using (attr_safe v c hc).1
      have h3 : (escAttr v ++ '"' :: rest).dropWhile (· != '"') = '"' :: rest := dropWhile_front hv (by intro c hc; simp at hc; subst hc; rfl)
      have h4 : (escAttr v ++ '"' :: rest).takeWhile (· != '"') = escAttr v := takeWhile_front hv (by intro c hc; simp at hc; subst hc; rfl)
      have hne : ∀ r0, k ++ ('=' :: '"' :: (escAttr v ++ '"' :: rest)) ≠ '/' :: '>' :: r0 := by
        intro r0 he
        cases k with
        | nil => simp at he
        | cons c k =>
          have := hk c (by simp)
          simp only [List.cons_append, List.cons.injEq] at he
          rw [he.1] at this
          cases this
      rw [readAttrs.eq_4 _ _ (fun r0 he => hne r0 he)]
      simp only [h1, h2, h3, h4, hr, unref_escAttr]
    have e1 : attrText ((k, v) :: as) ++ '>' :: r = ' ' :: (k ++ ('=' :: '"' :: (escAttr v ++ '"' :: (attrText as ++ '>' :: r)))) := by
      simp [attrText, List.append_assoc]
    have e2 : attrText ((k, v) :: as) ++ " />".toList ++ r = ' ' :: (k ++ ('=' :: '"' :: (escAttr v ++ '"' :: (attrText as ++ " />".toList ++ r)))) := by
      simp [attrText, List.append_assoc]
    rw [e1, e2]
    exact ⟨step _ _ i1, step _ _ i2⟩

mutual
/-- the steps the reader takes for an element (proof) -/
def cost : Xml → ℕ
  | .node _ a _ _ ks => 2 + a.length + costAll ks
/-- `costAll` (proof) -/
def costAll : List Xml → ℕ
  | [] => 1
  | x :: xs => 1 + cost x + costAll xs
end

theorem attrText_head (a : List (Str × Str)) (b : Str) (hb : ∀ c ∈ b.head?, nameChar c = false) : ∀ c ∈ (attrText a ++ b).head?, nameChar c = false := by
  cases a with
  | nil => simpa [attrText] using hb
  | cons p a => intro c hc; simp [attrText] at hc; subst hc; rfl

mutual
theorem node_back : ∀ (x : Xml), Named x → ∀ (n : ℕ), cost x ≤ n → ∀ (rest : Str), (∀ c ∈ rest.head?, c = '<') → readNode n (render x ++ rest) = some (x, rest)
  | .node t a tx tl ks, h, n, hn, rest, hr => by
    obtain ⟨ht, ha, htx, htl, hks⟩ := h
    simp only [cost] at hn
    obtain ⟨m, rfl⟩ : ∃ m, n = m + 1 := ⟨n - 1, by omega⟩
    have hrest : ∀ c ∈ rest.head?, (c != '<') = false := by intro c hc; rw [hr c hc]; rfl
    have ht1 : (optText tl ++ rest).takeWhile (· != '<') = optText tl := takeWhile_front (optText_safe tl) hrest
    have ht2 : (optText tl ++ rest).dropWhile (· != '<') = rest := dropWhile_front (optText_safe tl) hrest
    by_cases hE : (tx.getD []).isEmpty ∧ ks.isEmpty
    · have e : render (.node t a tx tl ks) ++ rest = '<' :: (t ++ (attrText a ++ " />".toList ++ (optText tl ++ rest))) := by
        simp only [render, if_pos hE]
        simp [List.append_assoc]
      have hh := attrText_head a (" />".toList ++ (optText tl ++ rest)) (by intro c hc; simp at hc; subst hc; rfl)
      rw [← List.append_assoc] at hh
      rw [e]
      simp only [readNode]
      rw [dropWhile_front ht hh, takeWhile_front ht hh, (attrs_back ha m (by have : 1 ≤ costAll ks := by cases ks <;> simp only [costAll] <;> omega
                                                                             omega) _).2]
      simp only
      rw [ht1, ht2, text_back htl]
      have hk : ks = [] := by simpa using hE.2
      subst hk
      cases tx with
      | none => rfl
      | some s =>
        have : s = [] := by simpa using hE.1
        exact absurd (by rw [this]) htx
    · have e : render (.node t a tx tl ks) ++ rest = '<' :: (t ++ (attrText a ++ '>' :: (optText tx ++ (renderAll ks ++ ('<' :: '/' :: (t ++ '>' :: (optText tl ++ rest))))))) := by
        simp only [render, if_neg hE]
        simp [List.append_assoc]
      have hh := attrText_head a ('>' :: (optText tx ++ (renderAll ks ++ ('<' :: '/' :: (t ++ '>' :: (optText tl ++ rest)))))) (by intro c hc; simp at hc; subst hc; rfl)
      have hk : ∀ c ∈ (renderAll ks ++ ('<' :: '/' :: (t ++ '>' :: (optText tl ++ rest)))).head?, (c != '<') = false := by
        cases ks with
        | nil => intro c hc; simp [renderAll] at hc; subst hc; rfl
        | cons x xs => cases x with | node t' a' tx' tl' ks' => intro c hc; simp [renderAll, render] at hc; subst hc; rfl
      rw [e]
      simp only [readNode]
      rw [dropWhile_front ht hh, takeWhile_front ht hh, (attrs_back ha m (by have : 1 ≤ costAll ks := by cases ks <;> simp only [costAll] <;> omega
                                                                             omega) _).1]
      simp only
      rw [dropWhile_front (optText_safe tx) hk, takeWhile_front (optText_safe tx) hk, kids_back ks hks m (by omega) _]
      have hq : ∀ c ∈ ('>' :: (optText tl ++ rest)).head?, nameChar c = false := by intro c hc; simp at hc; subst hc; rfl
      simp only [dropWhile_front ht hq, takeWhile_front ht hq, if_true, ht1, ht2, text_back htl, text_back htx]
theorem kids_back : ∀ (xs : List Xml), NamedAll xs → ∀ (n : ℕ), costAll xs ≤ n → ∀ (rest : Str), readKids n (renderAll xs ++ '<' :: '/' :: rest) = some (xs, '<' :: '/' :: rest)
  | [], _, n, hn, rest => by
    simp only [costAll] at hn
    obtain ⟨m, rfl⟩ : ∃ m, n = m + 1 := ⟨n - 1, by omega⟩
    show readKids (m + 1) ('<' :: '/' :: rest) = _
    unfold readKids
    exact if_pos rfl
  | x :: xs, h, n, hn, rest => by
    simp only [costAll] at hn
    obtain ⟨m, rfl⟩ : ∃ m, n = m + 1 := ⟨n - 1, by omega⟩
    have hr : ∀ c ∈ (renderAll xs ++ '<' :: '/' :: rest).head?, c = '<' := by
      cases xs with
      | nil => intro c hc; simp [renderAll] at hc; exact hc.symm
      | cons y ys => cases y with | node t' a' tx' tl' ks' => intro c hc; simp [renderAll, render] at hc; exact hc.symm
    have h1 := node_back x h.1 m (by omega) _ hr
    have h2 := kids_back xs h.2 m (by omega) rest
    have hne : ((render x ++ (renderAll xs ++ '<' :: '/' :: rest)).take 2 ≠ ['<', '/']) := by
      intro he
      cases x with
      | node t a tx tl ks =>
        obtain ⟨ht, -⟩ := h.1
        cases t with
        | cons c t =>
          have := ht c (by simp)
          simp [render] at he
          rw [he] at this
          cases this
        | nil =>
          simp only [render] at he
          cases a with
          | cons p a => simp [attrText] at he
          | nil =>
            by_cases hE : (tx.getD []).isEmpty ∧ ks.isEmpty
            · rw [if_pos hE] at he; simp [attrText] at he
            · rw [if_neg hE] at he; simp [attrText] at he
    have e : renderAll (x :: xs) ++ '<' :: '/' :: rest = render x ++ (renderAll xs ++ '<' :: '/' :: rest) := by simp only [renderAll, List.append_assoc]
    rw [e]
    unfold readKids
    rw [if_neg hne, h1]
    simp only
    rw [h2]
end

theorem attrText_length (a : List (Str × Str)) : a.length ≤ (attrText a).length := by
  induction a with
  | nil => simp
  | cons p a ih => simp only [attrText, List.flatMap_cons, List.length_append, List.length_cons] at ih ⊢; omega

mutual
theorem cost_le : ∀ x : Xml, cost x + 1 ≤ (render x).length
  | .node t a tx tl ks => by
    have h1 := attrText_length a
    have h2 := costAll_le ks
    simp only [cost, render]
    by_cases hE : (tx.getD []).isEmpty ∧ ks.isEmpty
    · have hk : ks = [] := by simpa using hE.2
      subst hk
      rw [if_pos hE]
      simp [costAll]
      omega
    · rw [if_neg hE]
      simp
      omega
theorem costAll_le : ∀ xs : List Xml, costAll xs ≤ (renderAll xs).length + 1
  | [] => by simp [costAll]
  | x :: xs => by
    have h1 := cost_le x
    have h2 := costAll_le xs
    simp only [costAll, renderAll, List.length_append]
    omega
end

/-- **C190** (read again). A tree whose names are names, written as text and read again, is the same tree: no value, text, child or order is lost or merged with its neighbours, whatever characters the values hold. -/
theorem xml_round_trip {x : Xml} (h : Named x) : readXml (render x) = some x := by
  have := node_back x h ((render x).length + 1) (by have := cost_le x; omega) [] (by intro c hc; cases hc)
  rw [List.append_nil] at this
  unfold readXml
  rw [this]

/-- **C190** (different trees, different texts). -/
theorem xml_injective {x y : Xml} (hx : Named x) (hy : Named y) (h : render x = render y) : x = y := by
  have h1 := xml_round_trip hx
  rw [h, xml_round_trip hy] at h1
  exact (Option.some.inj h1).symm

/-! ### the materials -/

theorem newline_ne (level : ℕ) : newline level ≠ [] := by unfold newline; simp

theorem closeLast_named (level : ℕ) : ∀ xs : List Xml, NamedAll xs → NamedAll (closeLast level xs)
  | [], _ => trivial
  | [x], h => by
    simp only [closeLast]
    split
    · cases x with
      | node t a tx tl ks =>
        obtain ⟨⟨h1, h2, h3, h4, h5⟩, -⟩ := h
        exact ⟨⟨h1, h2, h3, by simpa using newline_ne level, h5⟩, trivial⟩
    · exact h
  | x :: y :: r, h => ⟨h.1, closeLast_named level (y :: r) h.2⟩

mutual
theorem indent_named (level : ℕ) : ∀ x : Xml, Named x → Named (indent level x)
  | .node t a tx tl [], h => by
    obtain ⟨h1, h2, h3, h4, h5⟩ := h
    simp only [indent]
    refine ⟨h1, h2, h3, ?_, h5⟩
    split
    · simpa using newline_ne level
    · exact h4
  | .node t a tx tl (k :: ks), h => by
    obtain ⟨h1, h2, h3, h4, h5⟩ := h
    simp only [indent]
    refine ⟨h1, h2, ?_, ?_, closeLast_named level _ (indentAll_named (level + 1) (k :: ks) h5)⟩
    · split
      · simp
      · exact h3
    · split
      · simpa using newline_ne level
      · exact h4
theorem indentAll_named (level : ℕ) : ∀ xs : List Xml, NamedAll xs → NamedAll (indentAll level xs)
  | [], _ => trivial
  | x :: xs, h => ⟨indent_named level x h.1, indentAll_named level xs h.2⟩
end

mutual
theorem plain_bare : ∀ x : Xml, Plain x → x.bare = x
  | .node t a tx tl ks, h => by
    obtain ⟨rfl, rfl, h3⟩ := h
    simp only [Xml.bare, blank, if_true, plainAll_bare ks h3]
theorem plainAll_bare : ∀ xs : List Xml, PlainAll xs → bareAll xs = xs
  | [], _ => rfl
  | x :: xs, h => by simp only [bareAll, plain_bare x h.1, plainAll_bare xs h.2]
end

theorem named_nuclides (fmt : ℚ → Str) (ns : List Nuclide) : NamedAll (ns.map (nuclideXml fmt)) := by
  induction ns with
  | nil => trivial
  | cons n ns ih =>
    refine ⟨⟨by decide, ?_, by simp, by simp, trivial⟩, ih⟩
    intro p hp
    simp only [List.mem_cons, List.not_mem_nil, or_false] at hp
    rcases hp with rfl | rfl
    · show ∀ c ∈ "name".toList, nameChar c = true
      decide
    · show ∀ c ∈ (if n.byMass then "wo".toList else "ao".toList), nameChar c = true
      cases n.byMass <;> decide

theorem named_materials (fmt : ℚ → Str) (xs : List XMat) : NamedAll (xs.map (materialXml fmt)) := by
  induction xs with
  | nil => trivial
  | cons x xs ih =>
    refine ⟨⟨by decide, ?_, by simp, by simp, ⟨by decide, ?_, by simp, by simp, trivial⟩, named_nuclides fmt _⟩, ih⟩
    · intro p hp
      simp only [List.mem_cons, List.not_mem_nil, or_false] at hp
      rcases hp with rfl | rfl
      · show ∀ c ∈ "id".toList, nameChar c = true
        decide
      · show ∀ c ∈ "name".toList, nameChar c = true
        decide
    · intro p hp
      simp only [List.mem_cons, List.not_mem_nil, or_false] at hp
      rcases hp with rfl | rfl
      · show ∀ c ∈ "value".toList, nameChar c = true
        decide
      · show ∀ c ∈ "units".toList, nameChar c = true
        decide

/-- the materials that an xml tree shows, as texts: id, name, density, units, and name, kind and amount of each nuclide (specification) -/
structure ShownMat where
  id : Str
  name : Str
  density : Str
  units : Str
  nuclides : List (Str × Bool × Str)
deriving DecidableEq

/-- the nuclide an element shows (specification) -/
def shownNuclide : Xml → Option (Str × Bool × Str)
  | .node t [(n, v), (k, w)] _ _ [] =>
    if t = "nuclide".toList ∧ n = "name".toList then
      if k = "wo".toList then some (v, true, w) else if k = "ao".toList then some (v, false, w) else none
    else none
  | _ => none

/-- all or nothing (specification) -/
def allSome {α β : Type} (f : α → Option β) : List α → Option (List β)
  | [] => some []
  | a :: l =>
    match f a, allSome f l with
    | some b, some bs => some (b :: bs)
    | _, _ => none

/-- the material an element shows (specification) -/
def shownMat : Xml → Option ShownMat
  | .node t [(i, v), (n, w)] _ _ (.node d [(a, x), (b, y)] _ _ [] :: ks) =>
    if t = "material".toList ∧ i = "id".toList ∧ n = "name".toList ∧ d = "density".toList ∧ a = "value".toList ∧ b = "units".toList then
      (allSome shownNuclide ks).map (fun ns => ⟨v, w, x, y, ns⟩)
    else none
  | _ => none

/-- the materials that an xml text shows (specification) -/
def readMaterials (s : Str) : Option (List ShownMat) :=
  match readXml s with
  | some (.node t [] _ _ ks) => if t = "materials".toList then allSome shownMat ks else none
  | _ => none

theorem allSome_map {α β γ : Type} {f : β → Option γ} {g : α → β} {k : α → γ} (l : List α) (h : ∀ a ∈ l, f (g a) = some (k a)) :
    allSome f (l.map g) = some (l.map k) := by
  induction l with
  | nil => rfl
  | cons a l ih =>
    simp only [List.map_cons, allSome, h a (by simp), ih (fun b hb => h b (by simp [hb]))]

/-- two elements of which the one is the other with its texts changed show the same (proof) -/
theorem shownNuclide_bare (x : Xml) : shownNuclide x.bare = shownNuclide x := by
  cases x with
  | node t a tx tl ks =>
    cases ks with
    | nil => rcases a with _ | ⟨⟨n, v⟩, _ | ⟨⟨k, w⟩, _ | ⟨p, r⟩⟩⟩ <;> simp [Xml.bare, bareAll, shownNuclide]
    | cons k ks => rcases a with _ | ⟨⟨n, v⟩, _ | ⟨⟨k', w⟩, _ | ⟨p, r⟩⟩⟩ <;> simp [Xml.bare, bareAll, shownNuclide]

theorem allSome_nuclides_bare (xs : List Xml) : allSome shownNuclide (bareAll xs) = allSome shownNuclide xs := by
  induction xs with
  | nil => rfl
  | cons x xs ih => simp only [bareAll, allSome, shownNuclide_bare, ih]

theorem shownMat_bare (x : Xml) : shownMat x.bare = shownMat x := by
  cases x with
  | node t a tx tl ks =>
    rcases ks with _ | ⟨⟨d, b, tx', tl', ks'⟩, ks⟩
    · rcases a with _ | ⟨⟨n, v⟩, _ | ⟨⟨k, w⟩, _ | ⟨p, r⟩⟩⟩ <;> simp [Xml.bare, bareAll, shownMat]
    · rcases a with _ | ⟨⟨n, v⟩, _ | ⟨⟨k, w⟩, _ | ⟨p, r⟩⟩⟩
      · simp [Xml.bare, bareAll, shownMat]
      · simp [Xml.bare, bareAll, shownMat]
      · rcases b with _ | ⟨⟨n', v'⟩, _ | ⟨⟨k', w'⟩, _ | ⟨p', r'⟩⟩⟩
        · simp [Xml.bare, bareAll, shownMat]
        · simp [Xml.bare, bareAll, shownMat]
        · cases ks' with
          | nil => simp only [Xml.bare, bareAll, shownMat, allSome_nuclides_bare]
          | cons _ _ => simp [Xml.bare, bareAll, shownMat]
        · simp [Xml.bare, bareAll, shownMat]
      · simp [Xml.bare, bareAll, shownMat]

theorem allSome_mats_bare (xs : List Xml) : allSome shownMat (bareAll xs) = allSome shownMat xs := by
  induction xs with
  | nil => rfl
  | cons x xs ih => simp only [bareAll, allSome, shownMat_bare, ih]

/-- **C190** (materials read again). What `to_xml` writes, read as xml, shows every material with its id, name, density, units and nuclides (name, kind of fraction, amount), in the order of the list, whatever characters the names hold. -/
theorem xml_materials_read (lm : LibMan) (fmt : ℚ → Str) (ms : List (Material × Option ℚ)) {text : Str} (h : xmlText lm fmt ms = .ok text) :
    ∃ xs, listXml lm ms = .ok xs ∧
      readMaterials text = some (xs.map (fun x => ⟨x.id, x.name, fmt x.density, x.units, x.nuclides.map (fun n => (n.name, n.byMass, fmt n.amount))⟩)) := by
  unfold xmlText at h
  cases hl : listXml lm ms with
  | error e => simp [hl] at h
  | ok xs =>
    refine ⟨xs, rfl, ?_⟩
    simp only [hl, Except.ok.injEq] at h
    subst h
    have hn : Named (.node "materials".toList [] none none (xs.map (materialXml fmt))) :=
      ⟨by decide, (by intro p hp; cases hp), by simp, by simp, named_materials fmt xs⟩
    have hp : Plain (.node "materials".toList [] none none (xs.map (materialXml fmt))) := ⟨rfl, rfl, plain_materials fmt xs⟩
    have hr := xml_round_trip (indent_named 0 _ hn)
    have hb := indent_bare 0 (.node "materials".toList [] none none (xs.map (materialXml fmt)))
    rw [plain_bare _ hp] at hb
    unfold readMaterials
    rw [hr]
    generalize indent 0 (.node "materials".toList [] none none (xs.map (materialXml fmt))) = y at hb
    cases y with
    | node t a tx tl ks =>
      simp only [Xml.bare, Xml.node.injEq] at hb
      obtain ⟨rfl, rfl, -, -, hks⟩ := hb
      simp only [if_true]
      rw [← allSome_mats_bare, hks]
      apply allSome_map
      intro x _
      simp only [materialXml, shownMat]
      rw [if_pos (by simp only [and_self])]
      have : allSome shownNuclide (x.nuclides.map (nuclideXml fmt)) = some (x.nuclides.map (fun n => (n.name, n.byMass, fmt n.amount))) := by
        apply allSome_map
        intro n _
        simp only [nuclideXml, shownNuclide]
        rw [if_pos (by simp only [and_self])]
        cases n.byMass
        · simp
        · simp
      rw [this]
      rfl

/-! ### concrete cases -/

example : (readXml "<a x=\"1 &lt; 2\"><b />t&amp;t<c>u</c></a>".toList).map render = some "<a x=\"1 &lt; 2\"><b />t&amp;t<c>u</c></a>".toList := by
  decide +kernel

example : Named (.node "a".toList [("x".toList, "1 < 2 \"&\"".toList)] none none [.node "b".toList [] none (some "t&t".toList) []]) :=
  ⟨by decide, by decide, by simp, by simp, ⟨by decide, (by intro p hp; cases hp), by simp, by simp, trivial⟩, trivial⟩

example : readMaterials "<materials>\n  <material id=\"7\" name=\"M7 &amp; &quot;x&quot;\">\n    <density value=\"7\" units=\"g/cc\" />\n    <nuclide name=\"H1\" wo=\"0.5\" />\n  </material>\n</materials>\n".toList =
    some [⟨"7".toList, "M7 & \"x\"".toList, "7".toList, "g/cc".toList, [("H1".toList, true, "0.5".toList)]⟩] := by
  decide +kernel

example : (xmlText sampleLib (fun q => if q = 7 then "7".toList else "0.5".toList) [(⟨"M7".toList, [mkSub [⟨-1/2, "1".toList, "001".toList, none⟩, ⟨-1/2, "8".toList, "016".toList, none⟩] none []]⟩, some (-7))]).map String.ofList =
    .ok (String.ofList ("<materials>\n  <material id=\"7\" name=\"M7\">\n    <density value=\"7\" units=\"g/cc\" />\n    <nuclide name=\"H1\" wo=\"0.5\" />\n    <nuclide name=\"O16\" wo=\"0.5\" />\n  </material>\n</materials>\n".toList)) := by
  decide +kernel

end F4Enix.MatInfo
