import Verif.Mat.InfoBuild
/-!
# The xml text of materials (C190)

`indent` (`src/f4enix/input/materials.py:45-70`), the tree made by the three `to_xml` (201-219, 531-557, 1018-1039) and `MatCardsList.to_xml` (1554-1577). `ET.tostring` is modelled
as it is in CPython 3: escaping, short empty elements.
-/
namespace F4Enix.MatInfo
open F4Enix F4Enix.Mat

/-! ### model -/

/-- `xml.etree.ElementTree.Element`: tag, attributes, text before the children, text behind the element, children (ElementTree) -/
inductive Xml where
  | node (tag : Str) (attrs : List (Str × Str)) (text tail : Option Str) (kids : List Xml)

/-- `not s or not s.strip()` (materials.py:45-70) -/
def blank : Option Str → Bool
  | none => true
  | some s => (strip s).isEmpty

/-- `"\n" + level * "  "` (materials.py:57) -/
def newline (level : ℕ) : Str := '\n' :: List.replicate (2 * level) ' '

/-- the text behind an element (ElementTree, materials.py:45-70) -/
def Xml.tail : Xml → Option Str
  | .node _ _ _ tl _ => tl

/-- assignment to `elem.tail` (ElementTree, materials.py:45-70) -/
def Xml.setTail : Xml → Option Str → Xml
  | .node t a tx _ ks, tl => .node t a tx tl ks

/-- after the loop `elem` is the last child: `if not elem.tail or not elem.tail.strip(): elem.tail = i` (materials.py:66-67) -/
def closeLast (level : ℕ) : List Xml → List Xml
  | [] => []
  | [x] => [if blank x.tail then x.setTail (some (newline level)) else x]
  | x :: y :: r => x :: closeLast level (y :: r)

mutual
/-- `indent` (materials.py:45-70) -/
def indent (level : ℕ) : Xml → Xml
  | .node t a tx tl [] => .node t a tx (if level ≠ 0 ∧ blank tl = true then some (newline level) else tl) []
  | .node t a tx tl (k :: ks) =>
    .node t a (if blank tx = true then some (newline level ++ "  ".toList) else tx) (if blank tl = true then some (newline level) else tl)
      (closeLast level (indentAll (level + 1) (k :: ks)))
/-- the loop over the children (materials.py:64-65) -/
def indentAll (level : ℕ) : List Xml → List Xml
  | [] => []
  | x :: xs => indent level x :: indentAll level xs
end

/-- `_escape_cdata` of `ElementTree` (ElementTree) -/
def escText (s : Str) : Str :=
  s.flatMap (fun c => if c = '&' then "&amp;".toList else if c = '<' then "&lt;".toList else if c = '>' then "&gt;".toList else [c])

/-- `_escape_attrib` of `ElementTree` (ElementTree) -/
def escAttr (s : Str) : Str :=
  s.flatMap (fun c => if c = '&' then "&amp;".toList else if c = '<' then "&lt;".toList else if c = '>' then "&gt;".toList
    else if c = '"' then "&quot;".toList else if c = '\r' then "&#13;".toList else if c = '\n' then "&#10;".toList else if c = '\t' then "&#09;".toList else [c])

/-- the attributes as they are written (ElementTree) -/
def attrText (as : List (Str × Str)) : Str := as.flatMap (fun p => ' ' :: p.1 ++ "=\"".toList ++ escAttr p.2 ++ ['"'])

/-- `if text: write(escape(text))` (ElementTree) -/
def optText : Option Str → Str
  | none => []
  | some s => escText s

mutual
/-- `ET.tostring(..., encoding="unicode", method="xml")` (materials.py:1577) -/
def render : Xml → Str
  | .node t a tx tl ks =>
    '<' :: t ++ attrText a ++
      (if (tx.getD []).isEmpty ∧ ks.isEmpty then " />".toList else '>' :: optText tx ++ renderAll ks ++ ('<' :: '/' :: t ++ ['>'])) ++ optText tl
/-- the children, one after the other (ElementTree) -/
def renderAll : List Xml → Str
  | [] => []
  | x :: xs => render x ++ renderAll xs
end

/-- `ET.SubElement(…, "nuclide", name=nuclide, wo=…)` or `ao=…` (materials.py:211-219); `fmt` is `str` of a number -/
def nuclideXml (fmt : ℚ → Str) (n : Nuclide) : Xml :=
  .node "nuclide".toList [("name".toList, n.name), (if n.byMass then "wo".toList else "ao".toList, fmt n.amount)] none none []

/-- `ET.SubElement(material_tree, "material", …)` with its children (materials.py:1035-1039) -/
def materialXml (fmt : ℚ → Str) (x : XMat) : Xml :=
  .node "material".toList [("id".toList, x.id), ("name".toList, x.name)] none none
    (.node "density".toList [("value".toList, fmt x.density), ("units".toList, x.units)] none none [] :: x.nuclides.map (nuclideXml fmt))

/-- `MatCardsList.to_xml` (materials.py:1554-1577) -/
def xmlText (lm : LibMan) (fmt : ℚ → Str) (ms : List (Material × Option ℚ)) : Except PyErr Str :=
  match listXml lm ms with
  | .error e => .error e
  | .ok xs => .ok (render (indent 0 (.node "materials".toList [] none none (xs.map (materialXml fmt)))))

/-! ### specification -/

mutual
/-- the element without the texts that are only space (specification) -/
def Xml.bare : Xml → Xml
  | .node t a tx tl ks => .node t a (if blank tx = true then none else tx) (if blank tl = true then none else tl) (bareAll ks)
/-- `bareAll` (specification) -/
def bareAll : List Xml → List Xml
  | [] => []
  | x :: xs => x.bare :: bareAll xs
end

/-- start of a line at depth `d` (specification) -/
def margin (d : ℕ) : Str := List.replicate (2 * d) ' '

mutual
/-- the lines of an element at depth `d`: an element without children on one line, another between its start and its end, its children one deeper (specification) -/
def layout (d : ℕ) : Xml → List Str
  | .node t a _ _ [] => [margin d ++ '<' :: t ++ attrText a ++ " />".toList]
  | .node t a _ _ (k :: ks) => (margin d ++ '<' :: t ++ attrText a ++ ">".toList) :: layoutAll (d + 1) (k :: ks) ++ [margin d ++ "</".toList ++ t ++ ">".toList]
/-- `layoutAll` (specification) -/
def layoutAll (d : ℕ) : List Xml → List Str
  | [] => []
  | x :: xs => layout d x ++ layoutAll d xs
end

mutual
/-- no texts, as `SubElement` makes them (specification) -/
def Plain : Xml → Prop
  | .node _ _ tx tl ks => tx = none ∧ tl = none ∧ PlainAll ks
/-- `PlainAll` (specification) -/
def PlainAll : List Xml → Prop
  | [] => True
  | x :: xs => Plain x ∧ PlainAll xs
end

/-- lines, each with its end (specification) -/
def endLines (ls : List Str) : Str := ls.flatMap (fun l => l ++ ['\n'])

/-! ### lemmas -/

theorem newline_space (level : ℕ) : ∀ c ∈ newline level, isSpace c = true := by
  intro c hc
  unfold newline at hc
  rcases List.mem_cons.1 hc with rfl | hc
  · decide
  · rw [(List.mem_replicate.1 hc).2]; decide

theorem strip_spaces {s : Str} (h : ∀ c ∈ s, isSpace c = true) : strip s = [] := by
  have hl : lstrip s = [] := by
    unfold lstrip
    induction s with
    | nil => rfl
    | cons c s ih =>
      rw [List.dropWhile_cons_of_pos (h c (by simp))]
      exact ih (fun d hd => h d (by simp [hd]))
  unfold strip
  rw [hl]
  rfl

theorem blank_newline (level : ℕ) : blank (some (newline level)) = true := by
  show (strip (newline level)).isEmpty = true
  rw [strip_spaces (newline_space level)]
  rfl

theorem blank_deeper (level : ℕ) : blank (some (newline level ++ "  ".toList)) = true := by
  show (strip (newline level ++ "  ".toList)).isEmpty = true
  rw [strip_spaces]
  · rfl
  · intro c hc
    rcases List.mem_append.1 hc with hc | hc
    · exact newline_space level c hc
    · have : ∀ c ∈ "  ".toList, isSpace c = true := by decide
      exact this c hc

theorem setTail_bare {x : Xml} {level : ℕ} (h : blank x.tail = true) : (x.setTail (some (newline level))).bare = x.bare := by
  cases x with
  | node t a tx tl ks =>
    simp only [Xml.tail] at h
    simp only [Xml.setTail, Xml.bare, blank_newline, if_true, h]

theorem closeLast_bare (level : ℕ) (xs : List Xml) : bareAll (closeLast level xs) = bareAll xs := by
  induction xs with
  | nil => rfl
  | cons x xs ih =>
    cases xs with
    | nil =>
      simp only [closeLast, bareAll]
      by_cases h : blank x.tail = true
      · rw [if_pos h, setTail_bare h]
      · rw [if_neg h]
    | cons y r =>
      simp only [closeLast, bareAll] at ih ⊢
      rw [ih]

mutual
theorem indent_bare (level : ℕ) : ∀ x : Xml, (indent level x).bare = x.bare
  | .node t a tx tl [] => by
    simp only [indent, Xml.bare]
    congr 1
    by_cases h : blank tl = true
    · by_cases h0 : level ≠ 0
      · have e : (if level ≠ 0 ∧ blank tl = true then some (newline level) else tl) = some (newline level) := if_pos ⟨h0, h⟩
        rw [e, blank_newline]; simp [h]
      · have e : (if level ≠ 0 ∧ blank tl = true then some (newline level) else tl) = tl := if_neg (fun q => h0 q.1)
        rw [e]
    · have e : (if level ≠ 0 ∧ blank tl = true then some (newline level) else tl) = tl := if_neg (fun q => h q.2)
      rw [e]
  | .node t a tx tl (k :: ks) => by
    have ih := indentAll_bare (level + 1) (k :: ks)
    simp only [indent, Xml.bare, closeLast_bare, ih]
    congr 1
    · by_cases h : blank tx = true
      · rw [if_pos h, blank_deeper]; simp [h]
      · rw [if_neg h]
    · by_cases h : blank tl = true
      · rw [if_pos h, blank_newline]; simp [h]
      · rw [if_neg h]
theorem indentAll_bare (level : ℕ) : ∀ xs : List Xml, bareAll (indentAll level xs) = bareAll xs
  | [] => rfl
  | x :: xs => by
    simp only [indentAll, bareAll]
    rw [indent_bare level x, indentAll_bare level xs]
end

theorem closeLast_cons (level : ℕ) (x : Xml) (xs : List Xml) : ∃ y ys, closeLast level (x :: xs) = y :: ys := by
  cases xs with
  | nil => exact ⟨_, _, rfl⟩
  | cons z r => exact ⟨_, _, rfl⟩

theorem indentAll_cons (level : ℕ) (x : Xml) (xs : List Xml) : indentAll level (x :: xs) = indent level x :: indentAll level xs := rfl

/-- indenting an element whose tail was replaced by a blank one -/
theorem indent_setTail {level : ℕ} (h0 : level ≠ 0) {x : Xml} (hx : blank x.tail = true) {s : Option Str} (hs : blank s = true) : indent level (x.setTail s) = indent level x := by
  cases x with
  | node t a tx tl ks =>
    simp only [Xml.tail] at hx
    cases ks with
    | nil => simp only [Xml.setTail, indent, hs, hx, and_true, if_pos h0]
    | cons k ks => simp only [Xml.setTail, indent, hs, hx, if_true]

theorem indentAll_closeLast {level : ℕ} (h0 : level ≠ 0) (n : ℕ) (xs : List Xml) : indentAll level (closeLast n xs) = indentAll level xs := by
  induction xs with
  | nil => rfl
  | cons x xs ih =>
    cases xs with
    | nil =>
      simp only [closeLast]
      by_cases h : blank x.tail = true
      · rw [if_pos h]
        simp only [indentAll, indent_setTail h0 h (blank_newline n)]
      · rw [if_neg h]
    | cons y r =>
      simp only [closeLast]
      rw [indentAll_cons, ih, indentAll_cons level x]

mutual
theorem indent_twice (level : ℕ) : ∀ x : Xml, indent level (indent level x) = indent level x
  | .node t a tx tl [] => by
    simp only [indent]
    congr 1
    by_cases h : level ≠ 0 ∧ blank tl = true
    · rw [if_pos h, blank_newline, if_pos ⟨h.1, rfl⟩]
    · rw [if_neg h, if_neg h]
  | .node t a tx tl (k :: ks) => by
    have ih := indentAll_twice (level + 1) (k :: ks)
    obtain ⟨y, ys, hy⟩ := closeLast_cons level (indent (level + 1) k) (indentAll (level + 1) ks)
    have e1 : closeLast level (indentAll (level + 1) (k :: ks)) = y :: ys := hy
    have e2 : closeLast level (indentAll (level + 1) (y :: ys)) = y :: ys := by
      rw [← e1, indentAll_closeLast (by omega), ih]
    simp only [indent, e1, e2]
    congr 1
    · by_cases h : blank tx = true
      · rw [if_pos h, blank_deeper, if_pos rfl]
      · rw [if_neg h, if_neg h]
    · by_cases h : blank tl = true
      · rw [if_pos h, blank_newline, if_pos rfl]
      · rw [if_neg h, if_neg h]
theorem indentAll_twice (level : ℕ) : ∀ xs : List Xml, indentAll level (indentAll level xs) = indentAll level xs
  | [] => rfl
  | x :: xs => by
    simp only [indentAll]
    rw [indent_twice level x, indentAll_twice level xs]
end

theorem escText_space {s : Str} (h : ∀ c ∈ s, isSpace c = true) : escText s = s := by
  induction s with
  | nil => rfl
  | cons c s ih =>
    have hc := h c (by simp)
    have ih' := ih (fun d hd => h d (by simp [hd]))
    unfold escText at ih' ⊢
    rw [List.flatMap_cons, ih', if_neg (by rintro rfl; revert hc; decide), if_neg (by rintro rfl; revert hc; decide), if_neg (by rintro rfl; revert hc; decide)]
    rfl

theorem endLines_append (a b : List Str) : endLines (a ++ b) = endLines a ++ endLines b := by
  unfold endLines; rw [List.flatMap_append]

theorem render_tail (x : Xml) : render x = render (x.setTail none) ++ optText x.tail := by
  cases x with
  | node t a tx tl ks => simp [render, Xml.setTail, Xml.tail, optText]

theorem setTail_twice (x : Xml) (s t : Option Str) : (x.setTail s).setTail t = x.setTail t := by cases x; rfl
theorem tail_setTail (x : Xml) (s : Option Str) : (x.setTail s).tail = s := by cases x; rfl

theorem plain_tail {level : ℕ} (h0 : level ≠ 0) {x : Xml} (h : Plain x) : (indent level x).tail = some (newline level) := by
  cases x with
  | node t a tx tl ks =>
    obtain ⟨-, h2, -⟩ := h
    subst h2
    cases ks with
    | nil => simp only [indent, Xml.tail]; rw [if_pos ⟨h0, rfl⟩]
    | cons k ks => simp only [indent, Xml.tail, blank, if_true]

theorem newline_margin (n : ℕ) : newline n = '\n' :: margin n := rfl

theorem margin_deeper (n : ℕ) : margin n ++ "  ".toList = margin (n + 1) := by
  unfold margin
  rw [show "  ".toList = List.replicate 2 ' ' from rfl, List.replicate_append_replicate]
  rfl

mutual
theorem layout_core (level : ℕ) : ∀ x : Xml, Plain x → margin level ++ render ((indent level x).setTail none) ++ ['\n'] = endLines (layout level x)
  | .node t a tx tl [], h => by
    obtain ⟨h1, h2, -⟩ := h
    subst h1
    simp [indent, Xml.setTail, render, optText, layout, endLines]
  | .node t a tx tl (k :: ks), h => by
    obtain ⟨h1, h2, h3⟩ := h
    subst h1
    have ih := layout_kids level (k :: ks) h3 (by simp)
    have hne : (newline level ++ "  ".toList) = '\n' :: margin (level + 1) := by
      rw [newline_margin, List.cons_append, margin_deeper]
    simp only [indent, Xml.setTail, render, blank, if_true]
    rw [hne]
    have hesc : optText (some ('\n' :: margin (level + 1))) = '\n' :: margin (level + 1) := by
      unfold optText
      exact escText_space (newline_space (level + 1))
    rw [hesc]
    simp only [Option.getD_some, List.isEmpty_cons, Bool.false_eq_true, false_and, if_false, optText, List.append_nil]
    have hl : layout level (.node t a none tl (k :: ks)) = (margin level ++ '<' :: t ++ attrText a ++ ">".toList) :: (layoutAll (level + 1) (k :: ks) ++ [margin level ++ "</".toList ++ t ++ ">".toList]) := by
      simp [layout]
    rw [hl, show ∀ (u : Str) (v : List Str), endLines (u :: v) = u ++ ['\n'] ++ endLines v from fun u v => by simp [endLines], endLines_append]
    have ih' : margin (level + 1) ++ renderAll (closeLast level (indentAll (level + 1) (k :: ks))) = endLines (layoutAll (level + 1) (k :: ks)) ++ margin level := ih
    have : endLines [margin level ++ "</".toList ++ t ++ ">".toList] = margin level ++ "</".toList ++ t ++ ">".toList ++ ['\n'] := by simp [endLines]
    rw [this]
    calc _ = margin level ++ '<' :: t ++ attrText a ++ '>' :: '\n' :: (margin (level + 1) ++ renderAll (closeLast level (indentAll (level + 1) (k :: ks)))) ++ ('<' :: '/' :: t ++ ['>']) ++ ['\n'] := by
            simp [List.append_assoc]
      _ = _ := by rw [ih']; simp [List.append_assoc]
theorem layout_kids (level : ℕ) : ∀ (xs : List Xml), PlainAll xs → xs ≠ [] →
    margin (level + 1) ++ renderAll (closeLast level (indentAll (level + 1) xs)) = endLines (layoutAll (level + 1) xs) ++ margin level
  | [], _, h => absurd rfl h
  | [x], h, _ => by
    have ih := layout_core (level + 1) x h.1
    have ht := plain_tail (level := level + 1) (by omega) h.1
    simp only [indentAll, closeLast, ht, blank_newline, if_true, renderAll, List.append_nil, layoutAll]
    rw [render_tail, setTail_twice, tail_setTail]
    have hesc : optText (some (newline level)) = '\n' :: margin level := escText_space (newline_space level)
    rw [hesc, ← ih]
    simp [List.append_assoc]
  | x :: y :: r, h, _ => by
    have ih1 := layout_core (level + 1) x h.1
    have ih2 := layout_kids level (y :: r) h.2 (by simp)
    have ht := plain_tail (level := level + 1) (by omega) h.1
    have hesc : optText (some (newline (level + 1))) = '\n' :: margin (level + 1) := escText_space (newline_space (level + 1))
    have e1 : layoutAll (level + 1) (x :: y :: r) = layout (level + 1) x ++ layoutAll (level + 1) (y :: r) := by simp only [layoutAll]
    have e2 : closeLast level (indentAll (level + 1) (x :: y :: r)) = indent (level + 1) x :: closeLast level (indentAll (level + 1) (y :: r)) := by
      simp only [indentAll, closeLast]
    rw [e1, e2, endLines_append]
    simp only [renderAll]
    rw [render_tail (indent (level + 1) x), ht, hesc]
    calc _ = margin (level + 1) ++ render ((indent (level + 1) x).setTail none) ++ ['\n'] ++
          (margin (level + 1) ++ renderAll (closeLast level (indentAll (level + 1) (y :: r)))) := by simp [List.append_assoc]
      _ = _ := by rw [ih1, ih2]; simp [List.append_assoc]
end

/-! ### C190 -/

/-- **C190** (nothing but space). Indenting a tree keeps its elements, their order and attributes and all texts that are not only space. -/
theorem indent_keeps (level : ℕ) (x : Xml) : (indent level x).bare = x.bare := indent_bare level x

/-- **C190** (once is enough). Indenting again changes nothing. -/
theorem indent_stable (level : ℕ) (x : Xml) : indent level (indent level x) = indent level x := indent_twice level x

/-- **C190** (layout). The text of an indented tree without texts of its own that has children is its lines, an element without children on one line, the others between a line for their start and one for their end, two
blanks for each depth. -/
theorem indent_layout {x : Xml} (h : Plain x) (hk : ∃ t a tx tl k ks, x = .node t a tx tl (k :: ks)) : render (indent 0 x) = endLines (layout 0 x) := by
  obtain ⟨t, a, tx, tl, k, ks, rfl⟩ := hk
  have h2 : tl = none := h.2.1
  rw [← layout_core 0 _ h, render_tail]
  have : (indent 0 (.node t a tx tl (k :: ks))).tail = some (newline 0) := by
    simp only [indent, Xml.tail, h2, blank, if_true]
  rw [this]
  have hesc : optText (some (newline 0)) = '\n' :: margin 0 := escText_space (newline_space 0)
  rw [hesc]
  simp [margin]

/-- the lines of a material (specification) -/
def materialLines (fmt : ℚ → Str) (x : XMat) : List Str :=
  ["  <material id=\"".toList ++ escAttr x.id ++ "\" name=\"".toList ++ escAttr x.name ++ "\">".toList,
   "    <density value=\"".toList ++ escAttr (fmt x.density) ++ "\" units=\"".toList ++ escAttr x.units ++ "\" />".toList] ++
  x.nuclides.map (fun n => "    <nuclide name=\"".toList ++ escAttr n.name ++ (if n.byMass then "\" wo=\"".toList else "\" ao=\"".toList) ++ escAttr (fmt n.amount) ++ "\" />".toList) ++
  ["  </material>".toList]

theorem plain_nuclides (fmt : ℚ → Str) (ns : List Nuclide) : PlainAll (ns.map (nuclideXml fmt)) := by
  induction ns with
  | nil => trivial
  | cons n ns ih => exact ⟨⟨rfl, rfl, trivial⟩, ih⟩

theorem plain_materials (fmt : ℚ → Str) (xs : List XMat) : PlainAll (xs.map (materialXml fmt)) := by
  induction xs with
  | nil => trivial
  | cons x xs ih => exact ⟨⟨rfl, rfl, ⟨rfl, rfl, trivial⟩, plain_nuclides fmt _⟩, ih⟩

theorem layout_nuclides (fmt : ℚ → Str) (ns : List Nuclide) : layoutAll (1 + 1) (ns.map (nuclideXml fmt)) =
    ns.map (fun n => "    <nuclide name=\"".toList ++ escAttr n.name ++ (if n.byMass then "\" wo=\"".toList else "\" ao=\"".toList) ++ escAttr (fmt n.amount) ++ "\" />".toList) := by
  induction ns with
  | nil => rfl
  | cons n ns ih =>
    simp only [List.map_cons, layoutAll, ih, nuclideXml, layout, attrText, List.flatMap_cons, List.flatMap_nil]
    rw [show margin (1 + 1) = "    ".toList from rfl]
    cases n.byMass <;> simp [List.append_assoc]

theorem layout_materials (fmt : ℚ → Str) (xs : List XMat) : layoutAll 1 (xs.map (materialXml fmt)) = xs.flatMap (materialLines fmt) := by
  induction xs with
  | nil => rfl
  | cons x xs ih =>
    simp only [List.map_cons, layoutAll, ih, List.flatMap_cons]
    congr 1
    simp only [materialXml, layout, layoutAll, layout_nuclides, attrText, List.flatMap_cons, List.flatMap_nil, materialLines]
    rw [show margin 1 = "  ".toList from rfl, show margin (1 + 1) = "    ".toList from rfl]
    simp [List.append_assoc]

/-- **C190** (the text of materials). `to_xml` of a list of materials is, between `<materials>` and `</materials>`, the lines of each material in order: start with id and name, density with units, one line per nuclide, end; for no
materials it is `<materials />`. It fails if a material cannot be written. -/
theorem xml_text (lm : LibMan) (fmt : ℚ → Str) (ms : List (Material × Option ℚ)) :
    (∀ xs, listXml lm ms = .ok xs → xs ≠ [] → xmlText lm fmt ms = .ok (endLines ("<materials>".toList :: xs.flatMap (materialLines fmt) ++ ["</materials>".toList]))) ∧
    (ms = [] → xmlText lm fmt ms = .ok "<materials />".toList) ∧ (∀ e, listXml lm ms = .error e → xmlText lm fmt ms = .error e) := by
  refine ⟨?_, ?_, ?_⟩
  · intro xs h h0
    unfold xmlText
    rw [h]
    cases xs with
    | nil => exact absurd rfl h0
    | cons x xs =>
      simp only
      have hp : Plain (.node "materials".toList [] none none ((x :: xs).map (materialXml fmt))) := ⟨rfl, rfl, plain_materials fmt (x :: xs)⟩
      rw [indent_layout hp ⟨_, _, _, _, _, _, rfl⟩]
      congr 2
      have := layout_materials fmt (x :: xs)
      simp only [List.map_cons] at this ⊢
      simp only [layout, attrText, List.flatMap_nil, List.append_nil]
      rw [show (0 : ℕ) + 1 = 1 from rfl, this]
      rfl
  · rintro rfl
    rfl
  · intro e h
    unfold xmlText
    rw [h]

/-- **C190** (attributes). What is written of a value never holds a quote, an end of line or an angle bracket, so a line of the text is one element and its attributes end where they should. -/
theorem attr_safe (s : Str) : ∀ c ∈ escAttr s, c ≠ '"' ∧ c ≠ '<' ∧ c ≠ '>' ∧ c ≠ '\n' := by
  intro c hc
  unfold escAttr at hc
  obtain ⟨d, -, hd⟩ := List.mem_flatMap.1 hc
  clear hc
  split at hd
  · revert hd; revert c; decide
  split at hd
  · revert hd; revert c; decide
  split at hd
  · revert hd; revert c; decide
  split at hd
  · revert hd; revert c; decide
  split at hd
  · revert hd; revert c; decide
  split at hd
  · revert hd; revert c; decide
  split at hd
  · revert hd; revert c; decide
  · rename_i h1 h2 h3 h4 h5 h6 h7
    rw [List.mem_singleton] at hd
    subst hd
    exact ⟨h4, h2, h3, h6⟩

end F4Enix.MatInfo
