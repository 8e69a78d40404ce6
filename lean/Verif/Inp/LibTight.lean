import Verif.Inp.SerpentProps
import Mathlib.Data.List.Infix
/-!
# Lines of Serpent and OpenMC directories, lines for Serpent in a folder (C158, C159), refusals of the manager (C156, C157)
-/
namespace F4Enix.LibM
open F4Enix F4Enix.Xs

/-! ### Serpent -/

/-- **C159.** What a line of a Serpent directory shows: the first word is the name, the sixth the mass (in units of the first atom mass unit, the
ratio is to the neutron), the seventh the temperature in kelvin, the ninth the file. (specification) -/
def SerpentShows (pf : Str → Option ℚ) (l : Str) (t : Table) : Prop :=
  ∃ n w1 w2 w3 w4 a T w7 f r qa qT, tokens l = n :: w1 :: w2 :: w3 :: w4 :: a :: T :: w7 :: f :: r ∧ pf a = some qa ∧ pf T = some qT ∧
    t.name = n ∧ t.filename = f ∧ t.awr * (1008664967 / 10 ^ 9) = qa ∧ (∃ x, t.temperature = some x ∧ x * (11604518025685 / 10 ^ 3) = qT)

/-- **C159 (reading).** A line with enough words whose numbers can be read gives the table it shows. -/
theorem serpent_line {pf : Str → Option ℚ} {l n w1 w2 w3 w4 a T w7 f : Str} {r : List Str} {qa qT : ℚ}
    (h : tokens l = n :: w1 :: w2 :: w3 :: w4 :: a :: T :: w7 :: f :: r) (ha : pf a = some qa) (hT : pf T = some qT) :
    ∃ t, serpentLine pf l = .ok (some t) ∧ SerpentShows pf l t := by
  refine ⟨serpentTable n (qa / (10086649670000 / 10 ^ 13)) f (qT / (11604518025685 / 10 ^ 3)), ?_, ?_⟩
  · unfold serpentLine
    rw [h]
    simp [ha, hT]
  · refine ⟨n, w1, w2, w3, w4, a, T, w7, f, r, qa, qT, h, ha, hT, rfl, rfl, ?_, _, rfl, ?_⟩
    · simp only [serpentTable]
      norm_num
    · norm_num

/-- **C159 (reading).** A file with two lines for each table is read as the list of the tables that the first lines show. -/
theorem serpent_file {pf : Str → Option ℚ} (ps : List (Str × Str))
    (h : ∀ p ∈ ps, ∃ n w1 w2 w3 w4 a T w7 f r qa qT, tokens p.1 = n :: w1 :: w2 :: w3 :: w4 :: a :: T :: w7 :: f :: r ∧ pf a = some qa ∧ pf T = some qT) :
    ∃ ts, serpentRead pf (ps.flatMap (fun p => [p.1, p.2])) = .ok ⟨none, [], ts⟩ ∧ List.Forall₂ (fun p t => SerpentShows pf p.1 t) ps ts := by
  have key : ∃ ts, List.Forall₂ (fun p t => serpentLine pf p.1 = .ok (some t)) ps ts ∧ List.Forall₂ (fun p t => SerpentShows pf p.1 t) ps ts := by
    induction ps with
    | nil => exact ⟨[], .nil, .nil⟩
    | cons p ps ih =>
      obtain ⟨ts, h1, h2⟩ := ih (fun q hq => h q (List.mem_cons_of_mem _ hq))
      obtain ⟨n, w1, w2, w3, w4, a, T, w7, f, r, qa, qT, e, ha, hT⟩ := h p List.mem_cons_self
      obtain ⟨t, e1, e2⟩ := serpent_line e ha hT
      exact ⟨t :: ts, .cons e1 h1, .cons e2 h2⟩
  obtain ⟨ts, h1, h2⟩ := key
  exact ⟨ts, serpent_pairs h1, h2⟩

/-- **C159 (refused).** A line with words but fewer than six of them (or with fewer than nine and a number as the sixth) is refused, and so is one
whose sixth word is no number; an empty line where a table is expected makes the reading of the file fail. -/
theorem serpent_refused {pf : Str → Option ℚ} {l : Str} :
    ((tokens l) ≠ [] → (tokens l).length < 6 → serpentLine pf l = .error .indexError) ∧
    (∀ a qa, (tokens l)[5]? = some a → pf a = some qa → (tokens l).length < 9 → serpentLine pf l = .error .indexError) ∧
    (∀ a, (tokens l)[5]? = some a → pf a = none → serpentLine pf l = .error .valueError) ∧
    (∀ a qa T, (tokens l)[5]? = some a → pf a = some qa → 9 ≤ (tokens l).length → (tokens l)[6]? = some T → pf T = none →
      serpentLine pf l = .error .valueError) ∧
    (tokens l = [] → serpentRead pf [l] = .error .typeError) := by
  refine ⟨?_, ?_, ?_, ?_, ?_⟩
  · intro h0 h1
    unfold serpentLine
    cases ht : tokens l with
    | nil => exact absurd ht h0
    | cons n ws =>
      rw [ht] at h1
      simp only [List.length_cons] at h1
      have : ws[4]? = none := List.getElem?_eq_none (by omega)
      simp only [this]
  · intro a qa h1 h2 h3
    unfold serpentLine
    cases ht : tokens l with
    | nil => rw [ht] at h1; simp at h1
    | cons n ws =>
      rw [ht] at h1 h3
      simp only [List.getElem?_cons_succ] at h1
      simp only [List.length_cons] at h3
      have : ws[7]? = none := List.getElem?_eq_none (by omega)
      simp only [h1, h2, this]
  · intro a h1 h2
    unfold serpentLine
    cases ht : tokens l with
    | nil => rw [ht] at h1; simp at h1
    | cons n ws =>
      rw [ht] at h1
      simp only [List.getElem?_cons_succ] at h1
      simp only [h1, h2]
  · intro a qa T h1 h2 h3 h4 h5
    unfold serpentLine
    cases ht : tokens l with
    | nil => rw [ht] at h1; simp at h1
    | cons n ws =>
      rw [ht] at h1 h3 h4
      simp only [List.getElem?_cons_succ] at h1 h4
      simp only [List.length_cons] at h3
      have h7 : 7 < ws.length := by omega
      simp only [h1, h2, List.getElem?_eq_getElem h7, h4, h5]
  · intro h
    unfold serpentRead
    simp only [evens, serpentLines, serpentLine, h]
    rfl

/-- the number of the kind of a table: 1 for continuous energies (c), 2 for dosimetry (y), 3 for thermal scattering (t) -/
theorem serpent_kind (t : Table) (s : Str) :
    (t.name = s ++ ['c'] → serpentType t = some 1) ∧ (t.name = s ++ ['y'] → serpentType t = some 2) ∧ (t.name = s ++ ['t'] → serpentType t = some 3) ∧
    (∀ c, t.name = s ++ [c] → c ≠ 'c' → c ≠ 'y' → c ≠ 't' → serpentType t = none) := by
  unfold serpentType
  refine ⟨?_, ?_, ?_, ?_⟩
  · intro h; rw [h]; simp
  · intro h; rw [h]; simp
  · intro h; rw [h]; simp
  · intro c h h1 h2 h3
    rw [h, List.getLast?_concat]
    split <;> simp_all

/-- **C159 (a folder).** The line of a table in a folder is that of the table with the folder before the file, with one slash between them. -/
theorem serpent_folder {fa fe : ℚ → Str} {t : Table} {m : ℤ} {T : ℚ} (h : Exportable t m T) {dir : Str} (hd : IsWord dir) (hl : dir.getLast? ≠ some '/') :
    toSerpent fa fe dir t = .ok (blanks (lineWords fa fe { t with filename := dir ++ '/' :: t.filename } m T)) ∧
    toSerpent fa fe (dir ++ ['/']) t = .ok (blanks (lineWords fa fe { t with filename := dir ++ '/' :: t.filename } m T)) := by
  obtain ⟨h0, h1, h2, -, -, -⟩ := h
  have e1 : serpentDir dir = dir ++ ['/'] := by
    unfold serpentDir
    rw [if_neg hd.1, if_neg hl]
    congr 1
    exact strip_word hd
  have e2 : serpentDir (dir ++ ['/']) = dir ++ ['/'] := by
    unfold serpentDir
    rw [if_neg (by simp), if_pos (by simp)]
  have key : ∀ d, serpentDir d = dir ++ ['/'] →
      toSerpent fa fe d t = .ok (blanks (lineWords fa fe { t with filename := dir ++ '/' :: t.filename } m T)) := by
    intro d he
    unfold toSerpent
    simp only [h2, h1, serpentType_c.2 h0]
    unfold lineWords
    rw [he, show natStr 1 = "1".toList by decide, List.append_assoc]
    by_cases hm : m = 0
    · subst hm; rfl
    · rw [if_pos hm, if_neg hm]; rfl
  exact ⟨key _ e1, key _ e2⟩

/-! ### OpenMC -/

/-- a line of a cross section file: `<library k="v" ... />` (specification) -/
def libLine (attrs : List (Str × Str)) : Str :=
  "  <library ".toList ++ (attrs.flatMap (fun p => p.1 ++ "=\"".toList ++ p.2 ++ "\" ".toList)) ++ "/>\n".toList

/-- keys and values are words without quotes and equals signs (specification) -/
def AttrsOk (attrs : List (Str × Str)) : Prop :=
  (attrs.map Prod.fst).Nodup ∧ ∀ p ∈ attrs, (IsWord p.1 ∧ '=' ∉ p.1 ∧ '"' ∉ p.1) ∧ (IsWord p.2 ∧ '=' ∉ p.2 ∧ '"' ∉ p.2)

theorem keyValue_ok {k v : Str} (hk : '=' ∉ k) (hv : '=' ∉ v) : keyValue (k ++ '=' :: v) = some (k, v) := by
  unfold keyValue
  rw [if_pos (by simp)]
  have h1 : ∀ (k r : Str), '=' ∉ k → (k ++ '=' :: r).takeWhile (fun c => decide (c ≠ '=')) = k ∧
      (k ++ '=' :: r).dropWhile (fun c => decide (c ≠ '=')) = '=' :: r := by
    intro k r hk
    induction k with
    | nil => simp
    | cons c k ih =>
      have hc : c ≠ '=' := fun e => hk (by simp [e])
      have := ih (fun e => hk (by simp [e]))
      simp [hc] at this ⊢
      exact this
  have h2 : ∀ v : Str, '=' ∉ v → v.takeWhile (fun c => decide (c ≠ '=')) = v := by
    intro v hv
    induction v with
    | nil => rfl
    | cons c v ih =>
      have hc : c ≠ '=' := fun e => hv (by simp [e])
      rw [List.takeWhile_cons, if_pos (by simpa using hc), ih (fun e => hv (by simp [e]))]
  simp only
  rw [(h1 k v hk).1, (h1 k v hk).2, List.tail_cons, h2 v hv]

theorem filter_quote {s : Str} (h : '"' ∉ s) : s.filter (fun c => decide (c ≠ '"')) = s := by
  rw [List.filter_eq_self]
  intro c hc
  simp only [decide_eq_true_eq]
  rintro rfl
  exact h hc

theorem libLine_tokens {attrs : List (Str × Str)} (h : AttrsOk attrs) :
    tokens ((libLine attrs).filter (fun c => decide (c ≠ '"'))) = "<library".toList :: (attrs.map (fun p => p.1 ++ '=' :: p.2) ++ ["/>".toList]) := by
  have key : ∀ (l : List (Str × Str)) (s : Str), (∀ p ∈ l, (IsWord p.1 ∧ '=' ∉ p.1 ∧ '"' ∉ p.1) ∧ (IsWord p.2 ∧ '=' ∉ p.2 ∧ '"' ∉ p.2)) →
      tokens ((l.flatMap (fun p => p.1 ++ "=\"".toList ++ p.2 ++ "\" ".toList)).filter (fun c => decide (c ≠ '"')) ++ s) =
        l.map (fun p => p.1 ++ '=' :: p.2) ++ tokens s := by
    intro l s hl
    induction l with
    | nil => simp
    | cons p l ih =>
      obtain ⟨⟨w1, -, q1⟩, ⟨w2, -, q2⟩⟩ := hl p List.mem_cons_self
      rw [List.flatMap_cons, List.filter_append, List.append_assoc]
      have e : (p.1 ++ "=\"".toList ++ p.2 ++ "\" ".toList).filter (fun c => decide (c ≠ '"')) = (p.1 ++ '=' :: p.2) ++ [' '] := by
        rw [List.filter_append, List.filter_append, List.filter_append, filter_quote q1, filter_quote q2]
        rw [show "=\"".toList.filter (fun c => decide (c ≠ '"')) = ['='] by decide, show "\" ".toList.filter (fun c => decide (c ≠ '"')) = [' '] by decide]
        simp
      have hw : IsWord (p.1 ++ '=' :: p.2) := by
        refine ⟨by simp, ?_⟩
        intro c hc
        rcases List.mem_append.1 hc with hc | hc
        · exact w1.2 c hc
        · rcases List.mem_cons.1 hc with rfl | hc
          · decide
          · exact w2.2 c hc
      rw [e, List.append_assoc, List.cons_append, List.nil_append, tokens_word hw (Or.inr (by simp [startsSpace, isSpace_space])), tokens_space _ isSpace_space,
        ih (fun q hq => hl q (List.mem_cons_of_mem _ hq))]
      rfl
  unfold libLine
  rw [List.filter_append, List.filter_append, show "  <library ".toList.filter (fun c => decide (c ≠ '"')) = "  <library ".toList by decide,
    show "/>\n".toList.filter (fun c => decide (c ≠ '"')) = "/>\n".toList by decide, List.append_assoc]
  rw [show "  <library ".toList = ' ' :: ' ' :: ("<library".toList ++ [' ']) by decide, List.cons_append, List.cons_append, tokens_space _ isSpace_space,
    tokens_space _ isSpace_space, List.append_assoc, tokens_word (by decide) (Or.inr (by simp [startsSpace, isSpace_space])), List.cons_append, List.nil_append,
    tokens_space _ isSpace_space, key attrs _ h.2]
  rw [show tokens "/>\n".toList = ["/>".toList] by decide]

theorem libLine_data {attrs : List (Str × Str)} (h : AttrsOk attrs) :
    Dict.update [] ((tokens ((libLine attrs).filter (fun c => decide (c ≠ '"')))).filterMap keyValue) = attrs := by
  rw [libLine_tokens h, List.filterMap_cons, show keyValue "<library".toList = none by decide]
  simp only
  rw [List.filterMap_append, show [("/>".toList : Str)].filterMap keyValue = [] by decide, List.append_nil]
  have e : (attrs.map (fun p => p.1 ++ '=' :: p.2)).filterMap keyValue = attrs := by
    obtain ⟨-, h⟩ := h
    induction attrs with
    | nil => rfl
    | cons p l ih =>
      obtain ⟨⟨-, e1, -⟩, ⟨-, e2, -⟩⟩ := h p List.mem_cons_self
      rw [List.map_cons, List.filterMap_cons, keyValue_ok e1 e2]
      simp only
      rw [ih (fun q hq => h q (List.mem_cons_of_mem _ hq))]
  rw [e]
  have key : ∀ (l d : List (Str × Str)), ((d ++ l).map Prod.fst).Nodup → Dict.update d l = d ++ l := by
    intro l
    induction l with
    | nil => intro d _; simp [Dict.update]
    | cons p l ih =>
      intro d hd
      have : Dict.update d (p :: l) = Dict.update (Dict.set d p.1 p.2) l := rfl
      rw [this, set_new p.2, ih, List.append_assoc]
      · rfl
      · rw [List.append_assoc]; exact hd
      · rw [List.map_append, List.nodup_append] at hd
        intro hp
        exact hd.2.2 _ hp _ (by simp) rfl
  simpa using key attrs [] (by simpa using h.1)

theorem isLibraryLine_libLine (attrs : List (Str × Str)) : isLibraryLine (libLine attrs) = true := by
  unfold isLibraryLine libLine
  rw [List.any_eq_true]
  refine ⟨"<library".toList ++ (' ' :: (attrs.flatMap (fun p => p.1 ++ "=\"".toList ++ p.2 ++ "\" ".toList)) ++ "/>\n".toList), ?_, ?_⟩
  · rw [List.mem_tails]
    refine ⟨"  ".toList, ?_⟩
    simp
  · rw [List.isPrefixOf_iff_prefix]
    exact List.prefix_append _ _

/-- **C158 (what is made of a line).** A library for neutrons gives the table `zaid.library` with its path, other libraries none; without a type (or, for
neutrons, without material or path) and for an unknown material the reading fails. A line without `<library` is skipped. -/
theorem openmc_line {fz : Str → Except PyErr Str} {lib : Str} {attrs : List (Str × Str)} (h : AttrsOk attrs) :
    (∀ m p z, ("type".toList, "neutron".toList) ∈ attrs → ("materials".toList, m) ∈ attrs → ("path".toList, p) ∈ attrs → fz m = .ok z →
      openmcLine fz lib (libLine attrs) = .ok (some (z ++ '.' :: lib, p))) ∧
    (∀ t, ("type".toList, t) ∈ attrs → t ≠ "neutron".toList → openmcLine fz lib (libLine attrs) = .ok none) ∧
    ((∀ t, ("type".toList, t) ∉ attrs) → openmcLine fz lib (libLine attrs) = .error .keyError) ∧
    (("type".toList, "neutron".toList) ∈ attrs → (∀ m, ("materials".toList, m) ∉ attrs) → openmcLine fz lib (libLine attrs) = .error .keyError) ∧
    (∀ m e, ("type".toList, "neutron".toList) ∈ attrs → ("materials".toList, m) ∈ attrs → fz m = .error e →
      openmcLine fz lib (libLine attrs) = .error e) ∧
    (∀ m z, ("type".toList, "neutron".toList) ∈ attrs → ("materials".toList, m) ∈ attrs → fz m = .ok z → (∀ p, ("path".toList, p) ∉ attrs) →
      openmcLine fz lib (libLine attrs) = .error .keyError) := by
  have hw : Dict.WF attrs := h.1
  have hnone : ∀ k, (∀ t, (k, t) ∉ attrs) → Dict.get? attrs k = none := by
    intro k hk
    cases hg : Dict.get? attrs k with
    | none => rfl
    | some t => exact absurd (Dict.mem_of_get? hg) (hk t)
  unfold openmcLine
  rw [if_pos (isLibraryLine_libLine attrs)]
  simp only [libLine_data h]
  refine ⟨?_, ?_, ?_, ?_, ?_, ?_⟩
  · intro m p z h1 h2 h3 h4
    simp only [Dict.get?_of_mem hw h1, Dict.get?_of_mem hw h2, Dict.get?_of_mem hw h3, h4]
    rfl
  · intro t h1 h2
    simp only [Dict.get?_of_mem hw h1]
    rw [if_neg h2]
  · intro h1
    simp only [hnone _ h1]
  · intro h1 h2
    simp only [Dict.get?_of_mem hw h1, hnone _ h2]
    rfl
  · intro m e h1 h2 h3
    simp only [Dict.get?_of_mem hw h1, Dict.get?_of_mem hw h2, h3]
    rfl
  · intro m z h1 h2 h3 h4
    simp only [Dict.get?_of_mem hw h1, Dict.get?_of_mem hw h2, h3, hnone _ h4]
    rfl

/-- **C158 (other lines).** A line without `<library` is skipped, whatever it holds. -/
theorem openmc_other {fz : Str → Except PyErr Str} {lib l : Str} (h : ¬ ∃ a b, l = a ++ "<library".toList ++ b) : openmcLine fz lib l = .ok none := by
  unfold openmcLine
  rw [if_neg]
  intro hl
  unfold isLibraryLine at hl
  rw [List.any_eq_true] at hl
  obtain ⟨t, ht, hp⟩ := hl
  rw [List.mem_tails] at ht
  rw [List.isPrefixOf_iff_prefix] at hp
  obtain ⟨a, rfl⟩ := ht
  obtain ⟨b, rfl⟩ := hp
  exact h ⟨a, b, by rw [List.append_assoc]⟩

/-- **C158 (opening).** A file can be opened exactly if no line of it fails; the first line that fails decides. -/
theorem openmc_opened (fz : Str → Except PyErr Str) (lib : Str) (before : List Str) (hb : ∀ l ∈ before, ∃ t, openmcLine fz lib l = .ok t) :
    openmcRead fz before lib = .ok ⟨none, [], []⟩ ∧
    ∀ l after e, openmcLine fz lib l = .error e → openmcRead fz (before ++ l :: after) lib = .error e := by
  have h1 : ∃ ts, openmcLines fz lib before = .ok ts := by
    induction before with
    | nil => exact ⟨[], rfl⟩
    | cons l ls ih =>
      obtain ⟨t, ht⟩ := hb l List.mem_cons_self
      obtain ⟨ts, hts⟩ := ih (fun x hx => hb x (List.mem_cons_of_mem _ hx))
      exact ⟨t.toList ++ ts, by simp only [openmcLines, ht, hts]⟩
  refine ⟨?_, ?_⟩
  · obtain ⟨ts, hts⟩ := h1
    unfold openmcRead
    rw [hts]
  · intro l after e he
    have : openmcLines fz lib (before ++ l :: after) = .error e := by
      clear h1
      induction before with
      | nil => simp only [List.nil_append, openmcLines, he]
      | cons x ls ih =>
        obtain ⟨t, ht⟩ := hb x List.mem_cons_self
        simp only [List.cons_append, openmcLines, ht, ih (fun y hy => hb y (List.mem_cons_of_mem _ hy))]
    unfold openmcRead
    rw [this]

/-! ### refusals -/

/-- **C156 (refused).** A path in the column of a code that is neither of MCNP's kind nor OpenMC is refused; so is a file without tables. -/
theorem code_refused {op omc : Str → Str → Except PyErr Xsdir} {code lib p : Str} {st : St} {d : Dict Str Xsdir} (hp : p ≠ []) :
    (code ∉ mcnpType → code ≠ "openmc".toList → loadRow op omc code lib (.text p) st d = .error .valueError) ∧
    (∀ x, code ∈ mcnpType → st.prev ≠ some p → op code p = .ok x → x.tables = [] → loadRow op omc code lib (.text p) st d = .error .indexError) := by
  unfold loadRow
  refine ⟨?_, ?_⟩
  · intro h1 h2
    simp only
    rw [if_neg hp, if_neg h1, if_neg h2]
  · intro x h1 h2 h3 h4
    simp only
    rw [if_neg hp, if_pos h1]
    unfold openAt libsOf
    rw [if_pos h2, h3]
    simp [h4]

/-- **C157 (refused).** `check4zaid` for a code the manager has no libraries of, and for codes that are not of MCNP's kind. -/
theorem check_refused (data : Dict Str (Dict Str Xsdir)) (z code : Str) :
    (code ∈ mcnpType → Dict.get? data code = none → check4zaid data z code = .error .keyError) ∧
    (code ∉ mcnpType → check4zaid data z code = .error .notImplemented) := by
  unfold check4zaid
  refine ⟨?_, ?_⟩
  · intro h1 h2
    rw [if_pos h1, h2]
  · intro h1
    rw [if_neg h1]

/-! ### concrete cases -/

example : SerpentShows (fun s => if s = "1.0".toList then some 1 else if s = "293.6".toList then some 293 else none)
    "1001.31c 1001.31c 1 1001 0 1.0 293.6 0 /xs/h.ace".toList
    (serpentTable "1001.31c".toList (1 / (1008664967 / 10 ^ 9)) "/xs/h.ace".toList (293 / (11604518025685 / 10 ^ 3))) :=
  ⟨"1001.31c".toList, "1001.31c".toList, "1".toList, "1001".toList, "0".toList, "1.0".toList, "293.6".toList, "0".toList, "/xs/h.ace".toList, [], 1, 293,
    by decide, by simp, by simp, rfl, rfl, by simp only [serpentTable]; norm_num, _, rfl, by norm_num⟩

/-- the attributes of a line (example) -/
def exAttrs : List (Str × Str) := [("materials".toList, "Fe56".toList), ("path".toList, "neutron/Fe56.h5".toList), ("type".toList, "neutron".toList)]

example : AttrsOk exAttrs := by
  refine ⟨by decide, ?_⟩
  intro p hp
  simp only [exAttrs, List.mem_cons, List.not_mem_nil, or_false] at hp
  rcases hp with rfl | rfl | rfl <;> exact ⟨⟨by decide, by decide, by decide⟩, ⟨by decide, by decide, by decide⟩⟩

example : libLine exAttrs = "  <library materials=\"Fe56\" path=\"neutron/Fe56.h5\" type=\"neutron\" />\n".toList := by decide

end F4Enix.LibM
