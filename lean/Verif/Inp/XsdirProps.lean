import Verif.Inp.Xsdir
/-!
# Reading of cross section directories (C114) and looking up of tables (C115-C117)
-/
namespace F4Enix.Xs
open F4Enix

/-! ### C114: specification of the file -/

/-- the physical lines of one entry and its words: all lines but the last end with the word `+` (specification) -/
inductive Joined : List Str → List Str → Prop
  | last {l : Str} {ws : List Str} (h : tokens l = ws) (hne : ws ≠ []) (hp : ws.getLast? ≠ some "+".toList) :
      Joined [l] ws
  | cont {l : Str} {ls : List Str} {a b : List Str} (h : tokens l = a ++ ["+".toList]) (hr : Joined ls b) :
      Joined (l :: ls) (a ++ b)

/-- the optional word at place `i` is read into `o` (specification) -/
def OptIs {α : Type} (p : Str → Option α) (ws : List Str) (i : ℕ) (o : Option α) : Prop :=
  match ws[i]? with
  | none => o = none
  | some w => ∃ x, p w = some x ∧ o = some x

/-- the words of an entry describe the table (specification) -/
structure Describes (pf : Str → Option ℚ) (ws : List Str) (t : Table) : Prop where
  name : ws[0]? = some t.name
  awr : ∃ w, ws[1]? = some w ∧ pf w = some t.awr
  filename : ws[2]? = some t.filename
  access : ws[3]? = some t.access
  filetype : ∃ w, ws[4]? = some w ∧ parseInt w = some t.filetype
  address : ∃ w, ws[5]? = some w ∧ parseInt w = some t.address
  tablelength : ∃ w, ws[6]? = some w ∧ parseInt w = some t.tablelength
  recordlength : OptIs parseInt ws 7 t.recordlength
  entries : OptIs parseInt ws 8 t.entries
  temperature : OptIs pf ws 9 t.temperature
  ptable : t.ptable = true ↔ ws[10]? = some "ptable".toList

/-- lines of entries and their tables, in order (specification) -/
inductive Entries (pf : Str → Option ℚ) : List Str → List Table → Prop
  | nil : Entries pf [] []
  | cons {ls ls' : List Str} {ws : List Str} {t : Table} {ts : List Table} (hj : Joined ls ws)
      (hd : Describes pf ws t) (hr : Entries pf ls' ts) : Entries pf (ls ++ ls') (t :: ts)

/-- the lines of the atomic weight ratios, with all their words in order (specification) -/
inductive Ratios : List Str → List (Str × Str) → Prop
  | nil : Ratios [] []
  | cons {l : Str} {ls : List Str} {ps r : List (Str × Str)} (h : tokens l = ps.flatMap (fun p => [p.1, p.2]))
      (hne : ps ≠ []) (hd : (tokens l).head? ≠ some "directory".toList) (hr : Ratios ls r) : Ratios (l :: ls) (ps ++ r)

theorem pairs_flat (ps : List (Str × Str)) : pairs (ps.flatMap (fun p => [p.1, p.2])) = ps := by
  induction ps with
  | nil => rfl
  | cons p ps ih => simp [pairs, ih]

theorem update_append {κ ν : Type} [DecidableEq κ] (d : Dict κ ν) (a b : List (κ × ν)) :
    Dict.update d (a ++ b) = Dict.update (Dict.update d a) b := by
  unfold Dict.update; rw [List.foldl_append]

theorem awrLoop_ok {ls : List Str} {ps : List (Str × Str)} (h : Ratios ls ps) (d : Dict Str Str) (rest : List Str) :
    awrLoop d (ls ++ rest) = awrLoop (Dict.update d ps) rest := by
  induction h generalizing d with
  | nil => rfl
  | @cons l ls ps r h hne hd hr ih =>
    rw [update_append, ← ih, List.cons_append, awrLoop]
    have hlen : ((tokens l).length % 2 ≠ 0) = False := by
      rw [h, List.length_flatMap]
      simp
    rw [if_neg (by rw [hlen]; exact not_false)]
    cases ht : tokens l with
    | nil =>
      exfalso
      cases ps with
      | nil => exact hne rfl
      | cons p ps => rw [ht] at h; simp at h
    | cons w ws =>
      have hw : w ≠ "directory".toList := by
        intro e; apply hd; rw [ht, e]; rfl
      simp only
      rw [if_neg hw, ← ht, h, pairs_flat]

theorem joined_ne {ls ws : List Str} (h : Joined ls ws) : ws ≠ [] ∧ ws.getLast? ≠ some "+".toList := by
  induction h with
  | last h hne hp => exact ⟨hne, hp⟩
  | @cont l ls a b h hr ih =>
    refine ⟨by simp [ih.1], ?_⟩
    rw [List.getLast?_append_of_ne_nil _ ih.1]; exact ih.2

theorem joinCont_stop {ws : List Str} (h1 : ws ≠ []) (h2 : ws.getLast? ≠ some "+".toList) (rest : List Str) :
    joinCont ws rest = .ok (ws, rest) := by
  cases rest with
  | nil =>
    have e : (ws.reverse.dropWhile (fun w => w = "+".toList)).reverse = ws := by
      have hh : ws.reverse.head? ≠ some "+".toList := by rw [List.head?_reverse]; exact h2
      cases hr : ws.reverse with
      | nil => rw [List.reverse_eq_nil_iff] at hr; exact absurd hr h1
      | cons a r =>
        rw [hr] at hh
        have ha : a ≠ "+".toList := by intro e; apply hh; rw [e]; rfl
        rw [List.dropWhile_cons, if_neg (by simpa using ha), ← hr, List.reverse_reverse]
    rw [joinCont, e, if_neg h1]
  | cons l ls =>
    rw [joinCont]
    cases hl : ws.getLast? with
    | none => rw [List.getLast?_eq_none_iff] at hl; exact absurd hl h1
    | some w =>
      have : w ≠ "+".toList := by intro e; apply h2; rw [hl, e]
      simp only
      rw [if_neg this]

theorem joinCont_ok {ls ws : List Str} (h : Joined ls ws) (pre rest : List Str) :
    ∃ l r, ls = l :: r ∧ joinCont (pre ++ tokens l) (r ++ rest) = .ok (pre ++ ws, rest) := by
  induction h generalizing pre with
  | @last l ws h hne hp =>
    refine ⟨l, [], rfl, ?_⟩
    rw [h, List.nil_append]
    refine joinCont_stop (by simp [hne]) ?_ rest
    rw [List.getLast?_append_of_ne_nil _ hne]; exact hp
  | @cont l ls a b h hr ih =>
    obtain ⟨l', r', e, ih⟩ := ih (pre ++ a)
    refine ⟨l, ls, rfl, ?_⟩
    rw [h, e, List.cons_append, joinCont]
    have hg : (pre ++ (a ++ ["+".toList])).getLast? = some "+".toList := by
      rw [← List.append_assoc, List.getLast?_append_of_ne_nil _ (by simp)]; rfl
    rw [hg]
    simp only
    rw [if_pos trivial, ← List.append_assoc, List.dropLast_concat, ih, List.append_assoc]

theorem optWord_ok {α : Type} {p : Str → Option α} {ws : List Str} {i : ℕ} {o : Option α} (h : OptIs p ws i o) :
    optWord p ws[i]? = .ok o := by
  unfold OptIs at h
  cases hw : ws[i]? with
  | none => rw [hw] at h; simp only at h; rw [h]; rfl
  | some w =>
    rw [hw] at h
    obtain ⟨x, h1, h2⟩ := h
    simp only [optWord, h1, h2]

theorem makeTable_ok {pf : Str → Option ℚ} {ws : List Str} {t : Table} (h : Describes pf ws t) :
    makeTable pf ws = .ok t := by
  obtain ⟨h0, ⟨w1, h1, p1⟩, h2, h3, ⟨w4, h4, p4⟩, ⟨w5, h5, p5⟩, ⟨w6, h6, p6⟩, h7, h8, h9, h10⟩ := h
  match ws, h0, h1, h2, h3, h4, h5, h6, h7, h8, h9, h10 with
  | n :: a :: f :: acc :: ft :: ad :: tl :: r, h0, h1, h2, h3, h4, h5, h6, h7, h8, h9, h10 =>
    simp only [List.getElem?_cons_zero, List.getElem?_cons_succ, Option.some.injEq] at h0 h1 h2 h3 h4 h5 h6
    subst h0 h1 h2 h3 h4 h5 h6
    have e7 := optWord_ok h7
    have e8 := optWord_ok h8
    have e9 := optWord_ok h9
    simp only [List.getElem?_cons_succ] at e7 e8 e9 h10
    simp only [makeTable, p1, p4, p5, p6, e7, e8, e9]
    congr 1
    have : decide (r[3]? = some "ptable".toList) = t.ptable := by
      rw [Bool.eq_iff_iff, decide_eq_true_eq]; exact h10.symm
    rw [this]

theorem joined_first {ls ws : List Str} (h : Joined ls ws) : ∃ l r, ls = l :: r ∧ tokens l ≠ [] := by
  cases h with
  | last h hne hp => exact ⟨_, _, rfl, by rw [h]; exact hne⟩
  | cont h hr => exact ⟨_, _, rfl, by rw [h]; simp⟩

theorem tablesLoop_ok {pf : Str → Option ℚ} {ls : List Str} {ts : List Table} (h : Entries pf ls ts) {rest : List Str}
    (hrest : rest = [] ∨ ∃ l r, rest = l :: r ∧ tokens l = []) (n : ℕ) (hn : (ls ++ rest).length ≤ n) :
    tablesLoop pf n (ls ++ rest) = .ok ts := by
  induction h generalizing n with
  | nil =>
    rw [List.nil_append]
    rcases hrest with rfl | ⟨l, r, rfl, hl⟩
    · cases n <;> rfl
    · cases n with
      | zero => rfl
      | succ n => rw [tablesLoop, if_pos hl]
  | @cons ls ls' ws t ts hj hd hr ih =>
    obtain ⟨l, r, e, hl⟩ := joined_first hj
    obtain ⟨l', r', e', hjc⟩ := joinCont_ok hj [] (ls' ++ rest)
    rw [e] at e'
    obtain ⟨rfl, rfl⟩ : l = l' ∧ r = r' := by simpa using e'
    subst e
    cases n with
    | zero => simp at hn
    | succ n =>
      rw [List.nil_append, List.nil_append] at hjc
      rw [List.append_assoc, List.cons_append, tablesLoop, if_neg hl, hjc]
      simp only
      rw [makeTable_ok hd]
      simp only
      rw [ih n (by
        simp only [List.length_append, List.length_cons] at hn ⊢
        omega)]

theorem get?_update_last {κ ν : Type} [DecidableEq κ] (d : Dict κ ν) (ps : List (κ × ν)) (z : κ) :
    Dict.get? (Dict.update d ps) z = ((ps.reverse.find? (fun p => p.1 = z)).map Prod.snd).or (Dict.get? d z) := by
  induction ps generalizing d with
  | nil => rfl
  | cons p ps ih =>
    have e : Dict.update d (p :: ps) = Dict.update (Dict.set d p.1 p.2) ps := rfl
    rw [e, ih, List.reverse_cons, List.find?_append, Dict.get?_set]
    cases hf : ps.reverse.find? (fun p => p.1 = z) with
    | some q => simp
    | none =>
      by_cases hz : p.1 = z
      · simp [hz]
      · simp [hz]

theorem dirLoop_ok {ld : Str} {after : List Str} (hd : (tokens ld).head? = some "directory".toList) (other : List Str)
    (ho : ∀ l ∈ other, tokens l ≠ [] ∧ (tokens l).head? ≠ some "directory".toList) {ws : List Str} (hne : ws ≠ [])
    (hw : ws.head? ≠ some "directory".toList) : dirLoop ws (other ++ ld :: after) = .ok after := by
  have hdir : ∀ ws after, ws.head? = some "directory".toList → dirLoop ws after = .ok after := by
    intro ws after h
    cases ws with
    | nil => cases h
    | cons w ws =>
      have : w = "directory".toList := by simpa using h
      cases after <;> rw [dirLoop, if_pos this]
  induction other generalizing ws with
  | nil =>
    cases ws with
    | nil => exact absurd rfl hne
    | cons w ws =>
      have : ¬ w = "directory".toList := by intro e; apply hw; rw [e]; rfl
      rw [List.nil_append, dirLoop, if_neg this, hdir _ _ hd]
  | cons l ls ih =>
    cases ws with
    | nil => exact absurd rfl hne
    | cons w ws =>
      have : ¬ w = "directory".toList := by intro e; apply hw; rw [e]; rfl
      rw [List.cons_append, dirLoop, if_neg this]
      exact ih (fun x hx => ho x (List.mem_cons_of_mem _ hx)) (ho l (by simp)).1 (ho l (by simp)).2

theorem awr_dir {ld : Str} {after : List Str} (hd : (tokens ld).head? = some "directory".toList) (other : List Str)
    (ho : ∀ l ∈ other, tokens l ≠ [] ∧ (tokens l).head? ≠ some "directory".toList)
    (ho1 : ∀ l, other.head? = some l → (tokens l).length % 2 = 1) (d : Dict Str Str) :
    ∃ ws ls, awrLoop d (other ++ ld :: after) = .ok (d, ws, ls) ∧ dirLoop ws ls = .ok after := by
  cases other with
  | nil =>
    refine ⟨tokens ld, after, ?_, ?_⟩
    · rw [List.nil_append, awrLoop]
      split_ifs with h
      · rfl
      · cases ht : tokens ld with
        | nil => rw [ht] at hd; cases hd
        | cons w ws =>
          rw [ht] at hd
          have : w = "directory".toList := by simpa using hd
          simp only
          rw [if_pos this]
    · cases ht : tokens ld with
      | nil => rw [ht] at hd; cases hd
      | cons w ws =>
        rw [ht] at hd
        have : w = "directory".toList := by simpa using hd
        cases after <;> rw [dirLoop, if_pos this]
  | cons l ls =>
    refine ⟨tokens l, ls ++ ld :: after, ?_, ?_⟩
    · rw [List.cons_append, awrLoop, if_pos]
      rw [ho1 l rfl]; decide
    · exact dirLoop_ok hd ls (fun x hx => ho x (List.mem_cons_of_mem _ hx)) (ho l (by simp)).1 (ho l (by simp)).2

/-- **C114.** Of a file with a first line, the title, lines of ratios, the line `directory` (possibly behind lines that
are no ratios), and the entries - each on one line or continued on the next by a `+` - the object read holds exactly
the tables, in the order of the file, with all their attributes, and for every zaid the last ratio given; reading stops
at the first blank line behind the entries. -/
theorem read_file {pf : Str → Option ℚ} {l1 l2 ld : Str} {ratios other entries rest : List Str} {ps : List (Str × Str)}
    {ts : List Table} {dp : Option Str} (h1 : readDatapath l1 = .ok dp)
    (h2 : (tokens l2).map lowerStr = ["atomic".toList, "weight".toList, "ratios".toList]) (h3 : Ratios ratios ps)
    (ho : ∀ l ∈ other, tokens l ≠ [] ∧ (tokens l).head? ≠ some "directory".toList)
    (ho1 : ∀ l, other.head? = some l → (tokens l).length % 2 = 1)
    (hd : (tokens ld).head? = some "directory".toList) (he : Entries pf entries ts)
    (hrest : rest = [] ∨ ∃ l r, rest = l :: r ∧ tokens l = []) :
    ∃ x, read pf (l1 :: l2 :: (ratios ++ (other ++ ld :: (entries ++ rest)))) = .ok x ∧ x.datapath = dp ∧ x.tables = ts ∧
      ∀ z, Dict.get? x.awr z = ((ps.reverse.find? (fun p => p.1 = z)).map Prod.snd) := by
  obtain ⟨ws, ls, a1, a2⟩ := awr_dir (after := entries ++ rest) hd other ho ho1 (Dict.update [] ps)
  refine ⟨⟨dp, Dict.update [] ps, ts⟩, ?_, rfl, rfl, ?_⟩
  · have ht : isTitle l2 = true := by unfold isTitle; rw [decide_eq_true_eq]; exact h2
    have hr : awrLoop [] (ratios ++ (other ++ ld :: (entries ++ rest))) = .ok (Dict.update [] ps, ws, ls) := by
      rw [awrLoop_ok h3]; exact a1
    simp only [read, List.headD_cons, List.tail_cons, h1, ht, if_true, hr, a2,
      tablesLoop_ok he hrest (entries ++ rest).length (le_refl _)]
  · intro z
    simp only
    rw [get?_update_last]
    cases ps.reverse.find? (fun p => p.1 = z) <;> rfl

/-! ### C115: looking up tables -/

/-- every table is named by a zaid, a dot and a suffix of three characters (specification) -/
def NamesOk (x : Xsdir) : Prop := ∀ t ∈ x.tables, ∃ z s, t.name = z ++ '.' :: s ∧ s.length = 3 ∧ '.' ∉ s

theorem splitName_eq {z s : Str} (h : s.length = 3) : splitName (z ++ '.' :: s) = (z, s) := by
  unfold splitName
  have h4 : (z ++ '.' :: s).length - 4 = z.length := by simp [h]
  have h3 : (z ++ '.' :: s).length - 3 = (z ++ ['.']).length := by simp [h]
  have e : z ++ '.' :: s = (z ++ ['.']) ++ s := by simp
  rw [h4, h3, List.take_left' rfl, e, List.drop_left' rfl]

theorem availableLibs_get (l : List (Str × Str)) (d : Dict Str (List Str)) (z : Str) :
    (Dict.get? (l.foldl addLib d) z).getD [] = (Dict.get? d z).getD [] ++ (l.filter (fun p => p.1 = z)).map Prod.snd := by
  induction l generalizing d with
  | nil => simp
  | cons p l ih =>
    rw [List.foldl_cons, ih]
    unfold addLib
    rw [Dict.get?_set]
    by_cases h : p.1 = z
    · subst h; simp
    · simp [h]

theorem hasTable_iff (x : Xsdir) (z lib : Str) : hasTable x z lib = true ↔ (z, lib) ∈ tablenames x := by
  have h := availableLibs_get (tablenames x) [] z
  have e : hasTable x z lib = ((Dict.get? (availableLibs x) z).getD []).contains lib := by
    unfold hasTable
    cases Dict.get? (availableLibs x) z <;> simp
  rw [e]
  unfold availableLibs
  rw [h]
  simp [Dict.get?]

/-- **C115.** `zaid_has_table` and the exact search say whether there is a table of that name. Partial: Proved for suffixes of three characters; false for longer ones (710nc): long_suffix. -/
theorem lookup_exact_partial {x : Xsdir} (h : NamesOk x) (z lib : Str) (hl : lib.length = 3) :
    (hasTable x z lib = true ↔ ∃ t ∈ x.tables, t.name = z ++ '.' :: lib) ∧
    (findExact x (z ++ '.' :: lib) = true ↔ ∃ t ∈ x.tables, t.name = z ++ '.' :: lib) := by
  constructor
  · rw [hasTable_iff]
    unfold tablenames
    rw [List.mem_map]
    constructor
    · rintro ⟨t, ht, e⟩
      obtain ⟨z', s, hn, hs, _⟩ := h t ht
      rw [hn, splitName_eq hs, Prod.mk.injEq] at e
      exact ⟨t, ht, by rw [hn, e.1, e.2]⟩
    · rintro ⟨t, ht, e⟩
      exact ⟨t, ht, by rw [e, splitName_eq hl]⟩
  · unfold findExact tablenames
    rw [List.any_map, List.any_eq_true]
    constructor
    · rintro ⟨t, ht, e⟩
      obtain ⟨z', s, hn, hs, _⟩ := h t ht
      simp only [Function.comp, decide_eq_true_eq] at e
      rw [hn, splitName_eq hs] at e
      refine ⟨t, ht, ?_⟩
      rw [hn, e]
      simp
    · rintro ⟨t, ht, e⟩
      refine ⟨t, ht, ?_⟩
      simp only [Function.comp, decide_eq_true_eq]
      rw [e, splitName_eq hl]
      simp

/-- **C115.** The default search gives exactly the tables of the zaid, in the order of the file; the fast one their
suffixes; the search of a library exactly its tables. -/
theorem lookup_all {x : Xsdir} (h : NamesOk x) (z : Str) :
    (∀ t, t ∈ findTable x z ↔ t ∈ x.tables ∧ ∃ s, s.length = 3 ∧ t.name = z ++ '.' :: s) ∧
    (findTable x z).Sublist x.tables ∧
    (findFast x z) = (findTable x z).map (fun t => t.name.drop (z.length + 1)) := by
  have key : ∀ t ∈ x.tables, (z = t.name.take (t.name.length - 4) ↔ ∃ s, s.length = 3 ∧ t.name = z ++ '.' :: s) := by
    intro t ht
    obtain ⟨z', s, hn, hs, _⟩ := h t ht
    have e : t.name.take (t.name.length - 4) = z' := by
      have := splitName_eq (z := z') hs
      rw [← hn] at this
      exact congrArg Prod.fst this
    rw [e]
    constructor
    · rintro rfl; exact ⟨s, hs, hn⟩
    · rintro ⟨s', hs', hn'⟩
      have := splitName_eq (z := z) hs'
      rw [← hn', hn, splitName_eq hs] at this
      exact (congrArg Prod.fst this).symm
  refine ⟨?_, List.filter_sublist, ?_⟩
  · intro t
    unfold findTable
    rw [List.mem_filter, decide_eq_true_eq]
    constructor
    · rintro ⟨h1, h2⟩; exact ⟨h1, (key t h1).1 h2⟩
    · rintro ⟨h1, h2⟩; exact ⟨h1, (key t h1).2 h2⟩
  · unfold findFast findTable tablenames
    rw [List.filter_map, List.map_map]
    have e : (x.tables.filter ((fun p : Str × Str => decide (z = p.1)) ∘ fun t => splitName t.name)) =
        x.tables.filter (fun t => decide (z = t.name.take (t.name.length - 4))) := rfl
    rw [e]
    apply List.map_congr_left
    intro t ht
    rw [List.mem_filter, decide_eq_true_eq] at ht
    obtain ⟨s, hs, hn⟩ := (key t ht.1).1 ht.2
    simp only [Function.comp]
    rw [hn, splitName_eq hs, ← List.singleton_append, ← List.append_assoc, List.drop_left' (by simp)]

theorem lastPart_eq {z s : Str} (h : '.' ∉ s) : lastPart (z ++ '.' :: s) = s := by
  unfold lastPart
  have e : (z ++ '.' :: s).reverse = s.reverse ++ '.' :: z.reverse := by simp
  rw [e, List.takeWhile_append_of_pos (by
    intro c hc
    rw [List.mem_reverse] at hc
    simp only [decide_eq_true_eq]
    rintro rfl; exact h hc), List.takeWhile_cons]
  simp

/-- **C115.** The search of a library gives exactly its tables. -/
theorem lookup_lib {x : Xsdir} (h : NamesOk x) (lib : Str) (hd : '.' ∉ lib) :
    (∀ t, t ∈ findZaids x lib ↔ t ∈ x.tables ∧ ∃ z, t.name = z ++ '.' :: lib) ∧ (findZaids x lib).Sublist x.tables := by
  refine ⟨?_, List.filter_sublist⟩
  intro t
  unfold findZaids
  rw [List.mem_filter, decide_eq_true_eq]
  constructor
  · rintro ⟨h1, h2⟩
    obtain ⟨z, s, hn, hs, hx⟩ := h t h1
    rw [hn, lastPart_eq hx] at h2
    exact ⟨h1, z, by rw [hn, h2]⟩
  · rintro ⟨h1, z, hz⟩
    exact ⟨h1, by rw [hz, lastPart_eq hd]⟩

/-- **C115 (false for longer suffixes).** Whatever the file, a zaid never has a table in a library whose suffix has more
than three characters (as `710nc` of MCNP 6.2), although the search of the library finds its tables. -/
theorem long_suffix (x : Xsdir) (z lib : Str) (hl : 3 < lib.length) : hasTable x z lib = false := by
  rw [Bool.eq_false_iff]
  intro h
  rw [hasTable_iff] at h
  unfold tablenames at h
  obtain ⟨t, _, e⟩ := List.mem_map.1 h
  have : (splitName t.name).2.length ≤ 3 := by
    unfold splitName
    simp only [List.length_drop]
    omega
  rw [e] at this
  simp only at this
  omega

theorem long_suffix_found {x : Xsdir} {t : Table} (ht : t ∈ x.tables) {z lib : Str} (hn : t.name = z ++ '.' :: lib)
    (hd : '.' ∉ lib) : t ∈ findZaids x lib := by
  unfold findZaids
  rw [List.mem_filter, decide_eq_true_eq]
  exact ⟨ht, by rw [hn, lastPart_eq hd]⟩

/-! ### C116: metastable states -/

theorem takeDot {z s : Str} (h : '.' ∉ z) : (z ++ '.' :: s).takeWhile (fun c => c ≠ '.') = z := by
  rw [List.takeWhile_append_of_pos (by
    intro c hc
    simp only [ne_eq, decide_not, Bool.not_eq_true', decide_eq_false_iff_not]
    rintro rfl; exact h hc), List.takeWhile_cons]
  simp

theorem natStr_no_dot (n : ℕ) : '.' ∉ natStr n := by
  intro h
  have := natStr_all_digit n _ h
  revert this; decide

theorem natStr_inj {a b : ℕ} (h : natStr a = natStr b) : a = b := by
  have := congrArg digitsVal h
  rwa [digitsVal_natStr, digitsVal_natStr] at this

/-- the flag of a table of continuous energy with number `n` -/
theorem metastable_value {t : Table} {n : ℕ} {s : Str} (hn : t.name = natStr n ++ '.' :: s) (hs : s.getLast? = some 'c') :
    t.metastable = .ok (some (if n = 95242 then 1 else if n = 95642 then 0 else if 600 < n % 1000 then 1 else 0)) := by
  have hl : t.name.getLast? = some 'c' := by
    rw [hn, List.getLast?_append_of_ne_nil _ (by simp)]
    cases s with
    | nil => cases hs
    | cons a s => simpa using hs
  have hz : t.zaid = natStr n := by
    unfold Table.zaid
    rw [if_pos (by rw [hn]; simp), hn, takeDot (natStr_no_dot n)]
  have hp : parseInt (t.name.takeWhile (fun c => c ≠ '.')) = some (n : ℤ) := by
    rw [hn, takeDot (natStr_no_dot n)]
    exact parseInt_intStr (n : ℤ)
  have e1 : "95242".toList = natStr 95242 := by decide +kernel
  have e2 : "95642".toList = natStr 95642 := by decide +kernel
  unfold Table.metastable
  rw [if_pos hl, hz, e1, e2, hp]
  by_cases h1 : n = 95242
  · rw [if_pos (by rw [h1]), if_pos h1]
  · rw [if_neg (fun h => h1 (natStr_inj h)), if_neg h1]
    by_cases h2 : n = 95642
    · rw [if_pos (by rw [h2]), if_pos h2]
    · rw [if_neg (fun h => h2 (natStr_inj h)), if_neg h2]
      simp only
      by_cases h3 : 600 < n % 1000
      · rw [if_pos h3, if_pos (by omega)]
      · rw [if_neg h3, if_neg (by omega)]

/-- the number of nuclide `(z, a)` in state `m` (0: ground), exchanged for Am-242 (specification) -/
def zaNumber (z a m : ℕ) : ℕ :=
  if z = 95 ∧ a = 242 ∧ m = 0 then 95642 else if z = 95 ∧ a = 242 ∧ m = 1 then 95242
  else z * 1000 + (if m = 0 then a else a + 300 + 100 * m)

/-- **C116 (part).** The flag of a nuclide in its ground state is 0; that of a metastable state is 1 if the mass number
is above 200, or the state is the second one and the mass number above 100, or the state is a higher one.
Missing: lighter nuclides, see `meta_light`. (All isotopes of americium are heavier than 200.) -/
theorem meta_partial {t : Table} {z a m : ℕ} {s : Str} (hn : t.name = natStr (zaNumber z a m) ++ '.' :: s)
    (hs : s.getLast? = some 'c') (ha : a ≤ 300) (hm : a + 300 + 100 * m < 1000)
    (ham : z = 95 → 200 < a)
    (hp : m = 0 ∨ 300 < a + 100 * m) : t.metastable = .ok (some (if m = 0 then 0 else 1)) := by
  rw [metastable_value hn hs]
  congr 2
  unfold zaNumber
  by_cases h1 : z = 95 ∧ a = 242 ∧ m = 0
  · obtain ⟨rfl, rfl, rfl⟩ := h1; decide
  · rw [if_neg h1]
    by_cases h2 : z = 95 ∧ a = 242 ∧ m = 1
    · obtain ⟨rfl, rfl, rfl⟩ := h2; decide
    · rw [if_neg h2]
      by_cases h0 : m = 0
      · subst h0
        simp only [if_true]
        split_ifs <;> omega
      · simp only [if_neg h0]
        split_ifs <;> omega

/-- **C116 (false for light nuclides).** The flag of the first metastable state of a nuclide with mass number up to 200 is
0. -/
theorem meta_light {t : Table} {z a : ℕ} {s : Str} (hn : t.name = natStr (zaNumber z a 1) ++ '.' :: s)
    (hs : s.getLast? = some 'c') (ha : a ≤ 200) : t.metastable = .ok (some 0) := by
  rw [metastable_value hn hs]
  congr 2
  unfold zaNumber
  have h1 : ¬ (z = 95 ∧ a = 242 ∧ (1 : ℕ) = 0) := by omega
  have h2 : ¬ (z = 95 ∧ a = 242 ∧ (1 : ℕ) = 1) := by omega
  rw [if_neg h1, if_neg h2]
  simp only [one_ne_zero, if_false]
  split_ifs <;> omega

/-! ### C117: files of the tables -/

theorem _root_.F4Enix.Find.takeWhile_all {p : Char → Bool} {s : Str} (h : ∀ c ∈ s, p c = true) : s.takeWhile p = s := by
  induction s with
  | nil => rfl
  | cons c s ih =>
    rw [List.takeWhile_cons, if_pos (h c (by simp)), ih (fun d hd => h d (List.mem_cons_of_mem _ hd))]

/-- the table is the first of its zaid (digits) and suffix -/
theorem acePaths_get {ts : List Table} (h : ∀ t ∈ ts, ∃ z s, t.name = z ++ '.' :: s ∧ '.' ∉ z ∧ '.' ∉ s)
    (d : Dict (Str × Str) Str) :
    ∃ d', acePaths d ts = .ok d' ∧ ∀ z s, z ≠ [] → (∀ c ∈ z, isDigit c = true) →
      Dict.get? d' (z, s) = (Dict.get? d (z, s)).or ((ts.find? (fun t => t.name = z ++ '.' :: s)).map Table.filename) := by
  induction ts generalizing d with
  | nil => exact ⟨d, rfl, fun z s _ _ => by simp⟩
  | cons t ts ih =>
    obtain ⟨z, s, hn, hz, hs⟩ := h t (by simp)
    have ih := ih (fun x hx => h x (List.mem_cons_of_mem _ hx))
    have hsuf : suffix t.name = .ok s := by
      unfold suffix
      rw [if_pos (by rw [hn]; simp), hn]
      have e1 : (z ++ '.' :: s).dropWhile (fun c => c ≠ '.') = '.' :: s := by
        rw [List.dropWhile_append_of_pos (by
          intro c hc
          simp only [ne_eq, decide_not, Bool.not_eq_true', decide_eq_false_iff_not]
          rintro rfl; exact hz hc), List.dropWhile_cons]
        simp
      rw [e1, List.tail_cons]
      congr 1
      apply Find.takeWhile_all
      intro c hc
      simp only [ne_eq, decide_not, Bool.not_eq_true', decide_eq_false_iff_not]
      rintro rfl; exact hs hc
    have hzaid : t.zaid = z := by
      unfold Table.zaid
      rw [if_pos (by rw [hn]; simp), hn, takeDot hz]
    have hname : ∀ z' s', '.' ∉ z' → (t.name = z' ++ '.' :: s' ↔ z = z' ∧ s = s') := by
      intro z' s' hz'
      rw [hn]
      constructor
      · intro e
        have := congrArg (List.takeWhile (fun c => c ≠ '.')) e
        rw [takeDot hz, takeDot hz'] at this
        subst this
        simpa using e
      · rintro ⟨rfl, rfl⟩; rfl
    have hdig : ∀ z' : Str, (∀ c ∈ z', isDigit c = true) → '.' ∉ z' := by
      intro z' h hc
      have := h _ hc
      revert this; decide
    have huse : acePaths d (t :: ts) = if z ≠ [] ∧ z.all isDigit = true then
        (if Dict.has d (z, s) then acePaths d ts else acePaths (Dict.set d (z, s) t.filename) ts) else acePaths d ts := by
      rw [acePaths, hsuf]
      simp only [hzaid]
    rw [huse]
    by_cases hc : z ≠ [] ∧ z.all isDigit = true
    · rw [if_pos hc]
      by_cases hh : Dict.has d (z, s) = true
      · rw [if_pos hh]
        obtain ⟨d', e, g⟩ := ih d
        refine ⟨d', e, fun z' s' h1 h2 => ?_⟩
        rw [g z' s' h1 h2]
        by_cases heq : z = z' ∧ s = s'
        · obtain ⟨rfl, rfl⟩ := heq
          unfold Dict.has at hh
          cases hg : Dict.get? d (z, s) with
          | none => rw [hg] at hh; cases hh
          | some v => simp
        · have : decide (t.name = z' ++ '.' :: s') = false := by
            rw [decide_eq_false_iff_not, hname z' s' (hdig z' h2)]; exact heq
          rw [List.find?_cons, this]
      · rw [if_neg hh]
        obtain ⟨d', e, g⟩ := ih (Dict.set d (z, s) t.filename)
        refine ⟨d', e, fun z' s' h1 h2 => ?_⟩
        rw [g z' s' h1 h2, Dict.get?_set]
        by_cases heq : z = z' ∧ s = s'
        · obtain ⟨rfl, rfl⟩ := heq
          have hnone : Dict.get? d (z, s) = none := by
            unfold Dict.has at hh
            cases hg : Dict.get? d (z, s) with
            | none => rfl
            | some v => rw [hg] at hh; exact absurd rfl hh
          have : decide (t.name = z ++ '.' :: s) = true := by
            rw [decide_eq_true_eq, hn]
          rw [List.find?_cons, this, hnone]
          simp
        · have : decide (t.name = z' ++ '.' :: s') = false := by
            rw [decide_eq_false_iff_not, hname z' s' (hdig z' h2)]; exact heq
          rw [List.find?_cons, this]
          have hne : ¬ (z, s) = (z', s') := by rw [Prod.mk.injEq]; exact heq
          simp [hne]
    · rw [if_neg hc]
      obtain ⟨d', e, g⟩ := ih d
      refine ⟨d', e, fun z' s' h1 h2 => ?_⟩
      rw [g z' s' h1 h2]
      have : decide (t.name = z' ++ '.' :: s') = false := by
        rw [decide_eq_false_iff_not, hname z' s' (hdig z' h2)]
        rintro ⟨rfl, _⟩
        exact hc ⟨h1, by rw [List.all_eq_true]; exact h2⟩
      rw [List.find?_cons, this]

/-- **C117.** The file looked up for a zaid (digits) and a suffix is that of the first table of this name; there is none
exactly if there is no such table. -/
theorem acePaths_first {x : Xsdir} (hd : ∀ t ∈ x.tables, ∃ z s, t.name = z ++ '.' :: s ∧ '.' ∉ z ∧ '.' ∉ s) :
    ∃ d, acePaths [] x.tables = .ok d ∧ ∀ z s, z ≠ [] → (∀ c ∈ z, isDigit c = true) →
      Dict.get? d (z, s) = (x.tables.find? (fun t => t.name = z ++ '.' :: s)).map Table.filename := by
  obtain ⟨d, e, g⟩ := acePaths_get hd []
  refine ⟨d, e, fun z s h1 h2 => ?_⟩
  rw [g z s h1 h2]
  simp [Dict.get?]

/-- **C117 (names without a suffix).** A table whose name has no dot makes the lookup fail for all zaids. -/
theorem acePaths_no_dot {t : Table} (ht : '.' ∉ t.name) (ts ts' : List Table) (d : Dict (Str × Str) Str) :
    acePaths d (ts ++ t :: ts') = .error .indexError := by
  have hs : suffix t.name = .error .indexError := by unfold suffix; rw [if_neg ht]
  induction ts generalizing d with
  | nil => rw [List.nil_append, acePaths, hs]
  | cons u ts ih =>
    rw [List.cons_append, acePaths]
    cases hu : suffix u.name with
    | error e =>
      simp only
      unfold suffix at hu
      split_ifs at hu
      cases hu; rfl
    | ok s =>
      simp only
      split_ifs <;> exact ih _

/-! ### examples -/

/-- numbers of the example: integers -/
def exPf (s : Str) : Option ℚ := (parseInt s).map (fun i => (i : ℚ))

/-- a small file: an entry continued, a second table of the same zaid, a blank line, a table behind it (example) -/
def exFile : List Str :=
  ["datapath=/xs/data \n".toList, "Atomic Weight ratios\n".toList, " 1001 1 1002 2\n".toList, "  2004 4\n".toList,
    "directory\n".toList, "1001.31c 1 h1 0 1 7 +\n".toList, "  100 0 0 5 ptable\n".toList, "1001.80c 1 h1b 0 1 7 100\n".toList,
    "\n".toList, "2004.31c 4 he 0 1 7 100\n".toList]

example : (read exPf exFile).toOption.map (fun x => (x.datapath, x.awr, x.tables.map Table.name)) =
    some (some "/xs/data".toList, [("1001".toList, "1".toList), ("1002".toList, "2".toList), ("2004".toList, "4".toList)],
      ["1001.31c".toList, "1001.80c".toList]) := by decide +kernel

/-- the hypotheses of `read_file` hold of it -/
example : Ratios [" 1001 1 1002 2\n".toList, "  2004 4\n".toList]
    ([("1001".toList, "1".toList), ("1002".toList, "2".toList)] ++ ([("2004".toList, "4".toList)] ++ [])) :=
  .cons (by decide +kernel) (by decide) (by decide +kernel) (.cons (by decide +kernel) (by decide) (by decide +kernel) .nil)

example : Entries exPf (["1001.31c 1 h1 0 1 7 +\n".toList, "  100 0 0 5 ptable\n".toList] ++ (["1001.80c 1 h1b 0 1 7 100\n".toList] ++ []))
    [⟨"1001.31c".toList, 1, "h1".toList, "0".toList, 1, 7, 100, some 0, some 0, some 5, true⟩,
      ⟨"1001.80c".toList, 1, "h1b".toList, "0".toList, 1, 7, 100, none, none, none, false⟩] := by
  refine .cons (ws := ["1001.31c".toList, "1".toList, "h1".toList, "0".toList, "1".toList, "7".toList] ++
      ["100".toList, "0".toList, "0".toList, "5".toList, "ptable".toList])
    (.cont (by decide +kernel) (.last (by decide +kernel) (by decide) (by decide))) ?_
    (.cons (ws := ["1001.80c".toList, "1".toList, "h1b".toList, "0".toList, "1".toList, "7".toList, "100".toList])
      (.last (by decide +kernel) (by decide) (by decide)) ?_ .nil)
  · exact ⟨by decide, ⟨"1".toList, by decide, by decide +kernel⟩, by decide, by decide, ⟨"1".toList, by decide, by decide⟩,
      ⟨"7".toList, by decide, by decide⟩, ⟨"100".toList, by decide, by decide⟩, ⟨0, by decide, rfl⟩, ⟨0, by decide, rfl⟩,
      ⟨5, by decide +kernel, rfl⟩, by decide⟩
  · exact ⟨by decide, ⟨"1".toList, by decide, by decide +kernel⟩, by decide, by decide, ⟨"1".toList, by decide, by decide⟩,
      ⟨"7".toList, by decide, by decide⟩, ⟨"100".toList, by decide, by decide⟩, rfl, rfl, rfl, by decide⟩

/-- tables with a long suffix (example) -/
def exLong : Xsdir := ⟨none, [], [⟨"1001.710nc".toList, 1, "h".toList, "0".toList, 1, 1, 1, none, none, none, false⟩,
  ⟨"47510.31c".toList, 1, "ag".toList, "0".toList, 1, 1, 1, none, none, none, false⟩]⟩

example : hasTable exLong "1001".toList "710nc".toList = false ∧ (findZaids exLong "710nc".toList).length = 1 ∧
    hasTable exLong "47510".toList "31c".toList = true := by decide +kernel

/-- silver-110m is not metastable -/
example : exLong.tables.map Table.metastable = [.ok (some 0), .ok (some 0)] := by decide +kernel

end F4Enix.Xs
