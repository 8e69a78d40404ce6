import Verif.D1S.Input
import Verif.Mat.SwitchProps
/-!
# D1S inputs: theorems about `Verif/D1S/Input.lean`
-/
namespace F4Enix.D1S
open F4Enix F4Enix.Mat

/-! ## Daughters -/

/-- **Number of a daughter**: isotope `Xa` of the element with number `z` is `z·aaa`, its metastable
state `Xam` is `z·aaa·900`. -/
theorem daughter_number (lm : LibMan) {z : ℕ} (a : ℕ) {sym : Str} (h2 : sym ≠ [])
    (h3 : ∀ c ∈ sym, isLetter c = true) (h4 : lm.numberOf sym = some z) :
    daughterNum lm (sym ++ natStr a) = .ok (natStr z ++ pad3 a) ∧
    daughterNum lm (sym ++ natStr a ++ ['m']) = .ok (natStr z ++ pad3 a ++ ['9', '0', '0']) := by
  have hz := (formulaZaid_eq lm a h2 h3 h4).2
  constructor
  · have hne : sym ++ natStr a ≠ [] := by simp [h2]
    have hl : (sym ++ natStr a).getLast? = (natStr a).getLast? := by
      rw [List.getLast?_append]
      cases h : (natStr a).getLast? with
      | none => exact absurd (List.getLast?_eq_none_iff.mp h) (natStr_ne_nil a)
      | some c => rfl
    unfold daughterNum
    rw [hl]
    cases h : (natStr a).getLast? with
    | none => exact absurd (List.getLast?_eq_none_iff.mp h) (natStr_ne_nil a)
    | some c =>
      have hd := natStr_all_digit a c (List.mem_of_getLast? h)
      have hm : c ≠ 'm' := by rintro rfl; revert hd; decide
      simp only [if_neg hm]
      exact hz
  · unfold daughterNum
    rw [List.getLast?_append_of_ne_nil _ (by simp)]
    simp only [List.getLast?_singleton, if_true, List.dropLast_concat, hz]

/-! ## The reactions of a nuclide -/

/-- **Specification**: the activation file foresees, for library `lib`, the reaction `mt` from
`parent` to `daughter`: some row of the sheet names the formula of the parent (without the dash), the
MT number, and a formula whose number is the daughter. -/
def Foreseen (lm : LibMan) (tab : ActTable) (lib parent : Str) (mt : ℤ) (daughter : Str) : Prop :=
  ∃ rows, Dict.get? tab lib = some rows ∧ ∃ row ∈ rows, ∃ f, lm.zaidName parent = .ok f ∧
    row.parent = f.filter (fun c => decide (c ≠ '-')) ∧ row.mt = mt ∧
    daughterNum lm row.daughter = .ok daughter

/-- every daughter named in the sheet is known to the isotope table (specification) -/
def SheetOk (lm : LibMan) (tab : ActTable) (lib : Str) : Prop :=
  ∀ rows, Dict.get? tab lib = some rows → ∀ row ∈ rows, ∃ d, daughterNum lm row.daughter = .ok d

theorem rowLoop_ok {lm : LibMan} {rows : List ActRow}
    (h : ∀ row ∈ rows, ∃ d, daughterNum lm row.daughter = .ok d) :
    (rowLoop lm rows).2 = none ∧ ∀ mt d, (mt, d) ∈ (rowLoop lm rows).1 ↔
      ∃ row ∈ rows, row.mt = mt ∧ daughterNum lm row.daughter = .ok d := by
  induction rows with
  | nil => simp [rowLoop]
  | cons r rs ih =>
    obtain ⟨d0, hd0⟩ := h r (by simp)
    obtain ⟨h1, h2⟩ := ih (fun row hr => h row (List.mem_cons_of_mem _ hr))
    simp only [rowLoop, hd0]
    refine ⟨h1, fun mt d => ?_⟩
    simp only [List.mem_cons, h2, Prod.mk.injEq]
    constructor
    · rintro (⟨rfl, rfl⟩ | ⟨row, hr, e⟩)
      · exact ⟨r, Or.inl rfl, rfl, hd0⟩
      · exact ⟨row, Or.inr hr, e⟩
    · rintro ⟨row, rfl | hr, e1, e2⟩
      · rw [hd0] at e2; cases e2; exact Or.inl ⟨e1.symm, rfl⟩
      · exact Or.inr ⟨row, hr, e1, e2⟩

/-- **`get_reactions` lists exactly the reactions foreseen** for the nuclide in that library; an
unknown library or element gives an empty list. -/
theorem reactions_exact {lm : LibMan} {tab : ActTable} {lib parent : Str} {l : List (ℤ × Str)}
    (hs : SheetOk lm tab lib) (h : getReactions lm tab lib parent = .ok l) (mt : ℤ) (d : Str) :
    (mt, d) ∈ l ↔ Foreseen lm tab lib parent mt d := by
  unfold getReactions at h
  unfold Foreseen
  cases hr : Dict.get? tab lib with
  | none => simp only [hr, Except.ok.injEq] at h; subst h; simp
  | some rows =>
    simp only [hr] at h
    cases hz : lm.zaidName parent with
    | error e =>
      simp only [hz] at h
      cases e <;> simp only [Except.ok.injEq, reduceCtorEq] at h
      subst h; simp
    | ok f =>
      simp only [hz] at h
      obtain ⟨h1, h2⟩ := rowLoop_ok (lm := lm)
        (rows := rows.filter (fun r => decide (r.parent = f.filter (fun c => decide (c ≠ '-')))))
        (fun row hrow => hs rows hr row (List.mem_filter.mp hrow).1)
      have hl : l = (rowLoop lm
          (rows.filter (fun r => decide (r.parent = f.filter (fun c => decide (c ≠ '-')))))).1 := by
        revert h h1
        generalize rowLoop lm _ = q
        obtain ⟨q1, q2⟩ := q
        rintro h rfl
        simpa using h.symm
      rw [hl, h2]
      constructor
      · rintro ⟨row, hrow, e1, e2⟩
        have := List.mem_filter.mp hrow
        exact ⟨rows, rfl, row, this.1, f, rfl, by simpa using this.2, e1, e2⟩
      · rintro ⟨rows', he, row, hrow, f', hf, e0, e1, e2⟩
        cases he; cases hf
        exact ⟨row, List.mem_filter.mpr ⟨hrow, by simpa using e0⟩, e1, e2⟩

/-- **A daughter that the isotope table does not know hides all later reactions of the parent**: the
list silently ends before it. -/
theorem reactions_cut (lm : LibMan) (r : ActRow) (before after : List ActRow)
    (hr : daughterNum lm r.daughter = .error .keyError)
    (hb : ∀ row ∈ before, ∃ d, daughterNum lm row.daughter = .ok d) :
    rowLoop lm (before ++ r :: after) = ((rowLoop lm before).1, some .keyError) := by
  induction before with
  | nil => simp [rowLoop, hr]
  | cons b bs ih =>
    obtain ⟨d, hd⟩ := hb b (by simp)
    simp only [List.cons_append, rowLoop, hd, ih (fun row h => hb row (List.mem_cons_of_mem _ h))]

/-! ## All paths of the model, and the reaction file -/

theorem textsLe_total (a b : List Str) : textsLe a b = true ∨ textsLe b a = true := by
  induction a generalizing b with
  | nil => left; cases b <;> rfl
  | cons x xs ih =>
    cases b with
    | nil => right; rfl
    | cons y ys =>
      unfold textsLe
      by_cases h : x = y
      · subst h; simp only [if_true]; exact ih ys
      · rw [if_neg h, if_neg (Ne.symm h)]; exact strLe_total x y

theorem textsLe_trans {a b c : List Str} (h1 : textsLe a b = true) (h2 : textsLe b c = true) :
    textsLe a c = true := by
  induction a generalizing b c with
  | nil => cases c <;> rfl
  | cons x xs ih =>
    cases b with
    | nil => simp [textsLe] at h1
    | cons y ys =>
      cases c with
      | nil => simp [textsLe] at h2
      | cons z zs =>
        unfold textsLe at h1 h2 ⊢
        by_cases hxy : x = y
        · subst hxy
          simp only [if_true] at h1
          by_cases hxz : x = z
          · subst hxz; simp only [if_true] at h2 ⊢; exact ih h1 h2
          · rw [if_neg hxz] at h2 ⊢; exact h2
        · rw [if_neg hxy] at h1
          by_cases hyz : y = z
          · subst hyz
            rw [if_neg hxy]; exact h1
          · rw [if_neg hyz] at h2
            have hxz : x ≠ z := by
              rintro rfl
              exact hxy (strLe_antisymm h1 h2)
            rw [if_neg hxz]; exact strLe_trans h1 h2

theorem textsLe_antisymm {a b : List Str} (h1 : textsLe a b = true) (h2 : textsLe b a = true) : a = b := by
  induction a generalizing b with
  | nil => cases b with
    | nil => rfl
    | cons y ys => simp [textsLe] at h2
  | cons x xs ih =>
    cases b with
    | nil => simp [textsLe] at h1
    | cons y ys =>
      unfold textsLe at h1 h2
      by_cases h : x = y
      · subst h; simp only [if_true] at h1 h2; rw [ih h1 h2]
      · rw [if_neg h] at h1; rw [if_neg (Ne.symm h)] at h2
        exact absurd (strLe_antisymm h1 h2) h

theorem intStr_inj {a b : ℤ} (h : intStr a = intStr b) : a = b := by
  have := congrArg parseInt h
  simpa [parseInt_intStr] using this

theorem pathLe_antisymm {a b : Path} (h1 : pathLe a b = true) (h2 : pathLe b a = true) : a = b := by
  have := textsLe_antisymm h1 h2
  simp only [List.cons.injEq, and_true] at this
  obtain ⟨e1, e2, e3⟩ := this
  exact Prod.ext e1 (Prod.ext (intStr_inj e2) e3)

/-- what a reaction of the file says: parent without library, MT, daughter (specification) -/
def Reaction.path (lib : Str) (r : Reaction) (p : Path) : Prop :=
  r.parent = p.1 ++ '.' :: lib ∧ r.mt = p.2.1 ∧ r.daughter = p.2.2

theorem forall₂_mem_right {α β : Type} {R : α → β → Prop} {l : List α} {l' : List β}
    (h : List.Forall₂ R l l') {y : β} (hy : y ∈ l') : ∃ x ∈ l, R x y := by
  induction h with
  | nil => simp at hy
  | cons hr _ ih =>
    rcases List.mem_cons.mp hy with rfl | hy
    · exact ⟨_, by simp, hr⟩
    · obtain ⟨x, hx, hxy⟩ := ih hy
      exact ⟨x, List.mem_cons_of_mem _ hx, hxy⟩

theorem forall₂_mem_left {α β : Type} {R : α → β → Prop} {l : List α} {l' : List β}
    (h : List.Forall₂ R l l') {x : α} (hx : x ∈ l) : ∃ y ∈ l', R x y := by
  induction h with
  | nil => simp at hx
  | cons hr _ ih =>
    rcases List.mem_cons.mp hx with rfl | hx
    · exact ⟨_, by simp, hr⟩
    · obtain ⟨y, hy, hxy⟩ := ih hx
      exact ⟨y, List.mem_cons_of_mem _ hy, hxy⟩

theorem pathReaction_ok {lm : LibMan} {lib : Str} {p : Path} {r : Reaction}
    (h : pathReaction lm lib p = .ok r) : r.path lib p := by
  unfold pathReaction at h
  split at h
  · simp at h
  · simp only [Except.ok.injEq] at h; subst h; exact ⟨rfl, rfl, rfl⟩

/-- **The potential paths of a model** are exactly the reactions foreseen for the nuclides of its
materials, each once, in increasing order of the texts (parent, MT, daughter), every parent carrying
the activation library. -/
theorem paths_exact {ms : List Material} {lm : LibMan} {tab : ActTable} {lib : Str} {rs : List Reaction}
    (hs : SheetOk lm tab lib) (h : potentialPaths ms lm tab lib = .ok rs) :
    ∃ ps : List Path, List.Forall₂ (fun p r => Reaction.path lib r p) ps rs ∧
      ps.Pairwise (fun a b => pathLe a b = true ∧ a ≠ b) ∧
      ∀ parent mt d, (parent, mt, d) ∈ ps ↔
        (∃ m ∈ ms, ∃ z ∈ m.zaids, z.num = parent) ∧ Foreseen lm tab lib parent mt d := by
  unfold potentialPaths at h
  split at h
  · simp at h
  rename_i ls hls
  have : Std.Total (fun a b : Path => pathLe a b = true) := ⟨fun a b => textsLe_total _ _⟩
  have : IsTrans Path (fun a b => pathLe a b = true) := ⟨fun a b c h1 h2 => textsLe_trans h1 h2⟩
  refine ⟨_, (mapE_ok h).imp (fun _ _ hr => pathReaction_ok hr), ?_, ?_⟩
  · have h1 := List.pairwise_insertionSort (fun a b : Path => pathLe a b = true) ls.flatten.dedup
    have h2 : (ls.flatten.dedup.insertionSort (fun a b : Path => pathLe a b = true)).Nodup :=
      (List.perm_insertionSort _ _).nodup_iff.mpr (List.nodup_dedup _)
    exact h1.and h2
  · intro parent mt d
    rw [List.mem_insertionSort, List.mem_dedup, List.mem_flatten]
    have hf := mapE_ok hls
    constructor
    · rintro ⟨l, hl, hmem⟩
      obtain ⟨z, hz, hzl⟩ := forall₂_mem_right hf hl
      unfold pathsOf at hzl
      split at hzl
      · simp at hzl
      rename_i l0 hl0
      simp only [Except.ok.injEq] at hzl
      subst hzl
      obtain ⟨p, hp, he⟩ := List.mem_map.mp hmem
      cases he
      obtain ⟨m, hm, hzm⟩ := List.mem_flatMap.mp hz
      exact ⟨⟨m, hm, z, hzm, rfl⟩, (reactions_exact hs hl0 _ _).mp hp⟩
    · rintro ⟨⟨m, hm, z, hz, rfl⟩, hfs⟩
      obtain ⟨l, hl, hzl⟩ := forall₂_mem_left hf (List.mem_flatMap.mpr ⟨m, hm, hz⟩)
      refine ⟨l, hl, ?_⟩
      unfold pathsOf at hzl
      split at hzl
      · simp at hzl
      rename_i l0 hl0
      simp only [Except.ok.injEq] at hzl
      subst hzl
      exact List.mem_map.mpr ⟨(mt, d), (reactions_exact hs hl0 _ _).mpr hfs, rfl⟩

/-- **The reaction file**: of the potential paths exactly those whose daughter has a schedule in the
irradiation file, in the same order; it becomes the reaction file of the input exactly when asked, and
nothing else of the input changes. -/
theorem reaction_file_exact {i : DInput} {f : IrradiationFile} (hi : i.irrad = some f) {lm : LibMan}
    {tab : ActTable} {lib : Str} {set : Bool} {sel : List Reaction} {i' : DInput}
    (h : getReactionFile i lm tab lib set = (i', .ok sel)) :
    ∃ rs, potentialPaths i.materials lm tab lib = .ok rs ∧ sel.Sublist rs ∧
      (∀ r, r ∈ sel ↔ r ∈ rs ∧ ∃ s ∈ f.schedules, s.daughter = r.daughter) ∧
      i' = { i with reac := if set then some sel else i.reac } := by
  unfold getReactionFile at h
  simp only [hi] at h
  split at h
  · simp at h
  rename_i rs hrs
  simp only [Prod.mk.injEq, Except.ok.injEq] at h
  obtain ⟨h1, rfl⟩ := h
  refine ⟨rs, hrs, List.filter_sublist, fun r => ?_, ?_⟩
  · simp only [List.mem_filter, getDaughters, List.contains_eq_mem, decide_eq_true_eq, List.mem_map]
  · rw [← h1]
    cases set
    · rfl
    · simp [hi]

/-- without irradiation file the call is refused and nothing changes; a failure changes nothing
either -/
theorem reaction_file_refused (i : DInput) (lm : LibMan) (tab : ActTable) (lib : Str) (set : Bool) :
    (i.irrad = none → getReactionFile i lm tab lib set = (i, .error .valueError)) ∧
    (∀ i' e, getReactionFile i lm tab lib set = (i', .error e) → i' = i) := by
  constructor
  · intro h; simp [getReactionFile, h]
  · intro i' e h
    unfold getReactionFile at h
    split at h
    · simp only [Prod.mk.injEq] at h; exact h.1.symm
    · split at h
      · simp only [Prod.mk.injEq] at h; exact h.1.symm
      · simp at h

/-! ## PIKMT -/

/-- **The PIKMT card** has the key line and then one line per parent nuclide of the reaction file, each
nuclide once, sorted, without library, with weight 0; it replaces any older one and touches no other
card. Without a reaction file nothing happens. -/
theorem pikmt_exact (i : DInput) {rs : List Reaction} (h : i.reac = some rs) :
    ∃ ps : List Str, ps.Pairwise (fun a b => strLe a b = true ∧ a ≠ b) ∧
      (∀ p, p ∈ ps ↔ ∃ r ∈ rs, p = r.parent.takeWhile (· != '.')) ∧
      Dict.get? (addPikmt i).data "PIKMT".toList =
        some ("PIKMT\n".toList :: ps.map (fun p => "         ".toList ++ p ++ "    0\n".toList)) ∧
      (∀ k, k ≠ "PIKMT".toList → Dict.get? (addPikmt i).data k = Dict.get? i.data k) ∧
      (addPikmt i).reac = i.reac ∧ (addPikmt i).materials = i.materials ∧ (addPikmt i).irrad = i.irrad := by
  refine ⟨getParents rs, (c25_parents rs).1, (c25_parents rs).2, ?_, ?_, ?_, ?_, ?_⟩
  all_goals simp only [addPikmt, h]
  · exact Dict.get?_set_self _ _ _
  · intro k hk; exact Dict.get?_set_ne _ _ (Ne.symm hk)

theorem pikmt_none (i : DInput) (h : i.reac = none) : addPikmt i = i := by simp [addPikmt, h]

/-! ## Translation -/

theorem transpLoop_mem (active : List Str) (acc : List Str) (zs : List Zaid) (n : Str) :
    n ∈ transpLoop active acc zs ↔ n ∈ acc ∨ (n ∉ active ∧ ∃ z ∈ zs, z.num = n) := by
  induction zs generalizing acc with
  | nil => simp [transpLoop]
  | cons z zs ih =>
    unfold transpLoop
    split
    · rename_i h
      rw [ih]
      simp only [List.mem_append, List.mem_cons, List.not_mem_nil, or_false, exists_eq_or_imp]
      constructor
      · rintro ((h1 | rfl) | h1)
        · exact Or.inl h1
        · exact Or.inr ⟨h.1, Or.inl rfl⟩
        · exact Or.inr ⟨h1.1, Or.inr h1.2⟩
      · rintro (h1 | ⟨h1, rfl | h2⟩)
        · exact Or.inl (Or.inl h1)
        · exact Or.inl (Or.inr rfl)
        · exact Or.inr ⟨h1, h2⟩
    · rename_i h
      rw [ih]
      simp only [List.mem_cons, exists_eq_or_imp]
      constructor
      · rintro (h1 | h1)
        · exact Or.inl h1
        · exact Or.inr ⟨h1.1, Or.inr h1.2⟩
      · rintro (h1 | ⟨h1, rfl | h2⟩)
        · exact Or.inl h1
        · left
          by_contra hc
          exact h ⟨h1, hc⟩
        · exact Or.inr ⟨h1, h2⟩

/-- is the nuclide a parent of the reaction file? (specification) -/
def IsParent (rs : List Reaction) (n : Str) : Prop := ∃ r ∈ rs, r.parent.takeWhile (· != '.') = n

/-- **Specification**: the zaids `zs'` are what the plain translation (to the activation library for
parents, to the transport library for all other nuclides) makes of each of the zaids `zs` in turn. -/
def SmartZaids (rs : List Reaction) (act tr : Str) (lm : LibMan) (zs zs' : List Zaid) : Prop :=
  ∃ parts : List (List Zaid), zs' = parts.flatten ∧ List.Forall₂ (fun z part =>
    (IsParent rs z.num → translateZaids (.one act) lm [z] = .ok part) ∧
    (¬ IsParent rs z.num → translateZaids (.one tr) lm [z] = .ok part)) zs parts

theorem findLib_smart {act tr : Str} (hne : act ≠ tr) (rs : List Reaction) (zs : List Zaid) {z : Zaid}
    (hz : z ∈ zs) :
    (IsParent rs z.num → findLib z.num (smartLibs act tr (rs.map (fun r => beforeDot r.parent))
      (transpLoop (rs.map (fun r => beforeDot r.parent)) [] zs)) = some act) ∧
    (¬ IsParent rs z.num → findLib z.num (smartLibs act tr (rs.map (fun r => beforeDot r.parent))
      (transpLoop (rs.map (fun r => beforeDot r.parent)) [] zs)) = some tr) := by
  have hp : z.num ∈ rs.map (fun r => beforeDot r.parent) ↔ IsParent rs z.num := by
    simp [IsParent, beforeDot]
  have ht : z.num ∈ transpLoop (rs.map (fun r => beforeDot r.parent)) [] zs ↔ ¬ IsParent rs z.num := by
    rw [transpLoop_mem, hp]
    simp only [List.not_mem_nil, false_or]
    exact ⟨fun h => h.1, fun h => ⟨h, z, hz, rfl⟩⟩
  simp only [smartLibs, Dict.set, if_neg hne, findLib]
  exact ⟨fun h => by rw [if_pos (hp.mpr h)], fun h => by rw [if_neg (fun q => h (hp.mp q)), if_pos (ht.mpr h)]⟩

theorem translateZaids_single {nl : NewLib} {lm : LibMan} {z : Zaid} {tag : Str} {part : List Zaid}
    (htag : newTag nl z = .ok tag) (h : translateZaids nl lm [z] = .ok part) :
    translateZaids (.one tag) lm [z] = .ok part := by
  have h2 : newTag (.one tag) z = .ok tag := rfl
  simp only [translateZaids, htag] at h
  simp only [translateZaids, h2]
  exact h

theorem translateZaids_parts {nl : NewLib} {lm : LibMan} {zs zs' : List Zaid}
    (h : translateZaids nl lm zs = .ok zs') :
    ∃ parts : List (List Zaid), zs' = parts.flatten ∧
      List.Forall₂ (fun z part => translateZaids nl lm [z] = .ok part) zs parts := by
  induction zs generalizing zs' with
  | nil => simp only [translateZaids, Except.ok.injEq] at h; subst h; exact ⟨[], rfl, .nil⟩
  | cons z zs ih =>
    simp only [translateZaids] at h
    split at h
    · simp at h
    rename_i tag htag
    split at h
    · simp at h
    rename_i r hr
    split at h
    · simp at h
    rename_i rest hrest
    obtain ⟨parts, hp, hf⟩ := ih hrest
    cases r with
    | none =>
      simp only [Except.ok.injEq] at h
      refine ⟨[] :: parts, by simp [← h, hp], .cons ?_ hf⟩
      simp [translateZaids, htag, hr]
    | some t =>
      simp only [Except.ok.injEq] at h
      refine ⟨newZaids z.fraction t :: parts, by simp [← h, hp], .cons ?_ hf⟩
      simp [translateZaids, htag, hr]

theorem updateInfo_zaids {m m' : Material} {lm : LibMan} (h : m.updateInfo lm = .ok m') :
    m'.name = m.name ∧ m'.subs.map SubMat.zaids = m.subs.map SubMat.zaids := by
  unfold Material.updateInfo at h
  split at h
  · simp only [Except.ok.injEq] at h; subst h
    exact ⟨rfl, by simp⟩
  · simp at h

theorem smart_forall₂ {act tr : Str} (hne : act ≠ tr) {rs : List Reaction} {all : List Zaid}
    {lm : LibMan} {zs : List Zaid} {parts : List (List Zaid)} (hsub : ∀ z ∈ zs, z ∈ all)
    (hf : List.Forall₂ (fun z part => translateZaids (.byZaid (smartLibs act tr
      (rs.map (fun r => beforeDot r.parent)) (transpLoop (rs.map (fun r => beforeDot r.parent)) [] all)))
      lm [z] = .ok part) zs parts) :
    List.Forall₂ (fun z part =>
      (IsParent rs z.num → translateZaids (.one act) lm [z] = .ok part) ∧
      (¬ IsParent rs z.num → translateZaids (.one tr) lm [z] = .ok part)) zs parts := by
  induction hf with
  | nil => exact .nil
  | @cons z part zs parts hz _ ih =>
    have hcons : ∃ p q, smartLibs act tr (rs.map (fun r => beforeDot r.parent))
        (transpLoop (rs.map (fun r => beforeDot r.parent)) [] all) = p :: q := by
      simp [smartLibs, Dict.set, hne]
    refine .cons ⟨fun hp => ?_, fun hp => ?_⟩ (ih (fun y hy => hsub y (List.mem_cons_of_mem _ hy)))
    · refine translateZaids_single ?_ hz
      have := (findLib_smart hne rs all (hsub z (by simp))).1 hp
      obtain ⟨p, q, hpq⟩ := hcons
      rw [hpq] at this ⊢
      simp [newTag, this]
    · refine translateZaids_single ?_ hz
      have := (findLib_smart hne rs all (hsub z (by simp))).2 hp
      obtain ⟨p, q, hpq⟩ := hcons
      rw [hpq] at this ⊢
      simp [newTag, this]

/-- **`smart_translate`** (different libraries): when it ends normally, every submaterial of every
material holds what the plain translation makes of each of its nuclides — to the activation library if
the nuclide is a parent in the reaction file, to the transport library otherwise; every reaction has
the activation library, with the same nuclide, MT and daughter; and the PIKMT card is that of the
reaction file. Materials keep their number, order and names. Partial: True for different libraries; negation proved for equal ones. What a failing call leaves behind: C188. -/
theorem smart_translate_exact_partial {i : DInput} {rs : List Reaction} (hr : i.reac = some rs) {act tr : Str}
    (hne : act ≠ tr) {lm : LibMan} {ms : List Material}
    (h : (smartTranslate i act tr lm false).materials = .ok ms) :
    List.Forall₂ (fun m m' : Material => m'.name = m.name ∧
        List.Forall₂ (fun s s' : SubMat => SmartZaids rs act tr lm s.zaids s'.zaids) m.subs m'.subs)
      i.materials ms ∧
    (∃ rs', (smartTranslate i act tr lm false).reac = some rs' ∧
      List.Forall₂ (fun r r' : Reaction => r'.parent = r.parent.takeWhile (· != '.') ++ '.' :: act ∧
        r'.mt = r.mt ∧ r'.daughter = r.daughter ∧ r'.comment = r.comment) rs rs') ∧
    Dict.get? (smartTranslate i act tr lm false).data "PIKMT".toList = some (pikmtLines rs) := by
  have e : smartTranslate i act tr lm false = smartCore i rs act tr lm := by
    simp [smartTranslate, hr]
  rw [e] at h ⊢
  refine ⟨?_, ⟨_, rfl, ?_⟩, ?_⟩
  · simp only [smartCore, translateAll] at h
    have hf := mapE_ok h
    have hall : ∀ m ∈ i.materials, ∀ s ∈ m.subs, ∀ z ∈ s.zaids,
        z ∈ i.materials.flatMap Material.zaids := by
      intro m hm s hs z hz
      exact List.mem_flatMap.mpr ⟨m, hm, List.mem_flatMap.mpr ⟨s, hs, hz⟩⟩
    generalize i.materials.flatMap Material.zaids = all at hf hall
    generalize i.materials = mats at hf hall
    clear h e
    induction hf with
    | nil => exact .nil
    | @cons m m' l l' hm _ ih =>
      refine .cons ?_ (ih (fun q hq => hall q (List.mem_cons_of_mem _ hq)))
      unfold Material.translate at hm
      split at hm
      · simp at hm
      rename_i subs hsubs
      obtain ⟨u1, u2⟩ := updateInfo_zaids hm
      refine ⟨u1, ?_⟩
      have hms := mapE_ok hsubs
      have hall' : ∀ s ∈ m.subs, ∀ z ∈ s.zaids, z ∈ all := hall m (by simp)
      simp only at u2
      generalize m.subs = ss at hms hall'
      generalize m'.subs = ss' at u2
      clear ih hm hsubs u1 hall
      induction hms generalizing ss' with
      | nil => 
        simp only [List.map_nil, List.map_eq_nil_iff] at u2; subst u2; exact .nil
      | @cons s s1 l l' hs _ ih =>
        cases ss' with
        | nil => simp at u2
        | cons s' ss' =>
          simp only [List.map_cons, List.cons.injEq] at u2
          refine .cons ?_ (ih (fun q hq => hall' q (List.mem_cons_of_mem _ hq)) _ u2.2)
          rw [u2.1]
          obtain ⟨parts, hp, hfp⟩ := translateZaids_parts (translate_parts hs).1
          exact ⟨parts, hp, smart_forall₂ hne (hall' s (by simp)) hfp⟩
  · clear h e hr
    induction rs with
    | nil => exact .nil
    | cons r rs ih => exact .cons ⟨rfl, rfl, rfl, rfl⟩ ih
  · simp only [smartCore, addPikmt]
    rw [show "PIKMT".toList = pikmtKey from rfl, Dict.get?_set_self]
    congr 1
    unfold pikmtLines getParents
    simp [Reaction.changeLib, beforeDot_append, Function.comp_def]

/-- **Equal libraries**: if activation and transport library have the same name and some material
contains a parent nuclide, the call fails with `ValueError` — after the reaction file and the PIKMT
card have been changed. -/
theorem smart_translate_same_library {i : DInput} {rs : List Reaction} (hr : i.reac = some rs)
    {lib : Str} {lm : LibMan} {m : Material} (hm : m ∈ i.materials) {s : SubMat} (hs : s ∈ m.subs)
    {z : Zaid} (hz : z ∈ s.zaids) (hp : IsParent rs z.num) :
    (∃ e, (smartTranslate i lib lib lm false).materials = .error e) ∧
    (smartTranslate i lib lib lm false).reac = some (rs.map (fun r => r.changeLib lib)) ∧
    Dict.get? (smartTranslate i lib lib lm false).data "PIKMT".toList = some (pikmtLines rs) := by
  have e : smartTranslate i lib lib lm false = smartCore i rs lib lib lm := by
    simp [smartTranslate, hr]
  rw [e]
  refine ⟨?_, rfl, ?_⟩
  · cases h : (smartCore i rs lib lib lm).materials with
    | error x => exact ⟨x, rfl⟩
    | ok ms =>
      exfalso
      simp only [smartCore, translateAll] at h
      obtain ⟨m', _, hm'⟩ := forall₂_mem_left (mapE_ok h) hm
      unfold Material.translate at hm'
      split at hm'
      · simp at hm'
      rename_i subs hsubs
      obtain ⟨s', _, hs'⟩ := forall₂_mem_left (mapE_ok hsubs) hs
      obtain ⟨tag, htag, _⟩ := (translateZaids_eq (translate_parts hs').1).2 z hz
      have hnt : z.num ∉ transpLoop (rs.map (fun r => beforeDot r.parent)) []
          (i.materials.flatMap Material.zaids) := by
        rw [transpLoop_mem]
        simp only [List.not_mem_nil, false_or, not_and]
        intro h1
        exact absurd (by simpa [IsParent, beforeDot] using hp) h1
      simp [smartLibs, Dict.set, newTag, findLib, hnt] at htag
  · simp only [smartCore, addPikmt]
    rw [show "PIKMT".toList = pikmtKey from rfl, Dict.get?_set_self]
    congr 1
    unfold pikmtLines getParents
    simp [Reaction.changeLib, beforeDot_append, Function.comp_def]

/-- with `fix_natural_zaid` the same is done after a plain translation of all materials to the
transport library -/
theorem smart_translate_fix {i : DInput} {act tr : Str} {lm : LibMan} {ms : List Material}
    (hr : i.reac ≠ none) (h : plainTranslate i.materials tr lm = .ok ms) :
    smartTranslate i act tr lm true = smartTranslate { i with materials := ms } act tr lm false := by
  cases hi : i.reac with
  | none => exact absurd hi hr
  | some rs => simp [smartTranslate, hi, h]

/-- without reaction file the call is refused before anything happens -/
theorem smart_translate_refused (i : DInput) (h : i.reac = none) (act tr : Str) (lm : LibMan) (fix : Bool) :
    smartTranslate i act tr lm fix = ⟨none, i.data, .error .valueError⟩ := by simp [smartTranslate, h]

/-! ## Tracking of contributions -/

/-- **`add_track_contribution`** appends to the tally card, after its lines, the `FU` card of that
tally with bin 0 and then one line per nuclide, in order, with a minus sign for parents; no other card
changes. Partial: The effect is exact; a refused call changes the card. -/
theorem track_exact_partial {data : Dict Str (List Str)} {key : Str} {lines : List Str}
    (hk : Dict.get? data key = some lines) {n : ℕ} {pre post : Str} (hkey : key = pre ++ natStr n ++ post)
    (hpre : ∀ c ∈ pre, isDigit c = false) (hpost : ∀ c, post.head? = some c → isDigit c = false)
    (zaids : List Str) (who : Who) (hw : who ≠ .other) :
    ∃ data', addTrack data key zaids who = (data', .ok ()) ∧
      Dict.get? data' key = some (lines ++ ("FU".toList ++ natStr n ++ " 0\n".toList) ::
        zaids.map (fun z => "         ".toList ++ (if who = .parent then '-' :: z else z) ++ ['\n'])) ∧
      ∀ k, k ≠ key → Dict.get? data' k = Dict.get? data k := by
  have hn : numTally key = .ok (natStr n) := by
    unfold numTally
    have := searchDigits_natStr pre post n hpre hpost
    rw [hkey, List.append_assoc, this]
    simp [digitsVal_natStr]
  cases who with
  | other => exact absurd rfl hw
  | parent =>
    refine ⟨_, by simp only [addTrack, hk, hn]; rfl, ?_, fun k hk' => Dict.get?_set_ne _ _ (Ne.symm hk')⟩
    rw [Dict.get?_set_self]; rfl
  | daughter =>
    refine ⟨_, by simp only [addTrack, hk, hn]; rfl, ?_, fun k hk' => Dict.get?_set_ne _ _ (Ne.symm hk')⟩
    rw [Dict.get?_set_self]; rfl

/-- **A refused `who` leaves a dangling `FU` card in the tally.** -/
theorem track_refused_changes {data : Dict Str (List Str)} {key : Str} {lines : List Str}
    (hk : Dict.get? data key = some lines) {n : Str} (hn : numTally key = .ok n) (zaids : List Str) :
    (addTrack data key zaids .other).2 = .error .valueError ∧
    Dict.get? (addTrack data key zaids .other).1 key =
      some (lines ++ ["FU".toList ++ n ++ " 0\n".toList]) := by
  simp only [addTrack, hk, hn, true_and]
  exact Dict.get?_set_self _ _ _

/-! ## Concrete cases -/

/-- three reactions, two of hydrogen-1 (example) -/
def sampleTab : ActTable :=
  [("99c".toList, [⟨"H1".toList, 102, "H2".toList⟩, ⟨"O16".toList, 103, "Li7m".toList⟩,
    ⟨"H1".toList, 16, "Li6".toList⟩])]

/-- `sampleIrr` (example) -/
def sampleIrr : IrradiationFile :=
  ⟨1, [⟨"3007900".toList, "1".toList, ["1".toList], none⟩, ⟨"1002".toList, "1".toList, ["1".toList], none⟩],
   none, defaultWidths, [11, 14, 13, 9]⟩

/-- `sampleMat2` (example) -/
def sampleMat2 : Material := ⟨"M1".toList,
  [mkSub [⟨2, "1".toList, "001".toList, some "31c".toList⟩, ⟨1, "3".toList, "006".toList, none⟩] none [],
   mkSub [⟨1, "8".toList, "016".toList, some "31c".toList⟩, ⟨1, "1".toList, "001".toList, none⟩] none []]⟩

/-- `sampleInput` (example) -/
def sampleInput : DInput := ⟨[sampleMat2], some sampleIrr, none, [("PIKMT".toList, []), ("F4".toList, [])]⟩

theorem sampleTab_ok : SheetOk sampleLib sampleTab "99c".toList := by
  intro rows hr row hrow
  have : rows = [⟨"H1".toList, 102, "H2".toList⟩, ⟨"O16".toList, 103, "Li7m".toList⟩,
    ⟨"H1".toList, 16, "Li6".toList⟩] := by
    have h2 : Dict.get? sampleTab "99c".toList = some [⟨"H1".toList, 102, "H2".toList⟩,
      ⟨"O16".toList, 103, "Li7m".toList⟩, ⟨"H1".toList, 16, "Li6".toList⟩] := by decide
    rw [h2] at hr; exact (Option.some.inj hr).symm
  subst this
  simp only [List.mem_cons, List.not_mem_nil, or_false] at hrow
  rcases hrow with rfl | rfl | rfl
  · exact ⟨"1002".toList, by decide +kernel⟩
  · exact ⟨"3007900".toList, by decide +kernel⟩
  · exact ⟨"3006".toList, by decide +kernel⟩

theorem sample_reaction_file :
    (getReactionFile sampleInput sampleLib sampleTab "99c".toList true).2 = .ok
      [⟨"1001.99c".toList, 102, "1002".toList, some "H-1 -> H-2".toList⟩,
       ⟨"8016.99c".toList, 103, "3007900".toList, some "O-16 -> Li-7m".toList⟩] := by decide +kernel

/-- the paths themselves: the text order puts MT 102 before MT 16 -/
theorem sample_paths : (potentialPaths [sampleMat2] sampleLib sampleTab "99c".toList).map
    (fun l => l.map Reaction.mt) = .ok [102, 16, 103] := by decide +kernel

/-- a library manager with activation library `99c` for hydrogen (example) -/
def sampleLib2 : LibMan := { sampleLib with
  libs := ["31c".toList, "81c".toList, "99c".toList]
  tables := fun l z => (decide (l = "99c".toList) && ["1001".toList, "8016".toList].contains z) ||
    sampleLib.tables l z }

theorem sample_smart :
    let r := smartTranslate (getReactionFile sampleInput sampleLib2 sampleTab "99c".toList true).1
      "99c".toList "31c".toList sampleLib2 false
    (match r.materials with
      | .ok ms => ms.map (fun m => m.zaids.map Zaid.name)
      | .error _ => []) = [["1001.99c".toList, "3006.31c".toList, "8016.99c".toList, "1001.99c".toList]] ∧
    Dict.get? r.data "PIKMT".toList = some ["PIKMT\n".toList, "         1001    0\n".toList,
      "         8016    0\n".toList] := by decide +kernel

example : addTrack [("F4".toList, ["F4:P 1\n".toList])] "F4".toList ["1001".toList] .parent =
    ([("F4".toList, ["F4:P 1\n".toList, "FU4 0\n".toList, "         -1001\n".toList])], .ok ()) := by
  decide +kernel

end F4Enix.D1S
