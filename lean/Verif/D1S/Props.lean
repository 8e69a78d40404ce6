import Verif.D1S.Lemmas
import Mathlib.Data.List.Perm.Subperm
/-!
# Properties of the D1S irradiation and reaction files (C20 – C26)
-/
namespace F4Enix.D1S
open F4Enix

/-! ## A concrete irradiation file used for non-vacuity -/

/-- `irr_test` of the documentation example (d1suned.py:78-81). -/
def exFile : IrradiationFile :=
  IrradiationFile.mk' 2
    [⟨"24051".toList, "2.896e-07".toList, ["5.982e+00".toList, "5.697e+00".toList], some "Cr51".toList⟩,
     ⟨"25054".toList, "2.570e-08".toList, ["5.881e+00".toList, "1.829e+00".toList], some "Mn 54".toList⟩,
     ⟨"26055".toList, "8.031e-09".toList, ["4.487e+00".toList, "6.364e-01".toList], some "".toList⟩]
    (some "C header\n".toList)

theorem exFile_consistent : Consistent exFile := by
  refine ⟨?_, rfl⟩
  intro i hi
  simp only [exFile, IrradiationFile.mk', List.mem_cons, List.not_mem_nil, or_false] at hi
  rcases hi with rfl | rfl | rfl <;> rfl

/-! ## C20 -/

theorem select_consistent {f : IrradiationFile} (h : Consistent f) (ds : List Str) :
    Consistent (selectDaughters f ds).1 := by
  refine ⟨?_, h.cols⟩
  intro i hi
  simp only [selectDaughters, List.mem_filter] at hi
  exact h.times i hi.1

theorem add_consistent {f : IrradiationFile} (h : Consistent f) (td : Dict Str (List Str)) :
    Consistent (addTimes f td).1 := by
  unfold addTimes
  split
  · exact h
  split
  · exact h
  split
  · exact h
  rename_i h1 h2 h3
  simp only
  split
  · rename_i hm
    have hnil := maxTimes_none hm
    simp only [List.map_eq_nil_iff] at hnil
    exact ⟨by simp [hnil], h.cols⟩
  · rename_i m hm
    obtain ⟨n, hn⟩ := lengthsDiffer_false (by simpa using h1 : lengthsDiffer td = false)
    have hall : ∀ i ∈ f.schedules, ((td.get? i.daughter).getD []).length = n := by
      intro i hi
      simp only [getDaughters, List.any_eq_true, List.mem_map, not_exists, not_and,
        Bool.not_eq_true', Bool.not_eq_false] at h3
      have hd := h3 i.daughter ⟨i, hi, rfl⟩
      unfold Dict.has at hd
      cases hg : td.get? i.daughter with
      | none => simp [hg] at hd
      | some v => exact hn _ (Dict.mem_of_get? hg)
    by_cases hne : f.schedules = []
    · simp [hne, maxTimes] at hm
    have hlen : ∀ i ∈ f.schedules.map
        (fun i => { i with times := i.times ++ (td.get? i.daughter).getD [] }),
        i.times.length = f.nsc.toNat + n := by
      intro i hi
      rw [List.mem_map] at hi
      obtain ⟨j, hj, rfl⟩ := hi
      have := h.times j hj
      simp only [List.length_append, hall j hj]; omega
    rw [maxTimes_const _ _ (by simpa using hne) hlen] at hm
    cases hm
    refine ⟨?_, rfl⟩
    intro i hi
    rw [hlen i hi]

theorem remove_consistent {f : IrradiationFile} (h : Consistent f) (index : Int) :
    Consistent (removeTime f index).1 := by
  have hlen : ∀ i ∈ f.schedules, i.times.length = f.nsc.toNat := by
    intro i hi; have := h.times i hi; omega
  unfold removeTime
  rw [popAll_uniform index _ _ hlen]
  by_cases hr : (index < 0 ∨ index ≥ (f.nsc.toNat : Int)) ∧ f.schedules ≠ []
  · rw [if_pos hr]; exact h
  · rw [if_neg hr]
    refine ⟨?_, rfl⟩
    intro i hi
    rw [List.mem_map] at hi
    obtain ⟨j, hj, rfl⟩ := hi
    have hne : f.schedules ≠ [] := List.ne_nil_of_mem hj
    simp only [hne, ne_eq, not_false_eq_true, and_true] at hr
    have := hlen j hj
    have := h.times j hj
    rw [List.length_eraseIdx_of_lt (by omega)]
    simp only
    omega

theorem modify_consistent {f : IrradiationFile} (h : Consistent f) (pos : Nat) (index : Int) (v : Str) :
    Consistent (modifyAt f pos index v).1 := by
  unfold modifyAt
  split
  · exact h
  · rename_i i hi
    refine ⟨?_, h.cols⟩
    intro j hj
    have hmem : i ∈ f.schedules := List.mem_of_getElem? hi
    rcases List.mem_or_eq_of_mem_set hj with hj | rfl
    · exact h.times j hj
    · have := h.times i hmem
      unfold Irradiation.modifyTimeVal
      split
      · exact this
      · simpa using this

/-- **C20.** After *any* history of operations (successful or refused) on a consistent irradiation
file, every daughter has exactly `nsc` time factors and the output format has `nsc` time columns. -/
theorem c20_consistent_after_any_history (f : IrradiationFile) (h : Consistent f) (ops : List Op) :
    Consistent (run f ops) := by
  unfold run
  induction ops generalizing f with
  | nil => exact h
  | cons op ops ih =>
    refine ih _ ?_
    cases op with
    | select ds => exact select_consistent h ds
    | add td => exact add_consistent h td
    | remove i => exact remove_consistent h i
    | modify p i v => exact modify_consistent h p i v

/-- **C20** (order). No history reorders, renames or invents daughters: the daughters are always a
subsequence of the original ones, and without a selection they are the same. -/
theorem c20_daughters_order (f : IrradiationFile) (ops : List Op) :
    (getDaughters (run f ops)).Sublist (getDaughters f) ∧
    ((∀ op ∈ ops, ∀ ds, op ≠ Op.select ds) → getDaughters (run f ops) = getDaughters f) := by
  have step : ∀ (f : IrradiationFile) (op : Op),
      (getDaughters (applyOp f op)).Sublist (getDaughters f) ∧
      ((∀ ds, op ≠ Op.select ds) → getDaughters (applyOp f op) = getDaughters f) := by
    intro f op
    cases op with
    | select ds =>
      refine ⟨?_, fun h => absurd rfl (h ds)⟩
      simp only [getDaughters, applyOp, selectDaughters]
      exact List.Sublist.map _ List.filter_sublist
    | add td =>
      have : getDaughters (applyOp f (.add td)) = getDaughters f := by
        simp only [applyOp, addTimes]
        split
        · rfl
        split
        · rfl
        split
        · rfl
        split <;> simp [getDaughters, Function.comp_def]
      exact ⟨by rw [this], fun _ => this⟩
    | remove i =>
      have : getDaughters (applyOp f (.remove i)) = getDaughters f := by
        have hp := popAll_daughters i f.schedules
        simp only [applyOp, removeTime]
        split <;> rename_i hh <;> simpa [getDaughters, hh] using hp
      exact ⟨by rw [this], fun _ => this⟩
    | modify p i v =>
      have : getDaughters (applyOp f (.modify p i v)) = getDaughters f := by
        simp only [applyOp, modifyAt]
        split
        · rfl
        · rename_i j hj
          have hd : (Irradiation.modifyTimeVal j i v).1.daughter = j.daughter := by
            unfold Irradiation.modifyTimeVal; split <;> rfl
          simp only [getDaughters, List.map_set, hd]
          apply List.ext_getElem?
          intro k
          rw [List.getElem?_set]
          split
          · rename_i hk; subst hk
            obtain ⟨hlt, he⟩ := List.getElem?_eq_some_iff.mp hj
            simp [hlt, he]
          · rfl
      exact ⟨by rw [this], fun _ => this⟩
  unfold run
  induction ops generalizing f with
  | nil => exact ⟨List.Sublist.refl _, fun _ => rfl⟩
  | cons op ops ih =>
    obtain ⟨s1, e1⟩ := step f op
    obtain ⟨s2, e2⟩ := ih (applyOp f op)
    refine ⟨s2.trans s1, fun h => ?_⟩
    rw [List.foldl_cons, e2 (fun o ho => h o (by simp [ho])), e1 (h op (by simp))]

/-- **C20** (exact effect of adding). A successful `add_irradiation_times` appends to every
daughter exactly the factors given for it and changes nothing else of the schedules. -/
theorem c20_add_effect (f : IrradiationFile) (td : Dict Str (List Str))
    (hok : (addTimes f td).2 = .ok ()) :
    (addTimes f td).1.schedules =
        f.schedules.map (fun i => { i with times := i.times ++ (td.get? i.daughter).getD [] }) ∧
      (∀ i ∈ f.schedules, (td.get? i.daughter).isSome) ∧
      (∀ k ∈ td.keys, k ∈ getDaughters f) ∧ (addTimes f td).1.header = f.header := by
  unfold addTimes at hok ⊢
  by_cases h1 : lengthsDiffer td = true
  · rw [if_pos h1] at hok; cases hok
  by_cases h2 : (td.keys.any fun k => !(getDaughters f).contains k) = true
  · rw [if_neg h1, if_pos h2] at hok; cases hok
  by_cases h3 : ((getDaughters f).any fun d => !td.has d) = true
  · rw [if_neg h1, if_neg h2, if_pos h3] at hok; cases hok
  rw [if_neg h1, if_neg h2, if_neg h3] at hok ⊢
  simp only at hok ⊢
  simp only [List.any_eq_true, not_exists, not_and, Bool.not_eq_true', Bool.not_eq_false] at h2 h3
  refine ⟨?_, ?_, ?_, ?_⟩
  · split <;> rfl
  · intro i hi
    exact h3 i.daughter (List.mem_map.mpr ⟨i, hi, rfl⟩)
  · intro k hk; simpa using h2 k hk
  · split <;> rfl

/-- **C20** (exact effect of removing). A successful `remove_irradiation_time` deletes from every
daughter exactly the factor at that index, which existed, and decrements `nsc`. -/
theorem c20_remove_effect (f : IrradiationFile) (index : Int)
    (hok : (removeTime f index).2 = .ok ()) :
    (removeTime f index).1.schedules =
        f.schedules.map (fun i => { i with times := i.times.eraseIdx index.toNat }) ∧
      (∀ i ∈ f.schedules, 0 ≤ index ∧ index < i.times.length) ∧
      (removeTime f index).1.nsc = f.nsc - 1 ∧ (removeTime f index).1.header = f.header := by
  unfold removeTime at hok ⊢
  split
  · rename_i h; simp [h] at hok
  · rename_i s h
    obtain ⟨h1, h2⟩ := popAll_ok h
    exact ⟨h1, h2, rfl, rfl⟩

/-- Adding and then removing in the documentation example: hypotheses are met and the operations
really do something. -/
example : Consistent exFile ∧
    (addTimes exFile [("24051".toList, ["1".toList]), ("25054".toList, ["2".toList]),
      ("26055".toList, ["3".toList])]).2 = .ok () ∧
    (removeTime exFile 1).2 = .ok () ∧ (removeTime exFile 1).1.nsc = 1 ∧
    (removeTime exFile 2).2 = .error .indexError := by
  refine ⟨exFile_consistent, ?_, ?_, ?_, ?_⟩ <;> decide

/-! ## C21 -/

/-- **C21** (adding). A refused `add_irradiation_times` leaves the file exactly as it was — for
every file and every argument. -/
theorem c21_add_refused_unchanged (f : IrradiationFile) (td : Dict Str (List Str)) (e : PyErr)
    (h : (addTimes f td).2 = .error e) : (addTimes f td).1 = f := by
  unfold addTimes at h ⊢
  split
  · rfl
  split
  · rfl
  split
  · rfl
  rename_i h1 h2 h3
  rw [if_neg h1, if_neg h2, if_neg h3] at h
  simp only at h ⊢
  split
  · rename_i hm
    have hnil := maxTimes_none hm
    simp only [List.map_eq_nil_iff] at hnil
    simp only [hnil, List.map_nil]
    cases f; simp only at hnil; subst hnil; rfl
  · rename_i m hm; simp [hm] at h

/-- **C21** (removing, partial). A refused `remove_irradiation_time` leaves the file as it was,
*provided* all daughters have the same number of factors. The full statement (without that
condition) is false, see `c21_remove_not_atomic`. -/
theorem c21_remove_refused_unchanged_partial (f : IrradiationFile) (n : Nat)
    (hlen : ∀ i ∈ f.schedules, i.times.length = n) (index : Int) (e : PyErr)
    (h : (removeTime f index).2 = .error e) : (removeTime f index).1 = f := by
  unfold removeTime at h ⊢
  rw [popAll_uniform index _ _ hlen] at h ⊢
  by_cases hr : (index < 0 ∨ index ≥ (n : Int)) ∧ f.schedules ≠ []
  · rw [if_pos hr]
  · rw [if_neg hr] at h; cases h

/-- a file in which the second daughter has one factor less (specification) -/
def unevenFile : IrradiationFile :=
  IrradiationFile.mk' 2
    [⟨"24051".toList, "1".toList, ["5".toList, "6".toList], none⟩,
     ⟨"25054".toList, "2".toList, ["7".toList], none⟩] none

/-- **C21** negation for removing: the exception is raised after the first daughter has already
lost its factor, and `nsc` is not updated. -/
theorem c21_remove_not_atomic :
    (removeTime unevenFile 1).2 = .error .indexError ∧ (removeTime unevenFile 1).1 ≠ unevenFile ∧
      (removeTime unevenFile 1).1.nsc = 2 ∧
      (removeTime unevenFile 1).1.schedules.map (·.times.length) = [1, 1] := by decide

example : (addTimes exFile [("1".toList, [])]).2 = .error .keyError ∧
    (addTimes exFile [("24051".toList, [])]).2 = .error .keyError ∧
    (removeTime exFile (-1)).2 = .error .indexError := by decide

/-! ## C22 -/

/-- **C22.** Selection keeps exactly the schedules of requested daughters (as a subsequence of the
original list, with their data untouched). -/
theorem c22_select_exact (f : IrradiationFile) (ds : List Str) :
    (selectDaughters f ds).1.schedules.Sublist f.schedules ∧
    (∀ i, i ∈ (selectDaughters f ds).1.schedules ↔ i ∈ f.schedules ∧ i.daughter ∈ ds) ∧
    (selectDaughters f ds).1.nsc = f.nsc ∧ (selectDaughters f ds).1.header = f.header := by
  refine ⟨List.filter_sublist, ?_, rfl, rfl⟩
  intro i; simp [selectDaughters]

/-- **C22** (multiplicity). Selection drops no repeated entry: every schedule of a requested
daughter occurs as often as before. -/
theorem c22_select_count (f : IrradiationFile) (ds : List Str) (i : Irradiation)
    (hi : i.daughter ∈ ds) :
    (selectDaughters f ds).1.schedules.count i = f.schedules.count i := by
  simp only [selectDaughters]
  exact List.count_filter (by simpa using hi)

/-- **C22** (idempotence). -/
theorem c22_select_idempotent (f : IrradiationFile) (ds : List Str) :
    (selectDaughters (selectDaughters f ds).1 ds).1 = (selectDaughters f ds).1 := by
  simp [selectDaughters]

/-- **C22** (answer). For a file without repeated daughters and a request without repetition the
answer is `True` exactly when every requested daughter was present. -/
theorem c22_select_answer (f : IrradiationFile) (ds : List Str)
    (hf : (getDaughters f).Nodup) (hd : ds.Nodup) :
    (selectDaughters f ds).2 = true ↔ ∀ d ∈ ds, d ∈ getDaughters f := by
  have hlen : (f.schedules.filter (fun i => ds.contains i.daughter)).length
      = ((getDaughters f).filter (fun d => ds.contains d)).length := by
    simp only [getDaughters, List.filter_map, List.length_map]; rfl
  simp only [selectDaughters, beq_iff_eq, hlen]
  have hn : ((getDaughters f).filter (fun d => ds.contains d)).Nodup := hf.filter _
  have hsub : ((getDaughters f).filter (fun d => ds.contains d)) ⊆ ds := by
    intro d h; simp only [List.mem_filter] at h; simpa using h.2
  constructor
  · intro he d hdm
    have hperm := (hn.subperm hsub).perm_of_length_le (by omega)
    have := hperm.mem_iff.mpr hdm
    exact (List.mem_filter.mp this).1
  · intro h
    have hperm : ((getDaughters f).filter (fun d => ds.contains d)).Perm ds := by
      rw [List.perm_ext_iff_of_nodup hn hd]
      intro a
      simp only [List.mem_filter]
      constructor
      · intro ha; simpa using ha.2
      · intro ha; exact ⟨h a ha, by simpa using ha⟩
    exact hperm.length_eq

/-- `get_irrad` returns the first schedule of the daughter, and `None` only if there is none. -/
theorem c22_get_irrad (f : IrradiationFile) (d : Str) :
    (∀ i, getIrrad f d = some i → i ∈ f.schedules ∧ i.daughter = d) ∧
    (getIrrad f d = none ↔ d ∉ getDaughters f) := by
  constructor
  · intro i hi
    unfold getIrrad at hi
    exact ⟨List.mem_of_find?_eq_some hi, by have := List.find?_some hi; simp at this; exact this.symm⟩
  · simp only [getIrrad, List.find?_eq_none, beq_iff_eq, getDaughters, List.mem_map, not_exists,
      not_and]
    constructor
    · intro h i hi e; exact h i hi e.symm
    · intro h i hi e; exact h i hi e.symm

example : (getDaughters exFile).Nodup ∧
    (selectDaughters exFile ["26055".toList, "24051".toList]).2 = true ∧
    getDaughters (selectDaughters exFile ["26055".toList, "24051".toList]).1
      = ["24051".toList, "26055".toList] ∧
    (selectDaughters exFile ["26055".toList, "1".toList]).2 = false := by decide

/-! ## C23 -/

/-- **C23.** Writing and reading back a consistent irradiation file whose fields fit their columns
returns the same number of schedules, header, daughters, decay constants, time factors and
comments (the object read back has the default formatting; a missing header is read as the empty
one). -/
theorem c23_write_read (f : IrradiationFile) (hc : Consistent f) (hn : 0 ≤ f.nsc)
    (hh : HeaderOk (f.header.getD [])) (hf : ∀ i ∈ f.schedules, Fits f.formatting i) :
    ∃ text, writeFile f = .ok text ∧
      readFile text = .ok (IrradiationFile.mk' f.nsc f.schedules (some (f.header.getD []))) := by
  obtain ⟨t, ht1, ht2⟩ := formatTitles f.formatting f.nsc
  have hcols : f.cols = irrCols f.formatting f.nsc := by rw [hc.cols]; simp [irrCols]
  obtain ⟨hl, hl1, hl2⟩ := hh
  obtain ⟨rows, r1, r2, r3⟩ := readLoop_rows f.formatting f.nsc f.schedules (f.header.getD []) hf
    hc.times []
  obtain ⟨n, hn'⟩ := Int.eq_ofNat_of_zero_le hn
  refine ⟨_, by rw [writeFile, hcols, ht1, r1], ?_⟩
  -- the lines of the file
  let nscLine : Str := "nsc ".toList ++ (natStr n ++ ['\n'])
  let titleLine : Str := "C ".toList ++ t ++ ['\n']
  have htext : f.header.getD [] ++ "nsc ".toList ++ intStr f.nsc ++ ['\n'] ++
        "C ".toList ++ t ++ ['\n'] ++ rows.flatten =
      (hl ++ nscLine :: titleLine :: rows).flatten ++ [] := by
    rw [hl1, hn']; simp [nscLine, titleLine, intStr]
  have hlines : fileLines (f.header.getD [] ++ "nsc ".toList ++ intStr f.nsc ++ ['\n'] ++
        "C ".toList ++ t ++ ['\n'] ++ rows.flatten) = hl ++ nscLine :: titleLine :: rows := by
    rw [htext, fileLines_flatten]
    · simp [fileLines]
    · intro l hm
      simp only [List.mem_append, List.mem_cons] at hm
      rcases hm with hm | rfl | rfl | hm
      · obtain ⟨⟨b, hb, hb2⟩, _⟩ := hl2 l hm
        exact ⟨b, hb, hb2⟩
      · refine ⟨"nsc ".toList ++ natStr n, by simp [nscLine], ?_⟩
        intro c hcm
        rw [List.mem_append] at hcm
        rcases hcm with hcm | hcm
        · revert c; decide
        · exact isWord_no_nl (natStr_isWord n) c hcm
      · refine ⟨"C ".toList ++ t, by simp [titleLine], ?_⟩
        intro c hcm
        rw [List.mem_append] at hcm
        rcases hcm with hcm | hcm
        · revert c; decide
        · exact ht2 c hcm
      · exact r2 l hm
  unfold readFile
  rw [hlines, readLoop_append, readLoop_header [] hl (fun l hm => (hl2 l hm).2)]
  have hnsc : searchDigits nscLine = some (natStr n) :=
    searchDigits_natStr "nsc ".toList ['\n'] n (by decide) (by decide)
  have hnscl : isNscLine nscLine = true := rfl
  have htl1 : isNscLine titleLine = false := by simp [titleLine, isNscLine]; cases t <;> simp
  have htl2 : isCommentLine titleLine = true := by simp [titleLine, isCommentLine, isSpace_space]
  simp only [readLoop, readStep, hnscl, if_true, hnsc, htl1, htl2, Bool.false_eq_true, if_false,
    Bool.or_true, digitsVal_natStr, List.nil_append]
  rw [← hl1, ← hn', r3]
  simp

/-- The documentation example meets the hypotheses of C23. -/
example : Consistent exFile ∧ 0 ≤ exFile.nsc ∧ HeaderOk (exFile.header.getD []) ∧
    ∀ i ∈ exFile.schedules, Fits exFile.formatting i := by
  refine ⟨exFile_consistent, by decide, ⟨["C header\n".toList], by decide, ?_⟩, ?_⟩
  · intro l hl
    simp only [List.mem_singleton] at hl; subst hl
    exact ⟨⟨"C header".toList, by decide, by decide⟩, by decide⟩
  · intro i hi
    simp only [exFile, IrradiationFile.mk', List.mem_cons, List.not_mem_nil, or_false] at hi
    rcases hi with rfl | rfl | rfl
    · exact ⟨by decide, ⟨'2', by decide⟩, by decide, by decide, ⟨["Cr51".toList], by decide⟩⟩
    · exact ⟨by decide, ⟨'2', by decide⟩, by decide, by decide, ⟨["Mn".toList, "54".toList], by decide⟩⟩
    · exact ⟨by decide, ⟨'2', by decide⟩, by decide, by decide, ⟨[], by decide⟩⟩

/-- a schedule whose comment fills its nine columns (specification) -/
def wideFile : IrradiationFile :=
  IrradiationFile.mk' 1 [⟨"24051".toList, "1.0".toList, ["5.9".toList], some "Chromium51".toList⟩] none

/-- C23 without the width condition is false: a comment of nine or more characters is glued to
the last time factor in the written file, and reading back returns a different factor. -/
theorem c23_wide_comment_corrupts :
    (match writeFile wideFile with
      | .ok text => (match readFile text with
        | .ok g => g.schedules.map (·.times)
        | .error _ => [])
      | .error _ => []) = [["5.9Chromium51".toList]] := by
  decide

/-- Writing a schedule that has no comment (`comment=None`, the constructor default) is refused. -/
theorem c23_none_comment_raises (w : Widths) (d l : Str) (n : Nat) (ts : List Str)
    (hts : ts.length = n) (rest : List Irradiation) (h : Option Str) :
    writeFile (IrradiationFile.mk' n (⟨d, l, ts, none⟩ :: rest) h w) = .error .typeError := by
  obtain ⟨t, ht, _⟩ := formatTitles w n
  have : ∀ (ws : List Nat) (as : List Str) (w : Nat) (b : List (Option Str)), ws.length = as.length →
      formatCols (ws ++ [w]) (as.map some ++ none :: b) = .error .typeError := by
    intro ws
    induction ws with
    | nil =>
      intro as w b h
      have : as = [] := by simpa using h.symm
      subst this; rfl
    | cons x ws ih =>
      intro as w b h
      cases as with
      | nil => simp at h
      | cons a as => simp only [List.map_cons, List.cons_append, formatCols, ih as w b (by simpa using h)]
  have h2 : formatCols (irrCols w (n : Int)) (formatArgs ⟨d, l, ts, none⟩) = .error .typeError := by
    have := this ([w.w1, w.w2] ++ List.replicate n w.w3) ([d, l] ++ ts) w.w4 [] (by simp [hts])
    simpa [irrCols, formatArgs] using this
  simp [writeFile, IrradiationFile.mk', ht, writeRows, h2]

/-! ## C24 -/

/-- **C24.** Writing a reaction file and reading it back returns the same reactions in the same
order (a missing comment is read as the empty one). -/
theorem c24_write_read (rs : List Reaction) (h : ∀ r ∈ rs, ReacFits r) :
    readReactions (writeReactions rs) =
      .ok (rs.map (fun r => { r with comment := some (r.comment.getD []) })) := by
  have hl : fileLines (writeReactions rs) = rs.map Reaction.row := by
    have := fileLines_flatten (rs.map Reaction.row) (by
      intro l hl
      rw [List.mem_map] at hl
      obtain ⟨r, hr, rfl⟩ := hl
      exact (reaction_row_data (h r hr)).1) []
    simpa [writeReactions, fileLines] using this
  unfold readReactions
  rw [hl]
  clear hl
  induction rs with
  | nil => rfl
  | cons r rs ih =>
    obtain ⟨_, h1, h2⟩ := reaction_row_data (h r (by simp))
    simp only [List.map_cons, readReactionLines, h1, h2, Bool.false_eq_true, if_false, Bool.or_self,
      fromText_row (h r (by simp)), ih (fun r hr => h r (by simp [hr]))]

/-- two reactions of the test file `reac_fe` (example) -/
def exReactions : List Reaction :=
  [⟨"26054.99c".toList, 102, "26055".toList, some "Fe55 from Fe54".toList⟩,
   ⟨"26056.99c".toList, -5, "25054900".toList, none⟩]

theorem exReactions_fit : ∀ r ∈ exReactions, ReacFits r := by
  intro r hr
  simp only [exReactions, List.mem_cons, List.not_mem_nil, or_false] at hr
  rcases hr with rfl | rfl
  · exact ⟨by decide, ⟨'2', by decide⟩, by decide, by decide,
      ⟨["Fe55".toList, "from".toList, "Fe54".toList], by decide⟩⟩
  · exact ⟨by decide, ⟨'2', by decide⟩, by decide, by decide, ⟨[], by decide⟩⟩

/-- C24 without the width condition is false: a comment of 40 characters is glued to the daughter. -/
theorem c24_wide_comment_corrupts :
    ∃ r : Reaction, r.parent = "26054.99c".toList ∧ r.daughter = "26055".toList ∧
      (r.comment.getD []).length = 40 ∧
      ∃ d, readReactions (writeReactions [r]) = .ok [⟨r.parent, r.mt, d, some []⟩] ∧ d ≠ r.daughter := by
  refine ⟨⟨"26054.99c".toList, 102, "26055".toList, some (List.replicate 40 'x')⟩, rfl, rfl, by decide,
    "26055".toList ++ List.replicate 40 'x', by decide, by decide⟩

/-! ## C25 -/

/-- **C25.** `get_parents` is strictly increasing (hence duplicate free) in Python's string order
and contains exactly the isotopes (library stripped) of the reactions. -/
theorem c25_parents (rs : List Reaction) :
    (getParents rs).Pairwise (fun a b => strLe a b = true ∧ a ≠ b) ∧
    ∀ p, p ∈ getParents rs ↔ ∃ r ∈ rs, p = r.parent.takeWhile (· != '.') := by
  constructor
  · exact sortStrs_strict _ (nodup_dedupAppend _ _ (by simp))
  · intro p
    simp only [getParents, mem_sortStrs, mem_dedupAppend, List.not_mem_nil, false_or, List.mem_map,
      beforeDot]
    exact ⟨fun ⟨r, h, e⟩ => ⟨r, h, e.symm⟩, fun ⟨r, h, e⟩ => ⟨r, h, e.symm⟩⟩

/-- the order used above is the linear lexicographic order on code points -/
theorem c25_order_linear :
    (∀ a b, strLe a b = true ∨ strLe b a = true) ∧
    (∀ a b c, strLe a b = true → strLe b c = true → strLe a c = true) ∧
    (∀ a b, strLe a b = true → strLe b a = true → a = b) :=
  ⟨strLe_total, fun _ _ _ => strLe_trans, fun _ _ => strLe_antisymm⟩

example : getParents (exReactions.reverse ++ exReactions) = ["26054".toList, "26056".toList] := by
  decide

/-! ## C26 -/

/-- **C26** (frame). `change_lib` keeps the number and order of the reactions, their isotopes, MT
numbers, daughters and comments; only the library tag may change. -/
theorem c26_frame (rs rs' : List Reaction) (newlib : Str) (libs : Option (Str → List Str))
    (h : changeLibs rs newlib libs = .ok rs') :
    rs'.map (fun r => (beforeDot r.parent, r.mt, r.daughter, r.comment)) =
      rs.map (fun r => (beforeDot r.parent, r.mt, r.daughter, r.comment)) := by
  unfold changeLibs at h
  split at h
  · cases h
  · cases h
    simp only [List.map_map]
    apply List.map_congr_left
    intro r _
    simp only [Function.comp]
    split
    · simp [Reaction.changeLib, beforeDot_append]
    · split
      · simp [Reaction.changeLib, beforeDot_append]
      · rfl

/-- **C26** (effect). For a plain library name: without a library manager every reaction gets the
new library; with one, exactly those whose isotope is available in it, the others are untouched. -/
theorem c26_effect (rs : List Reaction) (newlib : Str) (libs : Option (Str → List Str))
    (hne : newlib ≠ []) (hplain : newlib.head? ≠ some '{') :
    ∃ rs', changeLibs rs newlib libs = .ok rs' ∧ rs'.length = rs.length ∧
      ∀ (i : Nat) (r : Reaction), rs[i]? = some r → ∃ r' : Reaction, rs'[i]? = some r' ∧
        ((libs = none ∨ ∃ f, libs = some f ∧ newlib ∈ f (beforeDot r.parent)) →
          r'.parent = beforeDot r.parent ++ '.' :: newlib) ∧
        ((∃ f, libs = some f ∧ newlib ∉ f (beforeDot r.parent)) → r' = r) := by
  have hch : chooseLib newlib = .ok newlib := by
    cases newlib with
    | nil => exact absurd rfl hne
    | cons c cs =>
      have hc : c ≠ '{' := by simpa using hplain
      unfold chooseLib
      split
      · rename_i h; cases h
      · rename_i h; simp only [List.cons.injEq] at h; exact absurd h.1 hc
      · rfl
  refine ⟨_, by rw [changeLibs, hch], by simp, ?_⟩
  intro i r hi
  refine ⟨_, by rw [List.getElem?_map, hi]; rfl, ?_, ?_⟩
  · rintro (rfl | ⟨f, rfl, hf⟩)
    · rfl
    · simp [hf, Reaction.changeLib]
  · rintro ⟨f, rfl, hf⟩
    simp [hf]

/-- **C26** (idempotence). Changing twice to the same library is changing once. -/
theorem c26_idempotent (rs rs' : List Reaction) (newlib : Str) (libs : Option (Str → List Str))
    (h : changeLibs rs newlib libs = .ok rs') : changeLibs rs' newlib libs = .ok rs' := by
  unfold changeLibs at h ⊢
  split at h
  · cases h
  · rename_i lib hl
    cases h
    simp only [List.map_map]
    congr 1
    apply List.map_congr_left
    intro r _
    simp only [Function.comp]
    split
    · simp [Reaction.changeLib, beforeDot_append]
    · rename_i f
      by_cases hc : (f (beforeDot r.parent)).contains newlib = true
      · simp only [hc, if_true, Reaction.changeLib, beforeDot_append]
      · simp only [hc, if_false, Bool.false_eq_true]

/-- The dictionary form together with a library manager never translates anything, unless a
library literally carries the dictionary text as its name (the availability test uses the text of
the dictionary, d1suned.py:650). -/
theorem c26_dict_with_manager_is_noop (rs : List Reaction) (newlib : Str) (f : Str → List Str)
    (rs' : List Reaction) (hnames : ∀ z, newlib ∉ f z)
    (h : changeLibs rs newlib (some f) = .ok rs') : rs' = rs := by
  unfold changeLibs at h
  split at h
  · cases h
  · cases h
    simp [hnames]

example : changeLibs exReactions "31c".toList (some fun z => if z = "26054".toList then ["31c".toList] else [])
    = .ok [⟨"26054.31c".toList, 102, "26055".toList, some "Fe55 from Fe54".toList⟩,
           ⟨"26056.99c".toList, -5, "25054900".toList, none⟩] ∧
    chooseLib "{\"99c\": \"98c\", \"31c\": \"00c\"}".toList = .ok "98c".toList := by decide

end F4Enix.D1S
