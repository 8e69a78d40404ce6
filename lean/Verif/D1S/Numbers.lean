import Verif.Base.Decimal
import Verif.D1S.Tight
/-!
# Irradiation files after any history, written and read, with the numbers as Python prints them (C20, C23)

The factor set by `modify_time_val` is `f"{new_value:.3e}"` (d1suned.py:458).
-/
namespace F4Enix.D1S
open F4Enix

/-- `f"{new_value:.3e}"` (d1suned.py:458) -/
def timeText (q : ℚ) : Str := fmtSci 'e' 3 q

/-- operations whose new texts fit columns of the widths `w`: factors added are words narrower than their column, factors set are numbers in the range of
doubles (specification) -/
def OpFits (w : Widths) : Op → Prop
  | .select _ => True
  | .remove _ => True
  | .add td => ∀ d ts, (d, ts) ∈ td → ∀ t ∈ ts, IsWord t ∧ t.length < w.w3
  | .modify _ _ v => ∃ q, InRange q ∧ v = timeText q

theorem timeText_fits {q : ℚ} (h : InRange q) : IsWord (timeText q) ∧ (timeText q).length < 12 :=
  ⟨fmtSci_word (Or.inl rfl) 3 q, lt_of_le_of_lt (fmtSci_length h) (by norm_num)⟩

theorem popAll_fits {w : Widths} (index : Int) : ∀ {l : List Irradiation}, (∀ i ∈ l, Fits w i) → ∀ i ∈ (popAll index l).1, Fits w i := by
  intro l
  induction l with
  | nil => intro h i hi; exact h i hi
  | cons j js ih =>
    intro h i hi
    rw [popAll] at hi
    split at hi
    · exact h i hi
    · simp only [List.mem_cons] at hi
      rcases hi with rfl | hi
      · obtain ⟨a, b, c, d, e⟩ := h j (by simp)
        exact ⟨a, b, c, fun t ht => d t (List.mem_of_mem_eraseIdx ht), e⟩
      · exact ih (fun x hx => h x (List.mem_cons_of_mem _ hx)) i hi

theorem applyOp_fits {f : IrradiationFile} (hw : 12 ≤ f.formatting.w3) (h : ∀ i ∈ f.schedules, Fits f.formatting i) {op : Op}
    (ho : OpFits f.formatting op) : (applyOp f op).formatting = f.formatting ∧ ∀ i ∈ (applyOp f op).schedules, Fits f.formatting i := by
  cases op with
  | select ds =>
    refine ⟨rfl, fun i hi => ?_⟩
    simp only [applyOp, selectDaughters, List.mem_filter] at hi
    exact h i hi.1
  | add td =>
    have hmap : ∀ i ∈ f.schedules.map (fun i => { i with times := i.times ++ (td.get? i.daughter).getD [] }), Fits f.formatting i := by
      intro i hi
      obtain ⟨j, hj, rfl⟩ := List.mem_map.mp hi
      obtain ⟨a, b, c, d, e⟩ := h j hj
      refine ⟨a, b, c, fun t ht => ?_, e⟩
      simp only [List.mem_append] at ht
      rcases ht with ht | ht
      · exact d t ht
      · cases hg : td.get? j.daughter with
        | none => rw [hg] at ht; cases ht
        | some ts =>
          rw [hg] at ht
          exact ho j.daughter ts (Dict.mem_of_get? hg) t ht
    simp only [applyOp, addTimes]
    split
    · exact ⟨rfl, h⟩
    · split
      · exact ⟨rfl, h⟩
      · split
        · exact ⟨rfl, h⟩
        · split
          · exact ⟨rfl, hmap⟩
          · exact ⟨rfl, hmap⟩
  | remove index =>
    have hp := popAll_fits (w := f.formatting) index h
    simp only [applyOp, removeTime]
    split
    · rename_i s e hs
      rw [hs] at hp
      exact ⟨rfl, hp⟩
    · rename_i s hs
      rw [hs] at hp
      exact ⟨rfl, hp⟩
  | modify pos index v =>
    obtain ⟨q, hq, rfl⟩ := ho
    simp only [applyOp, modifyAt]
    split
    · exact ⟨rfl, h⟩
    · rename_i j hj
      refine ⟨rfl, fun i hi => ?_⟩
      have hj' := List.mem_of_getElem? hj
      rcases List.mem_or_eq_of_mem_set hi with hi | rfl
      · exact h i hi
      · unfold Irradiation.modifyTimeVal
        split
        · exact h j hj'
        · obtain ⟨a, b, c, d, e⟩ := h j hj'
          refine ⟨a, b, c, fun t ht => ?_, e⟩
          rcases List.mem_or_eq_of_mem_set ht with ht | rfl
          · exact d t ht
          · obtain ⟨x, y⟩ := timeText_fits hq
            exact ⟨x, by omega⟩

theorem run_fits {f : IrradiationFile} (hw : 12 ≤ f.formatting.w3) (h : ∀ i ∈ f.schedules, Fits f.formatting i) {ops : List Op}
    (ho : ∀ op ∈ ops, OpFits f.formatting op) :
    (run f ops).formatting = f.formatting ∧ ∀ i ∈ (run f ops).schedules, Fits f.formatting i := by
  induction ops generalizing f with
  | nil => exact ⟨rfl, h⟩
  | cons op ops ih =>
    obtain ⟨a, b⟩ := applyOp_fits hw h (ho op (by simp))
    have := ih (f := applyOp f op) (by rw [a]; exact hw) (by rw [a]; exact b) (by rw [a]; exact fun x hx => ho x (by simp [hx]))
    rw [a] at this
    exact this

/-- only the header and the formatting are never touched -/
theorem run_header (f : IrradiationFile) (ops : List Op) : (run f ops).header = f.header := by
  induction ops generalizing f with
  | nil => rfl
  | cons op ops ih =>
    have : (applyOp f op).header = f.header := by
      cases op with
      | select ds => rfl
      | add td => simp only [applyOp, addTimes]; split_ifs <;> first | rfl | (split <;> rfl)
      | remove i => simp only [applyOp, removeTime]; split <;> rfl
      | modify p i v => simp only [applyOp, modifyAt]; split <;> rfl
    exact (ih (applyOp f op)).trans this

/-- **C20, C23.** A file whose texts fit their columns, after any history of selecting daughters, adding and removing factors and setting factors to numbers,
with refused operations in between, can be written, and reading it gives exactly the schedules, header and number of factors it has then. -/
theorem history_written_and_read {f : IrradiationFile} (hc : Consistent f) (hh : HeaderOk (f.header.getD [])) (hw : 12 ≤ f.formatting.w3)
    (hf : ∀ i ∈ f.schedules, Fits f.formatting i) {ops : List Op} (ho : ∀ op ∈ ops, OpFits f.formatting op) (hne : (run f ops).schedules ≠ []) :
    ∃ text, writeFile (run f ops) = .ok text ∧
      readFile text = .ok (IrradiationFile.mk' (run f ops).nsc (run f ops).schedules (some (f.header.getD []))) := by
  have hcons := c20_consistent_after_any_history f hc ops
  obtain ⟨a, b⟩ := run_fits hw hf ho
  have hn : 0 ≤ (run f ops).nsc := by
    obtain ⟨i, hi⟩ := List.exists_mem_of_ne_nil _ hne
    rw [← hcons.times i hi]; positivity
  have := c23_write_read (run f ops) hcons hn (by rw [run_header]; exact hh) (by rw [a]; exact b)
  rwa [run_header] at this

/-- **C20**, the factor as a number: after `modify_time_val(index, x)` the factor reads as `x` within half a unit of its fourth digit, the other factors
are as before. -/
theorem modified_number (i : Irradiation) {index : ℕ} (hi : index < i.times.length) (x : ℚ) :
    ∃ i' y, i.modifyTimeVal index (timeText x) = (i', .ok ()) ∧ (i'.times[index]?).bind parseFloat = some y ∧ |y - x| ≤ |x| / 2000 ∧
      (∀ k, k ≠ index → i'.times[k]? = i.times[k]?) ∧ i'.daughter = i.daughter ∧ i'.lambd = i.lambd ∧ i'.comment = i.comment := by
  obtain ⟨h1, -, h3⟩ := c20_modify_effect i index (timeText x)
  have hok := h1.mpr ⟨by omega, by omega⟩
  obtain ⟨e1, e2, e3, e4⟩ := h3 hok
  refine ⟨(i.modifyTimeVal index (timeText x)).1, roundSig 3 x, Prod.ext rfl hok, ?_, ?_, fun k hk => ?_, e2, e3, e4⟩
  · rw [e1 index, if_pos rfl]
    exact fmtSci_read (Or.inl rfl) 3 x
  · have := roundSig_near 3 x
    norm_num at this
    exact this
  · rw [e1 k, if_neg (by exact_mod_cast hk)]

/-- **C22**, equality of irradiations reads the texts as numbers: setting a factor to what it already reads as, if it has at most four digits, gives an
irradiation that is equal to the old one. -/
theorem modified_equal (i : Irradiation) {index : ℕ} {t : Str} {x : ℚ} (ht : i.times[index]? = some t) (hx : parseFloat t = some x) {m : ℕ} {k : ℤ}
    (hm : m < 10 ^ 4) (hq : |x| = (m : ℚ) * (10 : ℚ) ^ k) : (i.modifyTimeVal index (timeText x)).1.pyEq parseFloat i = true := by
  have hi : index < i.times.length := by
    by_contra h
    rw [List.getElem?_eq_none (by omega)] at ht
    cases ht
  obtain ⟨h1, -, h3⟩ := c20_modify_effect i index (timeText x)
  obtain ⟨e1, e2, e3, e4⟩ := h3 (h1.mpr ⟨by omega, by omega⟩)
  rw [c22_eq_iff]
  have hr : parseFloat (timeText x) = parseFloat t := by
    rw [hx]
    have := fmtSci_read (c := 'e') (Or.inl rfl) 3 x
    rw [roundSig_exact 3 hm hq] at this
    exact this
  refine ⟨e2, by rw [e3], ?_⟩
  apply List.ext_getElem?
  intro k
  rw [List.getElem?_map, List.getElem?_map, e1 k]
  split
  · rename_i hk
    have : k = index := by exact_mod_cast hk
    subst this
    rw [ht, Option.map_some, Option.map_some, hr]
  · rfl

/-- a history on the example of the documentation -/
example : (∀ op ∈ [Op.select ["26055".toList, "24051".toList], .modify 0 0 (timeText (123456 / 1000)), .remove 7], OpFits exFile.formatting op) ∧
    ((run exFile [.select ["26055".toList, "24051".toList], .modify 0 0 (timeText (123456 / 1000)), .remove 7]).schedules.map (·.times)).head? =
      some ("1.235e+02".toList :: ((exFile.schedules.map (·.times)).head?.getD []).tail) := by
  refine ⟨?_, by decide +kernel⟩
  intro op hop
  simp only [List.mem_cons, List.not_mem_nil, or_false] at hop
  rcases hop with rfl | rfl | rfl
  · trivial
  · refine ⟨_, Or.inr ⟨?_, ?_⟩, rfl⟩
    · refine le_trans (zpow_le_one_of_nonpos₀ (by norm_num) (by norm_num)) ?_
      rw [abs_of_pos (by norm_num)]; norm_num
    · refine lt_of_lt_of_le (b := (10 : ℚ) ^ (3 : ℤ)) ?_ (zpow_le_zpow_right₀ (by norm_num) (by norm_num))
      rw [abs_of_pos (by norm_num)]; norm_num
  · trivial

end F4Enix.D1S
