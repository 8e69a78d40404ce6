import Verif.Out.Pathways
/-!
# The library of decay pathways (C111-C113)
-/
namespace F4Enix.Path
open F4Enix F4Enix.Mat

/-! ### specification -/

/-- is the entry asked for? (`none`: everything available) (specification) -/
def Asked (avail : List Str) (req : Option (List Str)) (l : Str) : Prop :=
  match req with
  | none => l ∈ avail
  | some ls => l ∈ ls

/-- only available entries are asked for (specification) -/
def Valid (avail : List Str) (req : Option (List Str)) : Prop := ∀ l, Asked avail req l → l ∈ avail

/-- the row belongs to the request (specification) -/
structure Selected (lib : List Row) (avail : List Str) (spectrum : Option (List Str)) (dose : ℤ)
    (materials : Option (List Str)) (r : Row) : Prop where
  mem : r ∈ lib
  dose : (dose = 95 ∧ r.dose = "Dose 95%".toList) ∨ (dose = 99 ∧ r.dose = "Dose 99%".toList)
  spectrum : Asked spectra spectrum r.spectrum
  material : Asked avail materials r.material

/-- the times asked for, in order (specification) -/
def timesAsked : Option (List Str) → List Str
  | none => times
  | some ts => ts

/-! ### lemmas -/

theorem request_ok {avail : List Str} {o : Option (List Str)} {ls : List Str} (h : request avail o = .ok ls) :
    Valid avail o ∧ ∀ l, l ∈ ls ↔ Asked avail o l := by
  cases o with
  | none => simp only [request, Except.ok.injEq] at h; subst h; exact ⟨fun l h => h, fun l => Iff.rfl⟩
  | some xs =>
    simp only [request] at h
    split_ifs at h with hv
    simp only [Except.ok.injEq] at h
    subst h
    refine ⟨?_, fun l => Iff.rfl⟩
    intro l hl
    have := List.all_eq_true.1 hv l hl
    simpa using this

theorem request_cases (avail : List Str) (o : Option (List Str)) :
    (Valid avail o ∧ ∃ ls, request avail o = .ok ls) ∨ (¬ Valid avail o ∧ request avail o = .error .valueError) := by
  cases o with
  | none => left; exact ⟨fun l h => h, avail, rfl⟩
  | some xs =>
    by_cases hv : xs.all (fun l => avail.contains l) = true
    · left
      refine ⟨?_, xs, by simp only [request]; rw [if_pos hv]⟩
      intro l hl
      have := List.all_eq_true.1 hv l hl
      simpa using this
    · right
      refine ⟨?_, by simp only [request]; rw [if_neg hv]⟩
      intro h
      apply hv
      rw [List.all_eq_true]
      intro l hl
      simpa using h l hl

theorem request_times {o : Option (List Str)} {ts : List Str} (h : request times o = .ok ts) : ts = timesAsked o := by
  cases o with
  | none => simp only [request, Except.ok.injEq] at h; exact h.symm
  | some xs =>
    simp only [request] at h
    split_ifs at h
    simp only [Except.ok.injEq] at h
    exact h.symm

theorem doseLabel_cases (d : ℤ) : (d = 95 ∧ doseLabel d = .ok "Dose 95%".toList) ∨
    (d = 99 ∧ doseLabel d = .ok "Dose 99%".toList) ∨ (d ≠ 95 ∧ d ≠ 99 ∧ doseLabel d = .error .valueError) := by
  unfold doseLabel
  by_cases h1 : d = 95
  · left; exact ⟨h1, by rw [if_pos h1]⟩
  · by_cases h2 : d = 99
    · right; left; exact ⟨h2, by rw [if_neg h1, if_pos h2]⟩
    · right; right; exact ⟨h1, h2, by rw [if_neg h1, if_neg h2]⟩

/-- the rows that match the labels (proof) -/
def matching (lib : List Row) (dl : Str) (sp ms : List Str) : List Row :=
  lib.filter (fun r => decide (r.dose = dl ∧ r.spectrum ∈ sp ∧ r.material ∈ ms))

theorem locList_eq (lib cur : List Row) (f : Row → Str) (ls : List Str) :
    locList lib cur f ls = if (∀ l ∈ ls, l ∈ lib.map f) ∧ cur.filter (fun r => decide (f r ∈ ls)) ≠ [] then
      .ok (cur.filter (fun r => decide (f r ∈ ls))) else .error .keyError := by
  have e : (fun r : Row => ls.contains (f r)) = (fun r => decide (f r ∈ ls)) := by
    funext r; exact List.contains_eq_mem ..
  unfold locList
  rw [e]
  by_cases h1 : ls.all (fun l => (lib.map f).contains l) = true
  · have h1' : ∀ l ∈ ls, l ∈ lib.map f := by
      intro l hl
      have := List.all_eq_true.1 h1 l hl
      simpa using this
    rw [if_pos h1]
    by_cases h2 : cur.filter (fun r => decide (f r ∈ ls)) = []
    · rw [if_pos h2, if_neg (fun h => h.2 h2)]
    · rw [if_neg h2, if_pos ⟨h1', h2⟩]
  · rw [if_neg h1, if_neg]
    rintro ⟨h, _⟩
    apply h1
    rw [List.all_eq_true]
    intro l hl
    simpa using h l hl

theorem loc_eq (lib : List Row) (dl : Str) (sp ms : List Str) (h1 : sp ≠ []) (h2 : ms ≠ []) :
    loc lib dl sp ms = if (∀ s ∈ sp, s ∈ lib.map Row.spectrum) ∧ (∀ m ∈ ms, m ∈ lib.map Row.material) ∧
      matching lib dl sp ms ≠ [] then .ok (matching lib dl sp ms) else .error .keyError := by
  have hff : ∀ (l : List Row), ((l.filter (fun r => decide (r.dose = dl))).filter (fun r => decide (r.spectrum ∈ sp))).filter
      (fun r => decide (r.material ∈ ms)) = matching l dl sp ms := by
    intro l
    unfold matching
    rw [List.filter_filter, List.filter_filter]
    apply List.filter_congr
    intro r _
    by_cases a : r.dose = dl <;> by_cases b : r.spectrum ∈ sp <;> by_cases c : r.material ∈ ms <;> simp [a, b, c]
  unfold loc
  by_cases hd : (lib.map Row.dose).contains dl = true
  · rw [if_pos hd, if_neg h1, locList_eq]
    by_cases hs : (∀ l ∈ sp, l ∈ lib.map Row.spectrum) ∧
        (lib.filter (fun r => decide (r.dose = dl))).filter (fun r => decide (r.spectrum ∈ sp)) ≠ []
    · rw [if_pos hs]
      simp only
      rw [if_neg h2, locList_eq, hff]
      by_cases hm : (∀ l ∈ ms, l ∈ lib.map Row.material) ∧ matching lib dl sp ms ≠ []
      · rw [if_pos hm, if_pos ⟨hs.1, hm.1, hm.2⟩]
      · rw [if_neg hm, if_neg (fun h => hm ⟨h.2.1, h.2.2⟩)]
    · rw [if_neg hs, if_neg]
      rintro ⟨a, _, c⟩
      apply hs
      refine ⟨a, ?_⟩
      intro h0
      apply c
      rw [← hff, h0]; rfl
  · rw [if_neg hd, if_neg]
    rintro ⟨_, _, c⟩
    apply c
    unfold matching
    rw [List.filter_eq_nil_iff]
    intro r hr
    simp only [decide_eq_true_eq, not_and]
    intro hrd
    exfalso
    apply hd
    simp only [List.contains_eq_mem, decide_eq_true_eq, List.mem_map]
    exact ⟨r, hr, hrd⟩

theorem loc_mem {lib : List Row} {dl : Str} {sp ms : List Str} {rows : List Row} (h : loc lib dl sp ms = .ok rows) :
    rows = matching lib dl sp ms := by
  by_cases h1 : sp = []
  · subst h1
    unfold loc at h
    simp only [if_true] at h
    split_ifs at h
    simp only [Except.ok.injEq] at h
    rw [← h]; simp [matching]
  · by_cases h2 : ms = []
    · subst h2
      unfold loc at h
      simp only [if_true] at h
      split_ifs at h
      split at h
      · cases h
      · simp only [Except.ok.injEq] at h
        rw [← h]; simp [matching]
    · rw [loc_eq lib dl sp ms h1 h2] at h
      split_ifs at h
      simpa using h.symm

/-! ### C111 -/

/-- **C111.** What is returned is exactly the rows of the library of that dose, those spectra and those materials
that have a value at one of the times asked for, with their values at the times asked for, in order; each row once. -/
theorem filter_rows {lib : List Row} {avail : List Str} {spectrum : Option (List Str)} {dose : ℤ}
    {materials cooling : Option (List Str)} {fs : List (Row × List (Option ℚ))}
    (h : filterPathways lib avail spectrum dose materials cooling = .ok fs) :
    (∀ p, p ∈ fs ↔ Selected lib avail spectrum dose materials p.1 ∧ p.2 = (timesAsked cooling).map p.1.at ∧
      ∃ t ∈ timesAsked cooling, (p.1.at t).isSome = true) ∧ (fs.map Prod.fst).Sublist lib := by
  unfold filterPathways at h
  split at h
  · cases h
  · rename_i sp hsp
    split at h
    · cases h
    · rename_i dl hdl
      split at h
      · cases h
      · rename_i ms hms
        split at h
        · cases h
        · rename_i ts hts
          split at h
          · cases h
          · rename_i rows hrows
            simp only [Except.ok.injEq] at h
            subst h
            have hr := loc_mem hrows
            subst hr
            have ht := request_times hts
            subst ht
            have hs := (request_ok hsp).2
            have hm := (request_ok hms).2
            constructor
            · intro p
              obtain ⟨r, v⟩ := p
              rw [List.mem_filter, List.mem_map]
              have hsel : r ∈ matching lib dl sp ms ↔ Selected lib avail spectrum dose materials r := by
                unfold matching
                rw [List.mem_filter, decide_eq_true_eq, hs, hm]
                constructor
                · rintro ⟨a, b, c, d⟩
                  refine ⟨a, ?_, c, d⟩
                  rcases doseLabel_cases dose with ⟨e, f⟩ | ⟨e, f⟩ | ⟨_, _, f⟩
                  · left; rw [f] at hdl; cases hdl; exact ⟨e, b⟩
                  · right; rw [f] at hdl; cases hdl; exact ⟨e, b⟩
                  · rw [f] at hdl; cases hdl
                · rintro ⟨a, b, c, d⟩
                  refine ⟨a, ?_, c, d⟩
                  rcases b with ⟨rfl, b⟩ | ⟨rfl, b⟩
                  · have : doseLabel 95 = .ok "Dose 95%".toList := rfl
                    rw [this] at hdl; cases hdl; exact b
                  · have : doseLabel 99 = .ok "Dose 99%".toList := rfl
                    rw [this] at hdl; cases hdl; exact b
              constructor
              · rintro ⟨⟨r', hr', e⟩, hany⟩
                simp only [Prod.mk.injEq] at e
                obtain ⟨rfl, rfl⟩ := e
                refine ⟨hsel.1 hr', rfl, ?_⟩
                simp only [List.any_map, List.any_eq_true] at hany
                exact hany
              · rintro ⟨h1, h2, h3⟩
                simp only at h1 h2 h3
                subst h2
                refine ⟨⟨r, hsel.2 h1, rfl⟩, ?_⟩
                simp only [List.any_map, List.any_eq_true]
                exact h3
            · have h1 : (((matching lib dl sp ms).map (fun r => (r, (timesAsked cooling).map r.at))).filter
                  (fun p => p.2.any Option.isSome)).Sublist
                  ((matching lib dl sp ms).map (fun r => (r, (timesAsked cooling).map r.at))) := List.filter_sublist
              have h2 := h1.map Prod.fst
              rw [List.map_map] at h2
              have h3 : (Prod.fst ∘ fun r : Row => (r, (timesAsked cooling).map r.at)) = id := rfl
              rw [h3, List.map_id] at h2
              exact h2.trans List.filter_sublist

/-- **C111.** A request is refused with `ValueError` exactly if it names a spectrum, material or cooling time that
is not available, or another dose than 95 and 99. -/
theorem filter_valueError_iff (lib : List Row) (avail : List Str) (spectrum : Option (List Str)) (dose : ℤ)
    (materials cooling : Option (List Str)) :
    filterPathways lib avail spectrum dose materials cooling = .error .valueError ↔
      ¬ (Valid spectra spectrum ∧ (dose = 95 ∨ dose = 99) ∧ Valid avail materials ∧ Valid times cooling) := by
  have hloc : ∀ dl sp ms, loc lib dl sp ms ≠ .error .valueError := by
    intro dl sp ms h
    have hl : ∀ cur f ls, locList lib cur f ls ≠ .error .valueError := by
      intro cur f ls h
      rw [locList_eq] at h
      split_ifs at h
      cases h
    unfold loc at h
    split_ifs at h
    · split at h
      · rename_i e he
        simp only [Except.error.injEq] at h
        subst h
        exact hl _ _ _ he
      · cases h
    · split at h
      · rename_i e he
        simp only [Except.error.injEq] at h
        subst h
        exact hl _ _ _ he
      · exact hl _ _ _ h
    · cases h
  unfold filterPathways
  rcases request_cases spectra spectrum with ⟨v1, sp, e1⟩ | ⟨v1, e1⟩
  · rw [e1]; simp only
    rcases doseLabel_cases dose with ⟨d, e2⟩ | ⟨d, e2⟩ | ⟨d1, d2, e2⟩
    · rw [e2]; simp only
      rcases request_cases avail materials with ⟨v3, ms, e3⟩ | ⟨v3, e3⟩
      · rw [e3]; simp only
        rcases request_cases times cooling with ⟨v4, ts, e4⟩ | ⟨v4, e4⟩
        · rw [e4]; simp only
          constructor
          · intro h
            split at h
            · rename_i e he
              simp only [Except.error.injEq] at h
              subst h
              exact absurd he (hloc _ _ _)
            · cases h
          · intro h; exact absurd ⟨v1, Or.inl d, v3, v4⟩ h
        · rw [e4]; simp only [true_iff]; tauto
      · rw [e3]; simp only [true_iff]; tauto
    · rw [e2]; simp only
      rcases request_cases avail materials with ⟨v3, ms, e3⟩ | ⟨v3, e3⟩
      · rw [e3]; simp only
        rcases request_cases times cooling with ⟨v4, ts, e4⟩ | ⟨v4, e4⟩
        · rw [e4]; simp only
          constructor
          · intro h
            split at h
            · rename_i e he
              simp only [Except.error.injEq] at h
              subst h
              exact absurd he (hloc _ _ _)
            · cases h
          · intro h; exact absurd ⟨v1, Or.inr d, v3, v4⟩ h
        · rw [e4]; simp only [true_iff]; tauto
      · rw [e3]; simp only [true_iff]; tauto
    · rw [e2]; simp only [true_iff]; tauto
  · rw [e1]; simp only [true_iff]; tauto

theorem filter_valid {lib : List Row} {avail : List Str} {spectrum : Option (List Str)} {dose : ℤ}
    {materials cooling : Option (List Str)} (h1 : Valid spectra spectrum) (hd : dose = 95 ∨ dose = 99)
    (h2 : Valid avail materials) (h3 : Valid times cooling) :
    ∃ dl sp ms, (∀ l, l ∈ sp ↔ Asked spectra spectrum l) ∧ (∀ l, l ∈ ms ↔ Asked avail materials l) ∧
      doseLabel dose = .ok dl ∧
      filterPathways lib avail spectrum dose materials cooling =
        match loc lib dl sp ms with
        | .error e => .error e
        | .ok rows => .ok ((rows.map (fun r => (r, (timesAsked cooling).map r.at))).filter (fun p => p.2.any Option.isSome)) := by
  rcases request_cases spectra spectrum with ⟨_, sp, e1⟩ | ⟨v1, _⟩
  · rcases request_cases avail materials with ⟨_, ms, e3⟩ | ⟨v3, _⟩
    · rcases request_cases times cooling with ⟨_, ts, e4⟩ | ⟨v4, _⟩
      · have ht := request_times e4
        subst ht
        have : ∃ dl, doseLabel dose = .ok dl := by rcases hd with rfl | rfl <;> exact ⟨_, rfl⟩
        obtain ⟨dl, e2⟩ := this
        refine ⟨dl, sp, ms, (request_ok e1).2, (request_ok e3).2, e2, ?_⟩
        unfold filterPathways
        rw [e1]; simp only
        rw [e2]; simp only
        rw [e3]; simp only
        rw [e4]; rfl
      · exact absurd h3 v4
    · exact absurd h2 v3
  · exact absurd h1 v1

/-- **C111 (a request without pathways).** A valid request raises `KeyError` exactly if one of the spectra or
materials has no row at all in the library or no row matches them together - it does not give an empty table. -/
theorem filter_keyError_iff (lib : List Row) (avail : List Str) (spectrum : Option (List Str)) (dose : ℤ)
    (materials cooling : Option (List Str)) (h1 : Valid spectra spectrum) (hd : dose = 95 ∨ dose = 99)
    (h2 : Valid avail materials) (h3 : Valid times cooling) (hs : ∃ s, Asked spectra spectrum s)
    (hm : ∃ m, Asked avail materials m) :
    (∃ fs, filterPathways lib avail spectrum dose materials cooling = .ok fs) ∧
      (∀ s, Asked spectra spectrum s → ∃ r ∈ lib, r.spectrum = s) ∧
      (∀ m, Asked avail materials m → ∃ r ∈ lib, r.material = m) ∧
      (∃ r, Selected lib avail spectrum dose materials r) ∨
    filterPathways lib avail spectrum dose materials cooling = .error .keyError ∧
      ((∃ s, Asked spectra spectrum s ∧ ∀ r ∈ lib, r.spectrum ≠ s) ∨
        (∃ m, Asked avail materials m ∧ ∀ r ∈ lib, r.material ≠ m) ∨
        ∀ r, ¬ Selected lib avail spectrum dose materials r) := by
  obtain ⟨dl, sp, ms, a1, a2, a3, e⟩ := filter_valid (lib := lib) h1 hd h2 h3
  have hsp : sp ≠ [] := by
    obtain ⟨s, hs⟩ := hs
    rintro rfl
    exact absurd ((a1 s).2 hs) (by simp)
  have hms : ms ≠ [] := by
    obtain ⟨m, hm⟩ := hm
    rintro rfl
    exact absurd ((a2 m).2 hm) (by simp)
  have hsel : ∀ r, r ∈ matching lib dl sp ms ↔ Selected lib avail spectrum dose materials r := by
    intro r
    unfold matching
    rw [List.mem_filter, decide_eq_true_eq, a1, a2]
    constructor
    · rintro ⟨a, b, c, d⟩
      refine ⟨a, ?_, c, d⟩
      rcases hd with rfl | rfl
      · left; cases a3; exact ⟨rfl, b⟩
      · right; cases a3; exact ⟨rfl, b⟩
    · rintro ⟨a, b, c, d⟩
      refine ⟨a, ?_, c, d⟩
      rcases b with ⟨rfl, b⟩ | ⟨rfl, b⟩ <;> (cases a3; exact b)
  rw [e, loc_eq lib dl sp ms hsp hms]
  by_cases hc : (∀ s ∈ sp, s ∈ lib.map Row.spectrum) ∧ (∀ m ∈ ms, m ∈ lib.map Row.material) ∧ matching lib dl sp ms ≠ []
  · left
    rw [if_pos hc]
    refine ⟨⟨_, rfl⟩, ?_, ?_, ?_⟩
    · intro s hs
      have := hc.1 s ((a1 s).2 hs)
      obtain ⟨r, hr, e⟩ := List.mem_map.1 this
      exact ⟨r, hr, e⟩
    · intro m hm
      have := hc.2.1 m ((a2 m).2 hm)
      obtain ⟨r, hr, e⟩ := List.mem_map.1 this
      exact ⟨r, hr, e⟩
    · obtain ⟨r, hr⟩ := List.exists_mem_of_ne_nil _ hc.2.2
      exact ⟨r, (hsel r).1 hr⟩
  · right
    rw [if_neg hc]
    refine ⟨rfl, ?_⟩
    by_cases c1 : ∀ s ∈ sp, s ∈ lib.map Row.spectrum
    · by_cases c2 : ∀ m ∈ ms, m ∈ lib.map Row.material
      · right; right
        intro r hr
        apply hc
        refine ⟨c1, c2, ?_⟩
        intro h0
        have := (hsel r).2 hr
        rw [h0] at this; cases this
      · right; left
        push Not at c2
        obtain ⟨m, hm, hn⟩ := c2
        refine ⟨m, (a2 m).1 hm, ?_⟩
        intro r hr he
        exact hn (List.mem_map.2 ⟨r, hr, he⟩)
    · left
      push Not at c1
      obtain ⟨m, hm, hn⟩ := c1
      refine ⟨m, (a1 m).1 hm, ?_⟩
      intro r hr he
      exact hn (List.mem_map.2 ⟨r, hr, he⟩)

end F4Enix.Path
