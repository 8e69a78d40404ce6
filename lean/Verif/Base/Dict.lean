/-!
# Python dictionaries

A `dict` is an association list in insertion order; well-formed ones have distinct keys
(`Dict.WF`). Only the operations used by the modelled code are defined. Assumed behaviour of the
Python runtime.
-/
namespace F4Enix

/-- A Python `dict` in insertion order. (Python) -/
abbrev Dict (κ ν : Type) := List (κ × ν)

namespace Dict
variable {κ ν : Type} [DecidableEq κ]

/-- `d.get(k)` / `d[k]` (`none` where `d[k]` raises `KeyError`). (Python) -/
def get? (d : Dict κ ν) (k : κ) : Option ν :=
  match d with
  | [] => none
  | (k', v) :: d => if k' = k then some v else get? d k

/-- `k in d` (Python) -/
def has (d : Dict κ ν) (k : κ) : Bool := (get? d k).isSome

/-- `d.keys()` (Python) -/
def keys (d : Dict κ ν) : List κ := d.map Prod.fst

/-- `d[k] = v`: replaces in place or appends. (Python) -/
def set (d : Dict κ ν) (k : κ) (v : ν) : Dict κ ν :=
  match d with
  | [] => [(k, v)]
  | (k', v') :: d => if k' = k then (k', v) :: d else (k', v') :: set d k v

/-- `del d[k]` (no-op if absent; callers check presence). (Python) -/
def del (d : Dict κ ν) (k : κ) : Dict κ ν :=
  match d with
  | [] => []
  | (k', v') :: d => if k' = k then d else (k', v') :: del d k

/-- `d.update(e)` / a loop `for k, v in e.items(): d[k] = v` (Python) -/
def update (d e : Dict κ ν) : Dict κ ν := e.foldl (fun d kv => set d kv.1 kv.2) d

/-- Distinct keys. (specification) -/
def WF (d : Dict κ ν) : Prop := (keys d).Nodup

/-! ### basic facts -/

@[simp] theorem get?_nil (k : κ) : get? ([] : Dict κ ν) k = none := rfl

theorem get?_set (d : Dict κ ν) (k k' : κ) (v : ν) :
    get? (set d k v) k' = if k = k' then some v else get? d k' := by
  induction d with
  | nil => simp [set, get?]
  | cons p d ih =>
    obtain ⟨a, b⟩ := p
    by_cases h : a = k
    · subst h; by_cases h2 : a = k' <;> simp [set, get?, h2]
    · by_cases h2 : a = k'
      · subst h2; simp [set, get?, h, Ne.symm h]
      · simp [set, get?, h, h2, ih]

@[simp] theorem get?_set_self (d : Dict κ ν) (k : κ) (v : ν) : get? (set d k v) k = some v := by
  simp [get?_set]

theorem get?_set_ne (d : Dict κ ν) {k k' : κ} (v : ν) (h : k ≠ k') :
    get? (set d k v) k' = get? d k' := by simp [get?_set, h]

theorem get?_eq_none_iff (d : Dict κ ν) (k : κ) : get? d k = none ↔ k ∉ keys d := by
  induction d with
  | nil => simp [keys]
  | cons p d ih =>
    obtain ⟨a, b⟩ := p
    by_cases h : a = k
    · simp [get?, keys, h]
    · simp only [get?, h, if_false, ih, keys, List.map_cons, List.mem_cons, not_or]
      exact ⟨fun h2 => ⟨fun e => h e.symm, h2⟩, fun h2 => h2.2⟩

theorem has_iff (d : Dict κ ν) (k : κ) : has d k = true ↔ k ∈ keys d := by
  have := get?_eq_none_iff d k
  unfold has
  cases h : get? d k with
  | none => simp [this.mp h]
  | some v =>
    simp only [Option.isSome_some, true_iff]
    exact Classical.byContradiction fun hc => by rw [this.mpr hc] at h; cases h

theorem mem_of_get? {d : Dict κ ν} {k : κ} {v : ν} (h : get? d k = some v) : (k, v) ∈ d := by
  induction d with
  | nil => simp at h
  | cons p d ih =>
    obtain ⟨a, b⟩ := p
    by_cases hk : a = k
    · simp [get?, hk] at h; simp [hk, h]
    · simp [get?, hk] at h; exact List.mem_cons_of_mem _ (ih h)

theorem get?_of_mem {d : Dict κ ν} (hw : WF d) {k : κ} {v : ν} (h : (k, v) ∈ d) :
    get? d k = some v := by
  induction d with
  | nil => simp at h
  | cons p d ih =>
    obtain ⟨a, b⟩ := p
    simp only [WF, keys, List.map_cons, List.nodup_cons] at hw
    simp only [List.mem_cons, Prod.mk.injEq] at h
    rcases h with ⟨rfl, rfl⟩ | h
    · simp [get?]
    · have hne : a ≠ k := by
        rintro rfl; exact hw.1 (List.mem_map.mpr ⟨(a, v), h, rfl⟩)
      simp [get?, hne]; exact ih hw.2 h

theorem mem_keys_set (d : Dict κ ν) (k k' : κ) (v : ν) :
    k' ∈ keys (set d k v) ↔ k' = k ∨ k' ∈ keys d := by
  rw [← has_iff, ← has_iff, has, has, get?_set]
  by_cases h : k = k'
  · simp [h]
  · simp [h, Ne.symm h]

theorem keys_set (d : Dict κ ν) (k : κ) (v : ν) :
    keys (set d k v) = if k ∈ keys d then keys d else keys d ++ [k] := by
  induction d with
  | nil => simp [set, keys]
  | cons p d ih =>
    obtain ⟨a, b⟩ := p
    simp only [keys] at ih
    by_cases h : a = k
    · simp [set, keys, h]
    · simp only [set, h, if_false, keys, List.map_cons, ih, List.mem_cons, Ne.symm h, false_or]
      split <;> rename_i hm <;> simp [hm]

theorem WF_set {d : Dict κ ν} (h : WF d) (k : κ) (v : ν) : WF (set d k v) := by
  unfold WF at *
  rw [keys_set]
  split
  · exact h
  · rename_i hk
    rw [List.nodup_append]
    refine ⟨h, by simp, ?_⟩
    intro a ha b hb
    simp only [List.mem_singleton] at hb
    subst hb; rintro rfl; exact hk ha

theorem keys_del_subset (d : Dict κ ν) (k : κ) : ∀ x ∈ keys (del d k), x ∈ keys d := by
  induction d with
  | nil => simp [del]
  | cons p d ih =>
    obtain ⟨a, b⟩ := p
    simp only [keys] at ih
    by_cases h : a = k
    · simp only [del, h, if_true, keys, List.map_cons]; intro x hx; exact List.mem_cons_of_mem _ hx
    · simp only [del, h, if_false, keys, List.map_cons, List.mem_cons]
      rintro x (rfl | hx)
      · exact Or.inl rfl
      · exact Or.inr (ih x hx)

theorem WF_del {d : Dict κ ν} (h : WF d) (k : κ) : WF (del d k) := by
  induction d with
  | nil => simpa [del] using h
  | cons p d ih =>
    obtain ⟨a, b⟩ := p
    simp only [WF, keys, List.map_cons, List.nodup_cons] at h
    by_cases hk : a = k
    · simpa [del, hk, WF, keys] using h.2
    · simp only [del, hk, if_false, WF, keys, List.map_cons, List.nodup_cons]
      exact ⟨fun hm => h.1 (keys_del_subset d k a hm), ih h.2⟩

theorem get?_del {d : Dict κ ν} (h : WF d) (k k' : κ) :
    get? (del d k) k' = if k = k' then none else get? d k' := by
  induction d with
  | nil => simp [del]
  | cons p d ih =>
    obtain ⟨a, b⟩ := p
    simp only [WF, keys, List.map_cons, List.nodup_cons] at h
    by_cases hk : a = k
    · subst hk
      by_cases h2 : a = k'
      · subst h2; simp only [del, if_true]; exact (get?_eq_none_iff d a).mpr h.1
      · simp [del, get?, h2]
    · by_cases h2 : a = k'
      · subst h2; simp [del, get?, hk, Ne.symm hk]
      · simp [del, get?, hk, h2, ih h.2]

theorem WF_update {d : Dict κ ν} (h : WF d) (e : Dict κ ν) : WF (update d e) := by
  unfold update
  induction e generalizing d with
  | nil => simpa
  | cons p e ih => exact ih (WF_set h p.1 p.2)

/-- Updating with a well-formed dictionary: the argument wins. -/
theorem get?_update (d : Dict κ ν) {e : Dict κ ν} (he : WF e) (k : κ) :
    get? (update d e) k = (get? e k).or (get? d k) := by
  unfold update
  induction e generalizing d with
  | nil => simp
  | cons p e ih =>
    obtain ⟨a, b⟩ := p
    simp only [WF, keys, List.map_cons, List.nodup_cons] at he
    simp only [List.foldl_cons]
    rw [ih _ he.2, get?_set]
    by_cases h : a = k
    · subst h
      rw [(get?_eq_none_iff e a).mpr he.1]; simp [get?]
    · simp [get?, h]

theorem get?_map_val {μ : Type} (d : Dict κ ν) (f : ν → μ) (k : κ) :
    get? (d.map (fun p => (p.1, f p.2))) k = (get? d k).map f := by
  induction d with
  | nil => simp
  | cons p d ih =>
    obtain ⟨a, b⟩ := p
    by_cases h : a = k <;> simp [get?, h, ih]

end Dict
end F4Enix
