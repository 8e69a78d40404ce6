import Verif.Inp.LibManager
import Verif.Inp.XsdirProps
import Mathlib.Data.List.Nodup
import Mathlib.Tactic.Linarith
/-!
# Which libraries and zaids the library manager offers (C156-C158)
-/
namespace F4Enix.LibM
open F4Enix F4Enix.Xs

/-! ### The specification -/

/-- the directory has a table with this suffix (the last three characters of its name) (specification) -/
def HasSuffix (x : Xsdir) (lib : Str) : Prop := ∃ t ∈ x.tables, t.name.drop (t.name.length - 3) = lib

/-- The configuration is read in one way: the file of a path is the same directory `g` for every code of the type of MCNP, and no path is the
word `dummy`. (specification) -/
def OneWay (op : Str → Str → Except PyErr Xsdir) (g : Str → Except PyErr Xsdir) (cfg : List (Str × List (Str × Cell))) : Prop :=
  ∀ code rows, (code, rows) ∈ cfg → code ∈ mcnpType → ∀ l p, (l, Cell.text p) ∈ rows → op code p = g p ∧ p ≠ "dummy".toList

/-- Codes and suffixes are named once. (specification) -/
def Distinct (cfg : List (Str × List (Str × Cell))) : Prop := (cfg.map Prod.fst).Nodup ∧ ∀ c ∈ cfg, (c.2.map Prod.fst).Nodup

/-! ### Loading -/

theorem libsOf_ok {x : Xsdir} {ls : List Str} (h : libsOf x = .ok ls) : x.tables ≠ [] ∧ ls = (tablenames x).map Prod.snd := by
  unfold libsOf at h
  split at h
  · simp at h
  · rename_i hne
    simp only [Except.ok.injEq] at h
    exact ⟨hne, h.symm⟩

theorem mem_libs (x : Xsdir) (lib : Str) : lib ∈ (tablenames x).map Prod.snd ↔ HasSuffix x lib := by
  unfold tablenames HasSuffix splitName
  simp

/-- what a row gives (proof) -/
def pick (g : Str → Except PyErr Xsdir) (r : Str × Cell) : Option (Str × Xsdir) :=
  match r.2 with
  | .text p =>
    if p = [] then none
    else
      match g p with
      | .ok x => if r.1 ∈ (tablenames x).map Prod.snd then some (r.1, x) else none
      | .error _ => none
  | _ => none

theorem pick_fst {g : Str → Except PyErr Xsdir} {r : Str × Cell} {y : Str × Xsdir} (h : pick g r = some y) : y.1 = r.1 := by
  unfold pick at h
  split at h
  · split at h
    · simp at h
    · split at h
      · split at h
        · simp only [Option.some.injEq] at h; rw [← h]
        · simp at h
      · simp at h
  · simp at h

/-- the variables of the loop hold the directory of the path read last (proof) -/
def Inv (g : Str → Except PyErr Xsdir) (st : St) : Prop :=
  ∀ p, p ≠ "dummy".toList → st.prev = some p → ∃ x ls, g p = .ok x ∧ libsOf x = .ok ls ∧ st.cur = some (x, ls)

theorem openAt_spec {op : Str → Str → Except PyErr Xsdir} {g : Str → Except PyErr Xsdir} {code p : Str} {st st' : St}
    (hg : op code p = g p) (hd : p ≠ "dummy".toList) (hi : Inv g st) (h : openAt op code p st = .ok st') :
    ∃ x, g p = .ok x ∧ x.tables ≠ [] ∧ st' = ⟨some p, some (x, (tablenames x).map Prod.snd)⟩ := by
  unfold openAt at h
  split at h
  · rw [hg] at h
    cases hx : g p with
    | error e => rw [hx] at h; simp at h
    | ok x =>
      rw [hx] at h
      simp only at h
      cases hl : libsOf x with
      | error e => rw [hl] at h; simp at h
      | ok ls =>
        rw [hl] at h
        simp only [Except.ok.injEq] at h
        obtain ⟨h1, h2⟩ := libsOf_ok hl
        exact ⟨x, rfl, h1, by rw [← h, h2]⟩
  · rename_i hp
    simp only [ne_eq, not_not] at hp
    simp only [Except.ok.injEq] at h
    subst h
    obtain ⟨x, ls, h1, h2, h3⟩ := hi p hd hp
    obtain ⟨h4, h5⟩ := libsOf_ok h2
    refine ⟨x, h1, h4, ?_⟩
    cases st
    simp only at hp h3
    rw [hp, h3, h5]

theorem set_new {ν : Type} {d : Dict Str ν} {k : Str} (v : ν) (h : k ∉ Dict.keys d) : Dict.set d k v = d ++ [(k, v)] := by
  induction d with
  | nil => rfl
  | cons p d ih =>
    obtain ⟨a, b⟩ := p
    simp only [Dict.keys, List.map_cons, List.mem_cons, not_or] at h
    simp only [Dict.set]
    rw [if_neg (fun e => h.1 e.symm), ih h.2]
    rfl

theorem loadRow_spec {op omc : Str → Str → Except PyErr Xsdir} {g : Str → Except PyErr Xsdir} {code lib : Str} {c : Cell} {st st' : St}
    {d d' : Dict Str Xsdir} (hc : code ∈ mcnpType) (hg : ∀ p, c = .text p → op code p = g p ∧ p ≠ "dummy".toList) (hi : Inv g st)
    (hk : lib ∉ Dict.keys d) (h : loadRow op omc code lib c st d = .ok (st', d')) :
    Inv g st' ∧ d' = d ++ (pick g (lib, c)).toList ∧ c ≠ .nan ∧ ∀ p, c = .text p → p ≠ [] → ∃ x, g p = .ok x ∧ x.tables ≠ [] := by
  unfold loadRow at h
  cases c with
  | none =>
    simp only [Except.ok.injEq, Prod.mk.injEq] at h
    obtain ⟨rfl, rfl⟩ := h
    exact ⟨hi, by simp [pick], by simp, by simp⟩
  | nan => simp at h
  | text p =>
    simp only at h
    by_cases hp : p = []
    · rw [if_pos hp] at h
      simp only [Except.ok.injEq, Prod.mk.injEq] at h
      obtain ⟨rfl, rfl⟩ := h
      refine ⟨hi, by simp [pick, hp], by simp, ?_⟩
      intro q hq hne
      simp only [Cell.text.injEq] at hq
      exact absurd (hq ▸ hp) hne
    · rw [if_neg hp, if_pos hc] at h
      obtain ⟨hgp, hdp⟩ := hg p rfl
      cases ho : openAt op code p st with
      | error e => rw [ho] at h; simp at h
      | ok st1 =>
        obtain ⟨x, hx, hne, rfl⟩ := openAt_spec hgp hdp hi ho
        rw [ho] at h
        simp only at h
        have hinv : Inv g ⟨some p, some (x, (tablenames x).map Prod.snd)⟩ := by
          intro q _ hq
          simp only [Option.some.injEq] at hq
          subst hq
          refine ⟨x, _, hx, ?_, rfl⟩
          unfold libsOf
          rw [if_neg hne]
        have hlast : ∀ q, Cell.text p = .text q → q ≠ [] → ∃ x, g q = .ok x ∧ x.tables ≠ [] := by
          intro q hq _
          simp only [Cell.text.injEq] at hq
          subst hq
          exact ⟨x, hx, hne⟩
        split at h
        · rename_i hl
          simp only [Except.ok.injEq, Prod.mk.injEq] at h
          obtain ⟨rfl, rfl⟩ := h
          refine ⟨hinv, ?_, by simp, hlast⟩
          rw [set_new _ hk]
          simp only [pick, if_neg hp, hx]
          rw [if_pos hl]
          rfl
        · rename_i hl
          simp only [Except.ok.injEq, Prod.mk.injEq] at h
          obtain ⟨rfl, rfl⟩ := h
          refine ⟨hinv, ?_, by simp, hlast⟩
          simp only [pick, if_neg hp, hx]
          rw [if_neg hl]
          simp

theorem loadRows_spec {op omc : Str → Str → Except PyErr Xsdir} {g : Str → Except PyErr Xsdir} {code : Str} (hc : code ∈ mcnpType) :
    ∀ (rows : List (Str × Cell)) (st st' : St) (d d' : Dict Str Xsdir),
    (∀ l p, (l, Cell.text p) ∈ rows → op code p = g p ∧ p ≠ "dummy".toList) → Inv g st → (Dict.keys d ++ rows.map Prod.fst).Nodup →
    loadRows op omc code rows st d = .ok (st', d') →
    Inv g st' ∧ d' = d ++ rows.filterMap (pick g) ∧ (∀ l, (l, Cell.nan) ∉ rows) ∧
      ∀ l p, (l, Cell.text p) ∈ rows → p ≠ [] → ∃ x, g p = .ok x ∧ x.tables ≠ [] := by
  intro rows
  induction rows with
  | nil =>
    intro st st' d d' _ hi _ h
    simp only [loadRows, Except.ok.injEq, Prod.mk.injEq] at h
    obtain ⟨rfl, rfl⟩ := h
    exact ⟨hi, by simp, by simp, by simp⟩
  | cons r rows ih =>
    obtain ⟨lib, c⟩ := r
    intro st st' d d' hg hi hn h
    rw [loadRows.eq_def] at h
    simp only at h
    cases hr : loadRow op omc code lib c st d with
    | error e => rw [hr] at h; simp at h
    | ok q =>
      obtain ⟨st1, d1⟩ := q
      rw [hr] at h
      simp only at h
      have hnew : lib ∉ Dict.keys d := by
        intro hm
        rw [List.map_cons, List.nodup_append] at hn
        exact hn.2.2 lib hm lib (by simp) rfl
      obtain ⟨h1, h2, h3, h4⟩ := loadRow_spec hc (fun p hp => hg lib p (by simp [hp])) hi hnew hr
      have hkeys : Dict.keys d1 = Dict.keys d ++ ((pick g (lib, c)).toList.map Prod.fst) := by
        rw [h2]; simp [Dict.keys]
      obtain ⟨i1, i2, i3, i4⟩ := ih st1 st' d1 d' (fun l p hm => hg l p (by simp [hm])) h1 (by
        rw [hkeys]
        have hp : ((pick g (lib, c)).toList.map Prod.fst).Sublist [lib] := by
          cases hk : pick g (lib, c) with
          | none => simp
          | some y => simp [pick_fst hk]
        rw [List.map_cons, show (Prod.fst (lib, c) :: rows.map Prod.fst) = [lib] ++ rows.map Prod.fst from rfl, ← List.append_assoc] at hn
        exact hn.sublist (((List.Sublist.refl _).append hp).append (List.Sublist.refl _))) h
      refine ⟨i1, ?_, ?_, ?_⟩
      · rw [i2, h2, List.filterMap_cons]
        cases pick g (lib, c) <;> simp
      · intro l hm
        rcases List.mem_cons.1 hm with e | hm
        · simp only [Prod.mk.injEq] at e
          exact h3 e.2.symm
        · exact i3 l hm
      · intro l p hm hne
        rcases List.mem_cons.1 hm with e | hm
        · simp only [Prod.mk.injEq] at e
          exact h4 p e.2.symm hne
        · exact i4 l p hm hne

/-- rows of other codes leave the variables alone and have no `nan` -/
theorem loadRows_other {op omc : Str → Str → Except PyErr Xsdir} {code : Str} (hc : code ∉ mcnpType) :
    ∀ (rows : List (Str × Cell)) (st st' : St) (d d' : Dict Str Xsdir), loadRows op omc code rows st d = .ok (st', d') →
    st' = st ∧ (∀ l, (l, Cell.nan) ∉ rows) := by
  intro rows
  induction rows with
  | nil =>
    intro st st' d d' h
    simp only [loadRows, Except.ok.injEq, Prod.mk.injEq] at h
    exact ⟨h.1.symm, by simp⟩
  | cons r rows ih =>
    obtain ⟨lib, c⟩ := r
    intro st st' d d' h
    rw [loadRows.eq_def] at h
    simp only at h
    cases hr : loadRow op omc code lib c st d with
    | error e => rw [hr] at h; simp at h
    | ok q =>
      obtain ⟨st1, d1⟩ := q
      rw [hr] at h
      simp only at h
      have hst : st1 = st ∧ c ≠ .nan := by
        unfold loadRow at hr
        cases c with
        | none => simp only [Except.ok.injEq, Prod.mk.injEq] at hr; exact ⟨hr.1.symm, by simp⟩
        | nan => simp at hr
        | text p =>
          simp only at hr
          rw [if_neg hc] at hr
          refine ⟨?_, by simp⟩
          split at hr
          · simp only [Except.ok.injEq, Prod.mk.injEq] at hr; exact hr.1.symm
          · split at hr
            · split at hr
              · simp at hr
              · simp only [Except.ok.injEq, Prod.mk.injEq] at hr; exact hr.1.symm
            · simp at hr
      obtain ⟨rfl, hnan⟩ := hst
      obtain ⟨h1, h2⟩ := ih _ _ _ _ h
      refine ⟨h1, ?_⟩
      intro l hm
      rcases List.mem_cons.1 hm with e | hm
      · simp only [Prod.mk.injEq] at e
        exact hnan e.2.symm
      · exact h2 l hm

theorem loadCodes_spec {op omc : Str → Str → Except PyErr Xsdir} {g : Str → Except PyErr Xsdir} :
    ∀ (cfg : List (Str × List (Str × Cell))) (st : St) (data data' : Dict Str (Dict Str Xsdir)), OneWay op g cfg → Inv g st → Distinct cfg →
    loadCodes op omc cfg st data = .ok data' →
    (∀ c, c ∉ cfg.map Prod.fst → Dict.get? data' c = Dict.get? data c) ∧
    (∀ code rows, (code, rows) ∈ cfg → (∃ d, Dict.get? data' code = some d) ∧ (∀ l, (l, Cell.nan) ∉ rows) ∧ (code ∈ mcnpType →
      Dict.get? data' code = some (rows.filterMap (pick g)) ∧
      ∀ l p, (l, Cell.text p) ∈ rows → p ≠ [] → ∃ x, g p = .ok x ∧ x.tables ≠ [])) := by
  intro cfg
  induction cfg with
  | nil =>
    intro st data data' _ _ _ h
    simp only [loadCodes, Except.ok.injEq] at h
    subst h
    exact ⟨by simp, by simp⟩
  | cons r cfg ih =>
    obtain ⟨code, rows⟩ := r
    intro st data data' hg hi hd h
    rw [loadCodes.eq_def] at h
    simp only at h
    cases hr : loadRows op omc code rows st [] with
    | error e => rw [hr] at h; simp at h
    | ok q =>
      obtain ⟨st1, d1⟩ := q
      rw [hr] at h
      simp only at h
      have hnew : code ∉ cfg.map Prod.fst := (List.nodup_cons.1 hd.1).1
      have hd' : Distinct cfg := ⟨(List.nodup_cons.1 hd.1).2, fun c hc => hd.2 c (by simp [hc])⟩
      have hg' : OneWay op g cfg := fun c rs hm => hg c rs (by simp [hm])
      have hrows : (rows.map Prod.fst).Nodup := hd.2 (code, rows) (by simp)
      have key : Inv g st1 ∧ (∀ l, (l, Cell.nan) ∉ rows) ∧ (code ∈ mcnpType → d1 = rows.filterMap (pick g) ∧
          ∀ l p, (l, Cell.text p) ∈ rows → p ≠ [] → ∃ x, g p = .ok x ∧ x.tables ≠ []) := by
        by_cases hc : code ∈ mcnpType
        · obtain ⟨a1, a2, a3, a4⟩ := loadRows_spec hc rows st st1 [] d1 (hg code rows (by simp) hc) hi (by simpa [Dict.keys] using hrows) hr
          exact ⟨a1, a3, fun _ => ⟨by simpa using a2, a4⟩⟩
        · obtain ⟨rfl, a2⟩ := loadRows_other hc rows st st1 [] d1 hr
          exact ⟨hi, a2, fun h => absurd h hc⟩
      obtain ⟨h1, h2⟩ := ih st1 _ data' hg' key.1 hd' h
      refine ⟨?_, ?_⟩
      · intro c hc
        simp only [List.map_cons, List.mem_cons, not_or] at hc
        rw [h1 c hc.2, Dict.get?_set_ne _ _ (fun e => hc.1 e.symm)]
      · intro c rs hm
        rcases List.mem_cons.1 hm with e | hm
        · simp only [Prod.mk.injEq] at e
          obtain ⟨rfl, rfl⟩ := e
          have hself : Dict.get? data' c = some d1 := by rw [h1 c hnew, Dict.get?_set_self]
          refine ⟨⟨d1, hself⟩, key.2.1, ?_⟩
          intro hc
          obtain ⟨e, hx⟩ := key.2.2 hc
          exact ⟨by rw [hself, e], hx⟩
        · exact h2 c rs hm

/-! ### C156 -/

theorem inv_start (g : Str → Except PyErr Xsdir) : Inv g ⟨some "dummy".toList, none⟩ := by
  intro p hp h
  simp only [Option.some.injEq] at h
  exact absurd h.symm hp

theorem keys_filterMap (g : Str → Except PyErr Xsdir) (rows : List (Str × Cell)) :
    (Dict.keys (rows.filterMap (pick g))).Sublist (rows.map Prod.fst) := by
  induction rows with
  | nil => simp [Dict.keys]
  | cons r rows ih =>
    rw [List.filterMap_cons]
    cases h : pick g r with
    | none => exact ih.trans (List.sublist_cons_self _ _)
    | some y =>
      simp only [Dict.keys, List.map_cons, pick_fst h]
      exact ih.cons_cons _

/-- **C156.** If the manager is built from a table of paths, then for each code of the type of MCNP the libraries offered are, in the order
of the table, exactly those that have a path and whose file has a table with their suffix, and each stands for the directory of its own file. Partial: Proved when the file of a path is the same directory for all codes. False in general: a path shared by the columns of two codes is not read again for the second (shared_path); an empty cell of a csv or Excel table (nan) and a missing file end the construction (nan_refused, missing_refused), although the code says it only warns. -/
theorem libraries_exact_partial {op omc : Str → Str → Except PyErr Xsdir} {g : Str → Except PyErr Xsdir} {cfg : List (Str × List (Str × Cell))}
    {data : Dict Str (Dict Str Xsdir)} (hw : OneWay op g cfg) (hd : Distinct cfg) (h : initTable op omc cfg = .ok data)
    {code : Str} {rows : List (Str × Cell)} (hm : (code, rows) ∈ cfg) (hc : code ∈ mcnpType) :
    ∃ d, Dict.get? data code = some d ∧ librariesOf data code = some (Dict.keys d) ∧ (Dict.keys d).Sublist (rows.map Prod.fst) ∧ (Dict.keys d).Nodup ∧
      ∀ lib x, Dict.get? d lib = some x ↔ ∃ p, (lib, Cell.text p) ∈ rows ∧ p ≠ [] ∧ g p = .ok x ∧ HasSuffix x lib := by
  obtain ⟨-, h2⟩ := loadCodes_spec cfg _ _ _ hw (inv_start g) hd h
  obtain ⟨-, -, h3⟩ := h2 code rows hm
  obtain ⟨h4, -⟩ := h3 hc
  have hsub := keys_filterMap g rows
  have hnd : (Dict.keys (rows.filterMap (pick g))).Nodup := hsub.nodup (hd.2 _ hm)
  refine ⟨_, h4, by unfold librariesOf; rw [h4]; rfl, hsub, hnd, ?_⟩
  intro lib x
  have hget : Dict.get? (rows.filterMap (pick g)) lib = some x ↔ (lib, x) ∈ rows.filterMap (pick g) :=
    ⟨Dict.mem_of_get?, Dict.get?_of_mem hnd⟩
  rw [hget, List.mem_filterMap]
  constructor
  · rintro ⟨⟨l, c⟩, hr, hp⟩
    have e := pick_fst hp
    simp only at e
    subst e
    unfold pick at hp
    simp only at hp
    split at hp
    · rename_i p
      split at hp
      · simp at hp
      · rename_i hne
        split at hp
        · rename_i y hy
          split at hp
          · rename_i hl
            simp only [Option.some.injEq, Prod.mk.injEq, true_and] at hp
            subst hp
            exact ⟨p, hr, hne, hy, (mem_libs _ _).1 hl⟩
          · simp at hp
        · simp at hp
    · simp at hp
  · rintro ⟨p, hr, hne, hx, hs⟩
    refine ⟨_, hr, ?_⟩
    unfold pick
    simp only [if_neg hne, hx]
    rw [if_pos ((mem_libs _ _).2 hs)]

/-- **C156 (one file).** Built from the path of one file, the manager offers exactly the suffixes of its tables, each once. -/
theorem path_libraries {op omc : Str → Str → Except PyErr Xsdir} {p : Str} {x : Xsdir} (hp : p ≠ []) (ho : op "mcnp".toList p = .ok x)
    (hx : x.tables ≠ []) {order : List Str} (hn : order.Nodup) (hor : ∀ l, l ∈ order ↔ HasSuffix x l) :
    ∃ data, initPath op omc p order = .ok data ∧ librariesOf data "mcnp".toList = some order ∧
      ∀ l ∈ order, ∃ d, Dict.get? data "mcnp".toList = some d ∧ Dict.get? d l = some x := by
  have hl : libsOf x = .ok ((tablenames x).map Prod.snd) := by unfold libsOf; rw [if_neg hx]
  have hmt : "mcnp".toList ∈ mcnpType := by decide
  have step : ∀ (ls : List Str) (st : St) (d : Dict Str Xsdir), (∀ l ∈ ls, HasSuffix x l) → (Dict.keys d ++ ls).Nodup →
      (st.prev = some p → st.cur = some (x, (tablenames x).map Prod.snd)) →
      ∃ st', loadRows op omc "mcnp".toList (ls.map (fun l => (l, Cell.text p))) st d = .ok (st', d ++ ls.map (fun l => (l, x))) := by
    intro ls
    induction ls with
    | nil => intro st d _ _ _; exact ⟨st, by simp [loadRows]⟩
    | cons l ls ih =>
      intro st d hs hnd hst
      have hmem := (mem_libs x l).2 (hs l (by simp))
      have hnew : l ∉ Dict.keys d := by
        intro hm
        rw [List.nodup_append] at hnd
        exact hnd.2.2 l hm l (by simp) rfl
      have hrow : ∃ st1, loadRow op omc "mcnp".toList l (.text p) st d = .ok (st1, d ++ [(l, x)]) ∧
          (st1.prev = some p → st1.cur = some (x, (tablenames x).map Prod.snd)) := by
        unfold loadRow
        simp only
        rw [if_neg hp, if_pos hmt]
        by_cases hprev : st.prev ≠ some p
        · refine ⟨⟨some p, some (x, (tablenames x).map Prod.snd)⟩, ?_, fun _ => rfl⟩
          unfold openAt
          rw [if_pos hprev, ho]
          simp only [hl]
          rw [if_pos hmem, set_new _ hnew]
        · refine ⟨st, ?_, hst⟩
          unfold openAt
          rw [if_neg hprev]
          simp only [hst (not_not.1 hprev)]
          rw [if_pos hmem, set_new _ hnew]
      obtain ⟨st1, e1, hst1⟩ := hrow
      obtain ⟨st2, e2⟩ := ih st1 (d ++ [(l, x)]) (fun y hy => hs y (by simp [hy])) (by
        simp only [Dict.keys, List.map_append, List.map_cons, List.map_nil, List.append_assoc, List.singleton_append]
        exact hnd) hst1
      refine ⟨st2, ?_⟩
      rw [List.map_cons, loadRows.eq_def]
      simp only [e1, e2, List.map_cons, List.append_assoc, List.singleton_append]
  obtain ⟨st', e⟩ := step order ⟨none, some (x, (tablenames x).map Prod.snd)⟩ [] (fun l hm => (hor l).1 hm) (by simpa [Dict.keys] using hn) (by simp)
  have hkeys : Dict.keys (order.map (fun l => (l, x))) = order := by
    simp [Dict.keys, Function.comp_def]
  have hget : Dict.get? (Dict.set ([] : Dict Str (Dict Str Xsdir)) "mcnp".toList (order.map (fun l => (l, x)))) "mcnp".toList =
      some (order.map (fun l => (l, x))) := Dict.get?_set_self _ _ _
  refine ⟨Dict.set [] "mcnp".toList (order.map (fun l => (l, x))), ?_, ?_, ?_⟩
  · unfold initPath
    simp only [ho, hl]
    rw [loadCodes.eq_def]
    simp only [e, List.nil_append]
    rw [loadCodes.eq_def]
  · unfold librariesOf
    rw [hget, Option.map_some, hkeys]
  · intro l hm
    refine ⟨_, hget, ?_⟩
    refine Dict.get?_of_mem (by unfold Dict.WF; rw [hkeys]; exact hn) ?_
    exact List.mem_map.2 ⟨l, hm, rfl⟩

/-- **C156 (empty cells).** A cell left empty in a csv or Excel file, which pandas reads as `nan`, ends the construction. -/
theorem nan_refused {op omc : Str → Str → Except PyErr Xsdir} {g : Str → Except PyErr Xsdir} {cfg : List (Str × List (Str × Cell))}
    (hw : OneWay op g cfg) (hd : Distinct cfg) {code : Str} {rows : List (Str × Cell)} (hm : (code, rows) ∈ cfg) {lib : Str}
    (hn : (lib, Cell.nan) ∈ rows) (data : Dict Str (Dict Str Xsdir)) : initTable op omc cfg ≠ .ok data := by
  intro h
  obtain ⟨-, h2⟩ := loadCodes_spec cfg _ _ _ hw (inv_start g) hd h
  exact (h2 code rows hm).2.1 lib hn

/-- **C156 (missing files).** A path without a file, or with a file without tables, ends the construction too: it is not only a warning. -/
theorem missing_refused {op omc : Str → Str → Except PyErr Xsdir} {g : Str → Except PyErr Xsdir} {cfg : List (Str × List (Str × Cell))}
    (hw : OneWay op g cfg) (hd : Distinct cfg) {code : Str} {rows : List (Str × Cell)} (hm : (code, rows) ∈ cfg) (hc : code ∈ mcnpType)
    {lib p : Str} (hr : (lib, Cell.text p) ∈ rows) (hp : p ≠ []) (hg : ∀ x, g p = .ok x → x.tables = []) (data : Dict Str (Dict Str Xsdir)) :
    initTable op omc cfg ≠ .ok data := by
  intro h
  obtain ⟨-, h2⟩ := loadCodes_spec cfg _ _ _ hw (inv_start g) hd h
  obtain ⟨x, hx, hne⟩ := ((h2 code rows hm).2.2 hc).2 lib p hr hp
  exact hne (hg x hx)

end F4Enix.LibM
