import Verif.Mat.CollapseProps
import Verif.Base.TextLemmas
import Mathlib.Tactic.FieldSimp
import Mathlib.Algebra.Order.Ring.Abs
/-!
# C32: conversion of a zaid to a library; C28: translation of a submaterial
-/
namespace F4Enix.Mat
open F4Enix

/-! ## C32 -/

theorem dict_set_absent {κ ν : Type} [DecidableEq κ] (d : Dict κ ν) {k : κ} (v : ν)
    (h : k ∉ Dict.keys d) : Dict.set d k v = d ++ [(k, v)] := by
  induction d with
  | nil => rfl
  | cons p d ih =>
    obtain ⟨a, b⟩ := p
    simp only [Dict.keys, List.map_cons, List.mem_cons, not_or] at h
    simp only [Dict.set, if_neg (Ne.symm h.1), List.cons_append]
    rw [ih h.2]

/-- library chosen for an isotope of an expanded natural zaid (proof) -/
def LibMan.isoLib (lm : LibMan) (lib : Str) (r : Iso) : Str :=
  if lm.tables lib r.idx then lib else lm.default

theorem expand_ok {lm : LibMan} {lib : Str} {rs : List Iso} {acc t : Translation}
    (h : lm.expand lib acc rs = .ok t)
    (hnd : (Dict.keys acc ++ rs.map Iso.idx).Nodup) :
    t = acc ++ rs.map (fun r => (r.idx, some (lm.isoLib lib r), r.ab, r.mass)) ∧
    ∀ r ∈ rs, lm.tables lib r.idx = true ∨
      (lm.tables lib r.idx = false ∧ lm.default ∈ lm.libs ∧ lm.tables lm.default r.idx = true) := by
  induction rs generalizing acc with
  | nil =>
    simp only [LibMan.expand, Except.ok.injEq] at h
    simp [h]
  | cons r rs ih =>
    have hr : r.idx ∉ Dict.keys acc := by
      intro hm
      rw [List.nodup_append] at hnd
      exact hnd.2.2 _ hm _ (by simp) rfl
    have hnd' : ∀ v, (Dict.keys (Dict.set acc r.idx v) ++ rs.map Iso.idx).Nodup := by
      intro v
      rw [Dict.keys_set, if_neg hr]
      simpa using hnd
    cases ht : lm.tables lib r.idx with
    | true =>
      simp only [LibMan.expand, ht] at h
      obtain ⟨h1, h2⟩ := ih h (hnd' _)
      rw [dict_set_absent acc _ hr] at h1
      refine ⟨by rw [h1]; simp [LibMan.isoLib, ht], ?_⟩
      intro q hq
      simp only [List.mem_cons] at hq
      rcases hq with rfl | hq
      · exact Or.inl ht
      · exact h2 q hq
    | false =>
      by_cases hd : lm.default ∈ lm.libs
      · cases hdt : lm.tables lm.default r.idx with
        | true =>
          simp only [LibMan.expand, ht, LibMan.defaultHas, if_pos hd, hdt] at h
          obtain ⟨h1, h2⟩ := ih h (hnd' _)
          rw [dict_set_absent acc _ hr] at h1
          refine ⟨by rw [h1]; simp [LibMan.isoLib, ht], ?_⟩
          intro q hq
          simp only [List.mem_cons] at hq
          rcases hq with rfl | hq
          · exact Or.inr ⟨ht, hd, hdt⟩
          · exact h2 q hq
        | false => simp [LibMan.expand, ht, LibMan.defaultHas, if_pos hd, hdt] at h
      · simp [LibMan.expand, ht, LibMan.defaultHas, if_neg hd] at h

/-- **C32.** A library that is not available is refused. -/
theorem convert_unknown_lib (lm : LibMan) (zaid lib : Str) (h : lib ∉ lm.libs) :
    lm.convert zaid lib = .error .valueError := by
  simp [LibMan.convert, h]

/-- **C32.** If the requested library has a table for the zaid, the conversion is one to one. -/
theorem convert_prefers_requested (lm : LibMan) (zaid lib : Str) (h : lib ∈ lm.libs)
    (ht : lm.tables lib zaid = true) :
    lm.convert zaid lib = .ok [(zaid, some lib, 1, 1)] := by
  unfold LibMan.convert
  rw [if_neg (not_not.mpr h)]
  by_cases h0 : last3 zaid = ['0', '0', '0']
  · rw [if_pos h0, if_pos ht]
  · rw [if_neg h0, if_pos]
    simp [LibMan.check4zaid, h, ht]

theorem nodup_idx_filter {lm : LibMan} (ht : (lm.isos.map Iso.idx).Nodup) (p : Iso → Bool) :
    ((lm.isos.filter p).map Iso.idx).Nodup :=
  ht.sublist (List.Sublist.map _ List.filter_sublist)

/-- **C32.** Everything returned exists: it is a table of the requested library, or a table of the
default library for something the requested one lacks, or the zaid is left without library because
some other library of the same kind has it. -/
theorem convert_sound (lm : LibMan) (ht : (lm.isos.map Iso.idx).Nodup) {zaid lib : Str}
    {t : Translation} (h : lm.convert zaid lib = .ok t) :
    lib ∈ lm.libs ∧ ∀ p ∈ t,
      (p.2.1 = some lib ∧ lm.tables lib p.1 = true) ∨
      (p.2.1 = some lm.default ∧ lm.default ∈ lm.libs ∧ lm.tables lm.default p.1 = true ∧
        lm.tables lib p.1 = false) ∨
      (p.2.1 = none ∧ p.1 = zaid ∧ lm.tables lib zaid = false ∧ lm.tables lm.default zaid = false ∧
        ∃ l ∈ lm.libs, lm.tables l zaid = true ∧ l.getLast? = lib.getLast?) := by
  unfold LibMan.convert at h
  by_cases hl : lib ∈ lm.libs
  swap
  · rw [if_pos hl] at h; cases h
  refine ⟨hl, ?_⟩
  rw [if_neg (not_not.mpr hl)] at h
  by_cases h0 : last3 zaid = ['0', '0', '0']
  · rw [if_pos h0] at h
    by_cases htab : lm.tables lib zaid = true
    · rw [if_pos htab] at h
      simp only [Except.ok.injEq] at h
      subst h
      intro p hp
      simp only [List.mem_singleton] at hp
      subst hp
      exact Or.inl ⟨rfl, htab⟩
    · rw [if_neg htab] at h
      cases hi : parseInt (dropLast3 zaid) with
      | none => rw [hi] at h; cases h
      | some n =>
        rw [hi] at h
        obtain ⟨h1, h2⟩ := expand_ok h (by simpa [Dict.keys] using nodup_idx_filter ht _)
        intro p hp
        rw [h1] at hp
        simp only [List.nil_append, List.mem_map] at hp
        obtain ⟨r, hr, rfl⟩ := hp
        rcases h2 r hr with h3 | h3
        · exact Or.inl ⟨by simp [LibMan.isoLib, h3], h3⟩
        · exact Or.inr (Or.inl ⟨by simp [LibMan.isoLib, h3.1], h3.2.1, h3.2.2, h3.1⟩)
  · rw [if_neg h0] at h
    by_cases hc : lib ∈ lm.check4zaid zaid
    · rw [if_pos hc] at h
      simp only [Except.ok.injEq] at h
      subst h
      intro p hp
      simp only [List.mem_singleton] at hp
      subst hp
      simp only [LibMan.check4zaid, List.mem_filter] at hc
      exact Or.inl ⟨rfl, hc.2⟩
    · rw [if_neg hc] at h
      have hnt : lm.tables lib zaid = false := by
        simp only [LibMan.check4zaid, List.mem_filter, not_and, Bool.not_eq_true] at hc
        exact hc hl
      by_cases hn : lm.tables lib (dropLast3 zaid ++ ['0', '0', '0']) = true
      · rw [if_pos hn] at h
        simp only [Except.ok.injEq] at h
        subst h
        intro p hp
        simp only [List.mem_singleton] at hp
        subst hp
        exact Or.inl ⟨rfl, hn⟩
      · rw [if_neg hn] at h
        by_cases hd : lm.default ∈ lm.libs
        swap
        · simp only [LibMan.defaultHas, if_neg hd] at h; cases h
        cases hdt : lm.tables lm.default zaid with
        | true =>
          simp only [LibMan.defaultHas, if_pos hd, hdt, Except.ok.injEq] at h
          subst h
          intro p hp
          simp only [List.mem_singleton] at hp
          subst hp
          exact Or.inr (Or.inl ⟨rfl, hd, hdt, hnt⟩)
        | false =>
          simp only [LibMan.defaultHas, if_pos hd, hdt] at h
          by_cases ha : (lm.check4zaid zaid).any (fun l => sameKind l lib) = true
          · rw [if_pos ha] at h
            simp only [Except.ok.injEq] at h
            subst h
            intro p hp
            simp only [List.mem_singleton] at hp
            subst hp
            simp only [List.any_eq_true, LibMan.check4zaid, List.mem_filter, sameKind,
              decide_eq_true_eq] at ha
            obtain ⟨l, ⟨hl1, hl2⟩, hl3⟩ := ha
            exact Or.inr (Or.inr ⟨rfl, rfl, hnt, rfl, l, hl1, hl2, hl3⟩)
          · rw [if_neg ha] at h; cases h

/-- **C32.** The order of preference for an isotope: requested library, then the natural element in
the requested library, then the default library, then no library; refused only if none applies. -/
theorem convert_isotope (lm : LibMan) {zaid lib : Str} (hl : lib ∈ lm.libs)
    (hd : lm.default ∈ lm.libs) (h0 : last3 zaid ≠ ['0', '0', '0']) :
    lm.convert zaid lib =
      if lm.tables lib zaid then .ok [(zaid, some lib, 1, 1)]
      else if lm.tables lib (dropLast3 zaid ++ ['0', '0', '0']) then
        .ok [(dropLast3 zaid ++ ['0', '0', '0'], some lib, 1, 1)]
      else if lm.tables lm.default zaid then .ok [(zaid, some lm.default, 1, 1)]
      else if ∃ l ∈ lm.libs, lm.tables l zaid = true ∧ l.getLast? = lib.getLast? then
        .ok [(zaid, none, 1, 1)]
      else .error .valueError := by
  unfold LibMan.convert
  rw [if_neg (not_not.mpr hl), if_neg h0]
  have hc : lib ∈ lm.check4zaid zaid ↔ lm.tables lib zaid = true := by
    simp [LibMan.check4zaid, hl]
  simp only [hc]
  by_cases h1 : lm.tables lib zaid = true
  · simp only [if_pos h1]
  rw [if_neg h1, if_neg h1]
  by_cases h2 : lm.tables lib (dropLast3 zaid ++ ['0', '0', '0']) = true
  · simp only [if_pos h2]
  rw [if_neg h2, if_neg h2]
  simp only [LibMan.defaultHas, if_pos hd]
  cases h3 : lm.tables lm.default zaid with
  | true => simp
  | false =>
    have : ((lm.check4zaid zaid).any (fun l => sameKind l lib) = true) ↔
        ∃ l ∈ lm.libs, lm.tables l zaid = true ∧ l.getLast? = lib.getLast? := by
      simp [List.any_eq_true, LibMan.check4zaid, sameKind]
    simp only [this]
    simp

/-- **C32.** A natural element is expanded only if the requested library has no table for it, and
the expansion lists exactly the isotopes of the element, with their abundances and masses. -/
theorem convert_expansion (lm : LibMan) (ht : (lm.isos.map Iso.idx).Nodup) {zaid lib : Str}
    {t : Translation} (h : lm.convert zaid lib = .ok t) (h0 : last3 zaid = ['0', '0', '0'])
    (htab : lm.tables lib zaid = false) :
    ∃ n : ℤ, parseInt (dropLast3 zaid) = some n ∧
      t.map (fun p => (p.1, p.2.2)) =
        (lm.isos.filter (fun r => decide ((r.z : ℤ) = n))).map (fun r => (r.idx, r.ab, r.mass)) := by
  unfold LibMan.convert at h
  by_cases hl : lib ∈ lm.libs
  swap
  · rw [if_pos hl] at h; cases h
  rw [if_neg (not_not.mpr hl), if_pos h0, if_neg (by simp [htab])] at h
  cases hi : parseInt (dropLast3 zaid) with
  | none => rw [hi] at h; cases h
  | some n =>
    rw [hi] at h
    obtain ⟨h1, _⟩ := expand_ok h (by simpa [Dict.keys] using nodup_idx_filter ht _)
    refine ⟨n, rfl, ?_⟩
    rw [h1]
    simp [Function.comp_def]

/-- **C32.** More than one entry is returned only when a natural element is expanded. -/
theorem convert_many_natural (lm : LibMan) {zaid lib : Str} {t : Translation}
    (h : lm.convert zaid lib = .ok t) (hlen : t.length ≠ 1) :
    last3 zaid = ['0', '0', '0'] ∧ lm.tables lib zaid = false := by
  unfold LibMan.convert at h
  by_cases hl : lib ∈ lm.libs
  swap
  · rw [if_pos hl] at h; cases h
  rw [if_neg (not_not.mpr hl)] at h
  by_cases h0 : last3 zaid = ['0', '0', '0']
  · refine ⟨h0, ?_⟩
    rw [if_pos h0] at h
    by_contra hc
    rw [if_pos (by simpa using hc)] at h
    simp only [Except.ok.injEq] at h
    subst h; simp at hlen
  · rw [if_neg h0] at h
    exfalso
    split at h
    · cases h; simp at hlen
    split at h
    · cases h; simp at hlen
    split at h
    · cases h
    · cases h; simp at hlen
    · split at h
      · cases h; simp at hlen
      · cases h

/-! ## C28 -/

theorem parseInt_natStr (n : ℕ) : parseInt (natStr n) = some (n : ℤ) := by
  have := parseInt_intStr (n : ℤ)
  simpa [intStr] using this

theorem isotopesOf_eq (lm : LibMan) (n : ℕ) :
    lm.isos.filter (fun r => decide ((r.z : ℤ) = (n : ℤ))) = lm.isotopesOf n := by
  simp [LibMan.isotopesOf]

/-- What a zaid becomes (specification) -/
def contrib (nl : NewLib) (lm : LibMan) (z : Zaid) : List Zaid :=
  match newTag nl z with
  | .error _ => []
  | .ok tag =>
    match lm.translation z tag with
    | .ok (some t) => newZaids z.fraction t
    | _ => []

theorem translateZaids_eq {nl : NewLib} {lm : LibMan} {zs zs' : List Zaid}
    (h : translateZaids nl lm zs = .ok zs') :
    zs' = zs.flatMap (contrib nl lm) ∧ ∀ z ∈ zs, ∃ tag, newTag nl z = .ok tag ∧
      ∃ r, lm.translation z tag = .ok r := by
  induction zs generalizing zs' with
  | nil => simp only [translateZaids, Except.ok.injEq] at h; subst h; simp
  | cons z zs ih =>
    cases hn : newTag nl z with
    | error e => simp only [translateZaids, hn] at h; cases h
    | ok tag =>
      cases ht : lm.translation z tag with
      | error e => simp only [translateZaids, hn, ht] at h; cases h
      | ok r =>
        cases hr : translateZaids nl lm zs with
        | error e => simp only [translateZaids, hn, ht, hr] at h; cases h
        | ok rest =>
          obtain ⟨h1, h2⟩ := ih hr
          have hall : ∀ y ∈ z :: zs, ∃ tag, newTag nl y = .ok tag ∧
              ∃ r, lm.translation y tag = .ok r := by
            intro y hy
            simp only [List.mem_cons] at hy
            rcases hy with rfl | hy
            · exact ⟨tag, hn, r, ht⟩
            · exact h2 y hy
          cases r with
          | none =>
            simp only [translateZaids, hn, ht, hr, Except.ok.injEq] at h
            refine ⟨?_, hall⟩
            simp [contrib, hn, ht, ← h1, h]
          | some t =>
            simp only [translateZaids, hn, ht, hr, Except.ok.injEq] at h
            refine ⟨?_, hall⟩
            simp [contrib, hn, ht, ← h1, h]

theorem newZaids_sum (f : ℚ) (t : Translation) (w : Str → ℚ) (e : Str)
    (hk : ∀ p ∈ t, dropLast3 p.1 = e)
    (href : f < 0 → sumOf t (fun p => p.2.2.1 * p.2.2.2) ≠ 0) :
    sumOf (newZaids f t) (fun y => w y.element * y.fraction) =
      w e * (if f < 0 then f else sumOf t (fun p => p.2.2.1) * f) := by
  have hmul : ∀ (l : Translation) (g : Str × Option Str × ℚ × ℚ → ℚ) (c : ℚ),
      sumOf l (fun p => g p * c) = sumOf l g * c := by
    intro l g c
    induction l with
    | nil => simp
    | cons a l ih => simp [ih]; ring
  unfold newZaids
  by_cases hf : f < 0
  · rw [if_pos hf, if_pos hf, sumOf_map]
    have h1 := href hf
    have : sumOf t (fun p => w (dropLast3 p.1) *
        (p.2.2.1 * p.2.2.2 / (t.map (fun p => p.2.2.1 * p.2.2.2)).sum * f)) =
        sumOf t (fun p => p.2.2.1 * p.2.2.2 *
          (w e * f / (t.map (fun p => p.2.2.1 * p.2.2.2)).sum)) := by
      apply sumOf_congr
      intro p hp
      rw [hk p hp]; ring
    simp only at this ⊢
    rw [this, hmul]
    have h2 : (t.map (fun p => p.2.2.1 * p.2.2.2)).sum = sumOf t (fun p => p.2.2.1 * p.2.2.2) := rfl
    rw [h2]; field_simp
  · rw [if_neg hf, if_neg hf, sumOf_map]
    have : sumOf t (fun p => w (dropLast3 p.1) * (p.2.2.1 * f)) =
        sumOf t (fun p => p.2.2.1 * (w e * f)) := by
      apply sumOf_congr
      intro p hp
      rw [hk p hp]; ring
    simp only at this ⊢
    rw [this, hmul]; ring

/-- the abundance factor of the conversion of a zaid: 1 unless a natural element is expanded (proof) -/
def LibMan.factor (lm : LibMan) (z : Zaid) (n : ℕ) (tag : Str) : ℚ :=
  if z.isotope = ['0', '0', '0'] ∧ lm.tables tag z.num = false then lm.abundance n else 1

theorem sumOf_pos {α : Type} {l : List α} {h : α → ℚ} (hne : l ≠ []) (hp : ∀ a ∈ l, 0 < h a) :
    0 < sumOf l h := by
  induction l with
  | nil => exact absurd rfl hne
  | cons a l ih =>
    rw [sumOf_cons]
    have ha := hp a (by simp)
    by_cases hl : l = []
    · subst hl; simpa using ha
    · have := ih hl (fun b hb => hp b (List.mem_cons_of_mem _ hb))
      linarith

/-- All entries of a successful conversion belong to the element of the zaid, their reference mass is
positive and their abundances add up to the factor. -/
theorem convert_element (lm : LibMan) (ht : TableOk lm) {z : Zaid} {n : ℕ} {tag : Str}
    {t : Translation} (hc : Canon z) (hz : lm.IsElement z n) (h : lm.convert z.num tag = .ok t) :
    (∀ p ∈ t, dropLast3 p.1 = z.element) ∧
    sumOf t (fun p => p.2.2.1 * p.2.2.2) ≠ 0 ∧
    sumOf t (fun p => p.2.2.1) = lm.factor z n tag := by
  have h3 : z.isotope.length = 3 := by
    rcases hc.isotopeLen with h | ⟨h, _⟩
    · exact h
    · rw [hz.1] at h; exact absurd h (natStr_ne_nil n)
  by_cases hx : z.isotope = ['0', '0', '0'] ∧ lm.tables tag z.num = false
  · have h0 : last3 z.num = ['0', '0', '0'] := by rw [last3_num hc]; exact hx.1
    obtain ⟨i, hi, hmap⟩ := convert_expansion lm ht.idxNodup h h0 hx.2
    rw [dropLast3_num hc, hz.1, parseInt_natStr] at hi
    simp only [Option.some.injEq] at hi
    subst hi
    rw [isotopesOf_eq] at hmap
    refine ⟨?_, ?_, ?_⟩
    · intro p hp
      have : (p.1, p.2.2) ∈ t.map (fun p => (p.1, p.2.2)) := List.mem_map.mpr ⟨p, hp, rfl⟩
      rw [hmap] at this
      simp only [List.mem_map] at this
      obtain ⟨r, hr, he⟩ := this
      simp only [Prod.mk.injEq] at he
      simp only [LibMan.isotopesOf, List.mem_filter, decide_eq_true_eq] at hr
      obtain ⟨a, ha, _, hidx⟩ := ht.idxForm r hr.1
      rw [← he.1, hidx, hz.1, hr.2]
      simp [dropLast3, ha]
    · have : sumOf t (fun p => p.2.2.1 * p.2.2.2) =
          sumOf (t.map (fun p => (p.1, p.2.2))) (fun q => q.2.1 * q.2.2) := by rw [sumOf_map]
      rw [this, hmap, sumOf_map]
      refine ne_of_gt (sumOf_pos hz.2 ?_)
      intro r hr
      simp only [LibMan.isotopesOf, List.mem_filter] at hr
      have := ht.pos r hr.1
      exact mul_pos this.1 this.2
    · have : sumOf t (fun p => p.2.2.1) =
          sumOf (t.map (fun p => (p.1, p.2.2))) (fun q => q.2.1) := by rw [sumOf_map]
      rw [this, hmap, sumOf_map, LibMan.factor, if_pos hx]; rfl
  · have hone : ∃ k l, t = [(k, l, 1, 1)] ∧ dropLast3 k = z.element := by
      have hnat : dropLast3 (dropLast3 z.num ++ ['0', '0', '0']) = z.element := by
        rw [dropLast3_num hc]; simp [dropLast3]
      unfold LibMan.convert at h
      by_cases hl : tag ∈ lm.libs
      swap
      · rw [if_pos hl] at h; cases h
      rw [if_neg (not_not.mpr hl)] at h
      by_cases h0 : last3 z.num = ['0', '0', '0']
      · rw [if_pos h0] at h
        have hi : z.isotope = ['0', '0', '0'] := by rw [← last3_num hc]; exact h0
        have htab : lm.tables tag z.num = true := by
          by_contra hcon
          exact hx ⟨hi, by simpa using hcon⟩
        rw [if_pos htab] at h
        cases h
        exact ⟨_, _, rfl, dropLast3_num hc⟩
      · rw [if_neg h0] at h
        split at h
        · cases h; exact ⟨_, _, rfl, dropLast3_num hc⟩
        split at h
        · cases h; exact ⟨_, _, rfl, hnat⟩
        split at h
        · cases h
        · cases h; exact ⟨_, _, rfl, dropLast3_num hc⟩
        · split at h
          · cases h; exact ⟨_, _, rfl, dropLast3_num hc⟩
          · cases h
    obtain ⟨k, l, rfl, hk⟩ := hone
    refine ⟨by simpa using hk, by simp, ?_⟩
    rw [LibMan.factor, if_neg hx]; simp

/-- One zaid: everything it becomes belongs to its element and adds up to its fraction, times the
abundance factor for atom fractions. -/
theorem contrib_sum (lm : LibMan) (ht : TableOk lm) (nl : NewLib) {z : Zaid} {n : ℕ} (hc : Canon z)
    (hz : lm.IsElement z n) (w : Str → ℚ) {tag : Str} (htag : newTag nl z = .ok tag) :
    sumOf (contrib nl lm z) (fun y => w y.element * y.fraction) =
      if kept nl lm z then
        w z.element * (if z.fraction < 0 ∨ lm.isDosimetry z = true then z.fraction
          else lm.factor z n tag * z.fraction)
      else 0 := by
  by_cases hdos : lm.isDosimetry z = true
  · have h1 : lm.translation z tag = .ok (some [(z.num, z.library, 1, 1)]) := by
      simp [LibMan.translation, hdos]
    have h2 : kept nl lm z = true := by simp [kept, hdos]
    rw [if_pos h2, if_pos (Or.inr hdos)]
    simp only [contrib, htag, h1]
    rw [newZaids_sum _ _ w z.element (by simp [dropLast3_num hc]) (by simp)]
    by_cases hf : z.fraction < 0
    · rw [if_pos hf]
    · rw [if_neg hf]; simp
  · have hdos' : lm.isDosimetry z = false := by simpa using hdos
    cases hconv : lm.convert z.num tag with
    | error e =>
      have h2 : kept nl lm z = false := by simp [kept, hdos', htag, hconv]
      rw [h2]
      have : contrib nl lm z = [] := by
        simp only [contrib, htag, LibMan.translation, hdos', hconv]
        cases e <;> rfl
      rw [this]; simp
    | ok t =>
      have h2 : kept nl lm z = true := by simp [kept, hdos', htag, hconv]
      obtain ⟨h3, h4, h5⟩ := convert_element lm ht hc hz hconv
      have h1 : lm.translation z tag = .ok (some t) := by
        simp [LibMan.translation, hdos', hconv]
      rw [if_pos h2]
      simp only [contrib, htag, h1]
      rw [newZaids_sum _ _ w z.element h3 (fun _ => h4), h5]
      by_cases hf : z.fraction < 0
      · rw [if_pos hf, if_pos (Or.inl hf)]
      · rw [if_neg hf, if_neg (by simp [hf, hdos'])]

theorem translate_parts {s s' : SubMat} {nl : NewLib} {lm : LibMan} (h : s.translate nl lm = .ok s') :
    translateZaids nl lm s.zaids = .ok s'.zaids ∧ s'.elements = collapse s'.zaids ∧
      s'.header = s.header ∧ s'.keys = s.keys := by
  unfold SubMat.translate at h
  cases hz : translateZaids nl lm s.zaids with
  | error e => rw [hz] at h; cases h
  | ok zs => rw [hz] at h; cases h; exact ⟨rfl, rfl, rfl, rfl⟩

theorem sumOf_filter {α : Type} (l : List α) (p : α → Bool) (h : α → ℚ) :
    sumOf (l.filter p) h = sumOf l (fun a => if p a then h a else 0) := by
  induction l with
  | nil => rfl
  | cons a l ih => by_cases hp : p a <;> simp [hp, ih]

theorem translate_weighted_mass (lm : LibMan) (ht : TableOk lm) {s s' : SubMat} {nl : NewLib}
    (h : s.translate nl lm = .ok s') (hc : ∀ z ∈ s.zaids, Canon z)
    (hel : ∀ z ∈ s.zaids, ∃ n, lm.IsElement z n) (hneg : ∀ z ∈ s.zaids, z.fraction < 0)
    (w : Str → ℚ) :
    sumOf s'.zaids (fun y => w y.element * y.fraction) =
      sumOf (s.zaids.filter (kept nl lm)) (fun y => w y.element * y.fraction) := by
  obtain ⟨h1, h2⟩ := translateZaids_eq (translate_parts h).1
  rw [h1, sumOf_flatMap, sumOf_filter]
  apply sumOf_congr
  intro z hz
  obtain ⟨n, hn⟩ := hel z hz
  obtain ⟨tag, htag, -⟩ := h2 z hz
  rw [contrib_sum lm ht nl (hc z hz) hn w htag, if_pos (Or.inl (hneg z hz))]

/-- **C28 (mass fractions).** Translating a submaterial given in mass fractions preserves the mass of
every element that can be translated, also when natural elements are expanded into isotopes. -/
theorem translate_mass_element (lm : LibMan) (ht : TableOk lm) {s s' : SubMat} {nl : NewLib}
    (h : s.translate nl lm = .ok s') (hc : ∀ z ∈ s.zaids, Canon z)
    (hel : ∀ z ∈ s.zaids, ∃ n, lm.IsElement z n) (hneg : ∀ z ∈ s.zaids, z.fraction < 0) (e : Str) :
    elementAmount e s'.zaids = elementAmount e (s.zaids.filter (kept nl lm)) := by
  unfold elementAmount
  rw [total_filter, total_filter]
  exact translate_weighted_mass lm ht h hc hel hneg (fun x => if decide (x = e) = true then 1 else 0)

/-- **C28 (mass fractions).** … and the total mass of the zaids that can be translated. -/
theorem translate_mass_total (lm : LibMan) (ht : TableOk lm) {s s' : SubMat} {nl : NewLib}
    (h : s.translate nl lm = .ok s') (hc : ∀ z ∈ s.zaids, Canon z)
    (hel : ∀ z ∈ s.zaids, ∃ n, lm.IsElement z n) (hneg : ∀ z ∈ s.zaids, z.fraction < 0) :
    total s'.zaids = total (s.zaids.filter (kept nl lm)) := by
  have := translate_weighted_mass lm ht h hc hel hneg (fun _ => 1)
  simpa [total_eq_sumOf] using this

theorem abs_sumOf_le {α : Type} (l : List α) (g h : α → ℚ) (hle : ∀ a ∈ l, |g a| ≤ h a) :
    |sumOf l g| ≤ sumOf l h := by
  induction l with
  | nil => simp
  | cons a l ih =>
    rw [sumOf_cons, sumOf_cons]
    have h1 := hle a (by simp)
    have h2 := ih (fun b hb => hle b (List.mem_cons_of_mem _ hb))
    exact (abs_add_le _ _).trans (add_le_add h1 h2)

theorem sumOf_sub {α : Type} (l : List α) (g h : α → ℚ) :
    sumOf l g - sumOf l h = sumOf l (fun a => g a - h a) := by
  induction l with
  | nil => simp
  | cons a l ih => rw [sumOf_cons, sumOf_cons, sumOf_cons, ← ih]; ring

/-- **C28 (atom fractions).** Translating a submaterial given in atom fractions preserves the atoms of
every element up to the relative amount by which the natural abundances of the table miss one. -/
theorem translate_atom_element (lm : LibMan) (ht : TableOk lm) {s s' : SubMat} {nl : NewLib}
    (h : s.translate nl lm = .ok s') (hc : ∀ z ∈ s.zaids, Canon z) {δ : ℚ} (hδ : 0 ≤ δ)
    (hel : ∀ z ∈ s.zaids, ∃ n, lm.IsElement z n ∧ |lm.abundance n - 1| ≤ δ)
    (hpos : ∀ z ∈ s.zaids, 0 ≤ z.fraction) (e : Str) :
    |elementAmount e s'.zaids - elementAmount e (s.zaids.filter (kept nl lm))| ≤
      δ * elementAmount e (s.zaids.filter (kept nl lm)) := by
  obtain ⟨h1, h2⟩ := translateZaids_eq (translate_parts h).1
  unfold elementAmount
  rw [total_filter, total_filter, h1, sumOf_flatMap, sumOf_filter, sumOf_sub]
  have hmul : δ * sumOf s.zaids (fun a => if kept nl lm a then
      (if decide (a.element = e) = true then 1 else 0) * a.fraction else 0) =
      sumOf s.zaids (fun a => δ * (if kept nl lm a then
      (if decide (a.element = e) = true then 1 else 0) * a.fraction else 0)) := by
    generalize s.zaids = l
    induction l with
    | nil => simp
    | cons a l ih => rw [sumOf_cons, sumOf_cons, ← ih]; ring
  rw [hmul]
  apply abs_sumOf_le
  intro z hz
  obtain ⟨n, hn, hab⟩ := hel z hz
  obtain ⟨tag, htag, -⟩ := h2 z hz
  have hz0 := hpos z hz
  rw [contrib_sum lm ht nl (hc z hz) hn
    (fun x => if decide (x = e) = true then 1 else 0) htag]
  by_cases hk : kept nl lm z = true
  · simp only [if_pos hk]
    by_cases he : z.element = e
    · simp only [he, decide_true, if_true, one_mul]
      have hz0' : ¬ z.fraction < 0 := not_lt.mpr hz0
      by_cases hdos : lm.isDosimetry z = true
      · simp only [hdos, or_true, if_true]
        rw [sub_self, abs_zero]; exact mul_nonneg hδ hz0
      · rw [if_neg (by simp [hz0', hdos])]
        have : lm.factor z n tag * z.fraction - z.fraction = (lm.factor z n tag - 1) * z.fraction := by
          ring
        rw [this, abs_mul, abs_of_nonneg hz0]
        refine mul_le_mul_of_nonneg_right ?_ hz0
        unfold LibMan.factor
        split
        · exact hab
        · simpa using hδ
    · simp [he]
  · simp [hk]

/-- **C28 (atom fractions, exact tables).** With abundances that add up to one, the atoms of every
element are preserved exactly. -/
theorem translate_atom_element_exact (lm : LibMan) (ht : TableOk lm) {s s' : SubMat} {nl : NewLib}
    (h : s.translate nl lm = .ok s') (hc : ∀ z ∈ s.zaids, Canon z)
    (hel : ∀ z ∈ s.zaids, ∃ n, lm.IsElement z n ∧ lm.abundance n = 1)
    (hpos : ∀ z ∈ s.zaids, 0 ≤ z.fraction) (e : Str) :
    elementAmount e s'.zaids = elementAmount e (s.zaids.filter (kept nl lm)) := by
  have := translate_atom_element lm ht h hc (δ := 0) (le_refl 0)
    (fun z hz => by
      obtain ⟨n, hn, ha⟩ := hel z hz
      exact ⟨n, hn, by rw [ha]; simp⟩) hpos e
  rw [zero_mul] at this
  exact sub_eq_zero.mp (abs_eq_zero.mp (le_antisymm this (abs_nonneg _)))

/-- **C28.** A zaid is dropped only if its library assignment leads `convertZaid` to fail. -/
theorem translate_drops_only_unconvertible (lm : LibMan) (nl : NewLib) {z : Zaid} {tag : Str}
    (htag : newTag nl z = .ok tag) :
    kept nl lm z = false ↔ lm.isDosimetry z = false ∧ ∃ e, lm.convert z.num tag = .error e := by
  simp only [kept, htag, Bool.or_eq_false_iff]
  cases lm.convert z.num tag <;> simp

/-- **C28.** A failing translation leaves nothing half done: it fails only because a zaid has no library
assigned, or because the default library is missing. -/
theorem translate_error {s : SubMat} {nl : NewLib} {lm : LibMan} {e : PyErr}
    (h : s.translate nl lm = .error e) :
    ∃ z ∈ s.zaids, newTag nl z = .error e ∨
      (e ≠ .valueError ∧ ∃ tag, newTag nl z = .ok tag ∧ lm.convert z.num tag = .error e) := by
  unfold SubMat.translate at h
  cases hz : translateZaids nl lm s.zaids with
  | ok zs => rw [hz] at h; cases h
  | error e' =>
    rw [hz] at h
    simp only [Except.error.injEq] at h
    subst h
    revert hz
    generalize s.zaids = l
    intro hz
    induction l with
    | nil => simp [translateZaids] at hz
    | cons z l ih =>
      cases hn : newTag nl z with
      | error e =>
        simp only [translateZaids, hn, Except.error.injEq] at hz
        subst hz
        exact ⟨z, by simp, Or.inl hn⟩
      | ok tag =>
        cases ht : lm.translation z tag with
        | error e =>
          simp only [translateZaids, hn, ht, Except.error.injEq] at hz
          subst hz
          refine ⟨z, by simp, Or.inr ?_⟩
          unfold LibMan.translation at ht
          split at ht
          · cases ht
          · cases hcv : lm.convert z.num tag with
            | ok t => rw [hcv] at ht; cases ht
            | error e2 =>
              rw [hcv] at ht
              cases e2 <;> simp only [Except.error.injEq, reduceCtorEq] at ht <;> subst ht <;>
                exact ⟨by simp, tag, hn, hcv⟩
        | ok r =>
          cases hr : translateZaids nl lm l with
          | error e =>
            simp only [translateZaids, hn, ht, hr, Except.error.injEq] at hz
            subst hz
            obtain ⟨y, hy, hy'⟩ := ih hr
            exact ⟨y, List.mem_cons_of_mem _ hy, hy'⟩
          | ok rest =>
            simp only [translateZaids, hn, ht, hr] at hz
            cases r <;> cases hz

/-- **C28.** The zaids of a translated submaterial are well formed again, and each one is either an
untouched dosimetry zaid, or has a table in the library it now names, or names no library. -/
theorem translate_result (lm : LibMan) (ht : TableOk lm) {s s' : SubMat} {nl : NewLib}
    (h : s.translate nl lm = .ok s') (hc : ∀ z ∈ s.zaids, Canon z) :
    ∀ y ∈ s'.zaids, Canon y ∧
      ((∃ l ∈ lm.libs, y.library = some l ∧ lm.tables l y.num = true) ∨ y.library = none ∨
       (∃ z ∈ s.zaids, lm.isDosimetry z = true ∧ y = z)) := by
  obtain ⟨h1, h2⟩ := translateZaids_eq (translate_parts h).1
  intro y hy
  rw [h1, List.mem_flatMap] at hy
  obtain ⟨z, hz, hy⟩ := hy
  obtain ⟨tag, htag, r, hr⟩ := h2 z hz
  have hcz := hc z hz
  cases r with
  | none => simp [contrib, htag, hr] at hy
  | some t =>
    simp only [contrib, htag, hr] at hy
    by_cases hdos : lm.isDosimetry z = true
    · have : t = [(z.num, z.library, 1, 1)] := by
        simpa [LibMan.translation, hdos] using hr.symm
      subst this
      have hyz : y = z := by
        unfold newZaids at hy
        split at hy
        · simp only [List.map_cons, List.map_nil, List.mem_singleton] at hy
          rw [hy, dropLast3_num hcz, last3_num hcz]; simp
        · simp only [List.map_cons, List.map_nil, List.mem_singleton] at hy
          rw [hy, dropLast3_num hcz, last3_num hcz]; simp
      exact ⟨hyz ▸ hcz, Or.inr (Or.inr ⟨z, hz, hdos, hyz⟩)⟩
    · cases hcv : lm.convert z.num tag with
      | error e => simp only [LibMan.translation, hdos, hcv] at hr; cases e <;> cases hr
      | ok t' =>
        have : t' = t := by simpa [LibMan.translation, hdos, hcv] using hr
        subst this
        obtain ⟨htl, hs⟩ := convert_sound lm ht.idxNodup hcv
        -- the entry behind `y`
        have hent : ∃ p ∈ t', y.element = dropLast3 p.1 ∧ y.isotope = last3 p.1 ∧
            y.library = p.2.1 := by
          unfold newZaids at hy
          split at hy
          · simp only [List.mem_map] at hy
            obtain ⟨p, hp, rfl⟩ := hy
            exact ⟨p, hp, rfl, rfl, rfl⟩
          · simp only [List.mem_map] at hy
            obtain ⟨p, hp, rfl⟩ := hy
            exact ⟨p, hp, rfl, rfl, rfl⟩
        obtain ⟨p, hp, he, hi, hl⟩ := hent
        have hnum : y.num = p.1 := by
          rw [Zaid.num, he, hi, dropLast3, last3, List.take_append_drop]
        -- no dots in the keys
        have hdot : '.' ∉ p.1 := by
          rcases Classical.em (last3 z.num = ['0', '0', '0'] ∧ lm.tables tag z.num = false) with hx | hx
          · obtain ⟨i, -, hmap⟩ := convert_expansion lm ht.idxNodup hcv hx.1 hx.2
            have : (p.1, p.2.2) ∈ t'.map (fun p => (p.1, p.2.2)) := List.mem_map.mpr ⟨p, hp, rfl⟩
            rw [hmap] at this
            simp only [List.mem_map] at this
            obtain ⟨r, hr', hre⟩ := this
            simp only [Prod.mk.injEq] at hre
            obtain ⟨a, -, ha, hidx⟩ := ht.idxForm r (List.mem_filter.mp hr').1
            rw [← hre.1, hidx, List.mem_append, not_or]
            refine ⟨?_, ha⟩
            intro hm
            have := natStr_all_digit r.z _ hm
            revert this; decide
          · have hlen : t'.length = 1 := by
              by_contra hlen
              exact hx (convert_many_natural lm hcv hlen)
            have hn := num_noDot hcz
            have hn2 : '.' ∉ dropLast3 z.num ++ ['0', '0', '0'] := by
              rw [dropLast3_num hcz, List.mem_append, not_or]
              exact ⟨hcz.elementDot, by decide⟩
            unfold LibMan.convert at hcv
            rw [if_neg (not_not.mpr htl)] at hcv
            by_cases h0 : last3 z.num = ['0', '0', '0']
            · rw [if_pos h0] at hcv
              have : lm.tables tag z.num = true := by
                by_contra hcon; exact hx ⟨h0, by simpa using hcon⟩
              rw [if_pos this] at hcv
              cases hcv
              simp only [List.mem_singleton] at hp; subst hp; exact hn
            · rw [if_neg h0] at hcv
              split at hcv
              · cases hcv; simp only [List.mem_singleton] at hp; subst hp; exact hn
              split at hcv
              · cases hcv; simp only [List.mem_singleton] at hp; subst hp; exact hn2
              split at hcv
              · cases hcv
              · cases hcv; simp only [List.mem_singleton] at hp; subst hp; exact hn
              · split at hcv
                · cases hcv; simp only [List.mem_singleton] at hp; subst hp; exact hn
                · cases hcv
        have hcanon : Canon y := by
          refine ⟨?_, ?_, ?_, ?_⟩
          · rw [he]; exact fun hm => hdot (List.mem_of_mem_take hm)
          · rw [hi]; exact fun hm => hdot (List.mem_of_mem_drop hm)
          · intro l hyl
            rw [hl] at hyl
            rcases hs p hp with h3 | h3 | h3
            · rw [h3.1] at hyl; cases hyl; exact ht.libsDot _ htl
            · rw [h3.1] at hyl; cases hyl; exact ht.libsDot _ h3.2.1
            · rw [h3.1] at hyl; cases hyl
          · rw [he, hi]
            by_cases h3 : 3 ≤ p.1.length
            · left; simp [last3]; omega
            · right
              have : p.1.length - 3 = 0 := by omega
              simp only [dropLast3, last3, this, List.take_zero, List.drop_zero, true_and]
              omega
        refine ⟨hcanon, ?_⟩
        rcases hs p hp with h3 | h3 | h3
        · exact Or.inl ⟨tag, htl, by rw [hl, h3.1], by rw [hnum]; exact h3.2⟩
        · exact Or.inl ⟨_, h3.2.1, by rw [hl, h3.1], by rw [hnum]; exact h3.2.2.1⟩
        · exact Or.inr (Or.inl (by rw [hl, h3.1]))

/-- **C28.** The isotopes of an expanded natural element share its fraction in proportion to
abundance (atom fractions) or to abundance times mass (mass fractions). -/
theorem expansion_shares (lm : LibMan) (ht : TableOk lm) {z : Zaid} {n : ℕ} {tag : Str}
    {t : Translation} (hc : Canon z) (hz : lm.IsElement z n) (hnat : z.isotope = ['0', '0', '0'])
    (htab : lm.tables tag z.num = false) (h : lm.convert z.num tag = .ok t) :
    (newZaids z.fraction t).map (fun y => (y.num, y.fraction)) =
      (lm.isotopesOf n).map (fun r => (r.idx,
        if z.fraction < 0 then
          r.ab * r.mass / ((lm.isotopesOf n).map (fun q => q.ab * q.mass)).sum * z.fraction
        else r.ab * z.fraction)) := by
  have h0 : last3 z.num = ['0', '0', '0'] := by rw [last3_num hc]; exact hnat
  obtain ⟨i, hi, hmap⟩ := convert_expansion lm ht.idxNodup h h0 htab
  rw [dropLast3_num hc, hz.1, parseInt_natStr] at hi
  simp only [Option.some.injEq] at hi
  subst hi
  rw [isotopesOf_eq] at hmap
  have hsum : (t.map (fun p => p.2.2.1 * p.2.2.2)).sum =
      ((lm.isotopesOf n).map (fun q => q.ab * q.mass)).sum := by
    have : t.map (fun p => p.2.2.1 * p.2.2.2) =
        (t.map (fun p => (p.1, p.2.2))).map (fun q => q.2.1 * q.2.2) := by
      rw [List.map_map]; rfl
    rw [this, hmap, List.map_map]; rfl
  have hnum : ∀ (f : ℚ) (k : Str) (l : Option Str),
      (⟨f, dropLast3 k, last3 k, l⟩ : Zaid).num = k := by
    intro f k l
    simp [Zaid.num, dropLast3, last3]
  unfold newZaids
  by_cases hf : z.fraction < 0
  · simp only [if_pos hf, List.map_map, hsum]
    have : ∀ (l : List Iso) (t : Translation),
        t.map (fun p => (p.1, p.2.2)) = l.map (fun r => (r.idx, r.ab, r.mass)) → ∀ c : ℚ,
        t.map ((fun y : Zaid => (y.num, y.fraction)) ∘
          (fun p => (⟨p.2.2.1 * p.2.2.2 / c * z.fraction, dropLast3 p.1, last3 p.1, p.2.1⟩ : Zaid))) =
        l.map (fun r => (r.idx, r.ab * r.mass / c * z.fraction)) := by
      intro l t hlt c
      have h1 : t.map ((fun y : Zaid => (y.num, y.fraction)) ∘
          (fun p => (⟨p.2.2.1 * p.2.2.2 / c * z.fraction, dropLast3 p.1, last3 p.1, p.2.1⟩ : Zaid))) =
          (t.map (fun p => (p.1, p.2.2))).map (fun q => (q.1, q.2.1 * q.2.2 / c * z.fraction)) := by
        rw [List.map_map]
        apply List.map_congr_left
        intro p _
        simp only [Function.comp, hnum]
      rw [h1, hlt, List.map_map]; rfl
    exact this _ _ hmap _
  · simp only [if_neg hf, List.map_map]
    have h1 : t.map ((fun y : Zaid => (y.num, y.fraction)) ∘
        (fun p => (⟨p.2.2.1 * z.fraction, dropLast3 p.1, last3 p.1, p.2.1⟩ : Zaid))) =
        (t.map (fun p => (p.1, p.2.2))).map (fun q => (q.1, q.2.1 * z.fraction)) := by
      rw [List.map_map]
      apply List.map_congr_left
      intro p _
      simp only [Function.comp, hnum]
    rw [h1, hmap, List.map_map]; rfl

/-- **C28.** What is written after a translation is what the translated zaid list adds up to: the same
total for every name. -/
theorem translate_written (lm : LibMan) (ht : TableOk lm) {s s' : SubMat} {nl : NewLib}
    (h : s.translate nl lm = .ok s') (hc : ∀ z ∈ s.zaids, Canon z) (n : Str) :
    amount n s'.written = amount n s'.zaids := by
  unfold SubMat.written
  rw [(translate_parts h).2.1]
  exact collapse_amount (fun y hy => (translate_result lm ht h hc y hy).1) n

/-- **C54.** Translating a submaterial to a library that is not available is not refused: every zaid
outside the dosimetry libraries is dropped. -/
theorem translate_unknown_library (lm : LibMan) (s : SubMat) (hc : ∀ z ∈ s.zaids, Canon z) {lib : Str}
    (h : lib ∉ lm.libs) :
    ∃ s', s.translate (.one lib) lm = .ok s' ∧ s'.zaids = s.zaids.filter lm.isDosimetry := by
  have key : ∀ zs : List Zaid, (∀ z ∈ zs, Canon z) →
      translateZaids (.one lib) lm zs = .ok (zs.filter lm.isDosimetry) := by
    intro zs
    induction zs with
    | nil => intro _; rfl
    | cons z zs ih =>
      intro hcs
      have hcz := hcs z (by simp)
      have ih' := ih (fun y hy => hcs y (List.mem_cons_of_mem _ hy))
      by_cases hd : lm.isDosimetry z = true
      · have h1 : lm.translation z lib = .ok (some [(z.num, z.library, 1, 1)]) := by
          simp [LibMan.translation, hd]
        simp only [translateZaids, newTag, h1, ih', List.filter_cons, hd, if_true]
        congr 1
        unfold newZaids
        split <;> simp [dropLast3_num hcz, last3_num hcz]
      · have h1 : lm.translation z lib = .ok none := by
          simp [LibMan.translation, hd, convert_unknown_lib lm z.num lib h]
        simp only [translateZaids, newTag, h1, ih', List.filter_cons, hd]
        simp
  refine ⟨{ s with zaids := s.zaids.filter lm.isDosimetry,
                   elements := collapse (s.zaids.filter lm.isDosimetry) }, ?_, rfl⟩
  simp only [SubMat.translate, key s.zaids hc]

/-- **C54.** A natural zaid of an element that the isotope table does not know disappears without even
a warning. -/
theorem convert_unknown_element (lm : LibMan) {zaid lib : Str} {n : ℤ} (hl : lib ∈ lm.libs)
    (h0 : last3 zaid = ['0', '0', '0']) (ht : lm.tables lib zaid = false)
    (hn : parseInt (dropLast3 zaid) = some n) (hno : ∀ r ∈ lm.isos, (r.z : ℤ) ≠ n) :
    lm.convert zaid lib = .ok [] := by
  unfold LibMan.convert
  rw [if_neg (not_not.mpr hl), if_pos h0, if_neg (by simp [ht]), hn]
  have : lm.isos.filter (fun r => decide ((r.z : ℤ) = n)) = [] := by
    rw [List.filter_eq_nil_iff]; intro r hr; simpa using hno r hr
  simp [this, LibMan.expand]

/-! ### a concrete case -/

/-- A small library manager: library `31c` lacks natural lithium and O17. (example) -/
def sampleLib : LibMan where
  libs := ["31c".toList, "81c".toList, "03p".toList]
  tables := fun l z =>
    (decide (l = "31c".toList) && ["1001".toList, "3006".toList, "8016".toList].contains z) ||
    (decide (l = "81c".toList) && ["3007".toList, "1001".toList].contains z)
  isos := [⟨"1001".toList, 1, "H".toList, 9 / 10, 1⟩, ⟨"1002".toList, 1, "H".toList, 1 / 10, 2⟩,
    ⟨"3006".toList, 3, "Li".toList, 1 / 10, 6⟩, ⟨"3007".toList, 3, "Li".toList, 9 / 10, 7⟩,
    ⟨"8016".toList, 8, "O".toList, 1, 16⟩]
  default := "81c".toList
  dosimetry := ["24y".toList]

theorem sampleLib_ok : TableOk sampleLib where
  idxNodup := by decide +kernel
  idxForm := by
    intro r hr
    refine ⟨last3 r.idx, ?_⟩
    revert r; decide +kernel
  pos := by decide +kernel
  libsDot := by decide +kernel

/-- Natural lithium, hydrogen and a dosimetry zaid, by mass. (example) -/
def sampleSub : SubMat := mkSub
  [⟨-7 / 10, "3".toList, "000".toList, some "24c".toList⟩,
   ⟨-2 / 10, "1".toList, "001".toList, none⟩,
   ⟨-1 / 10, "8".toList, "016".toList, some "24y".toList⟩,
   ⟨-3 / 10, "8".toList, "018".toList, some "21c".toList⟩] none []

theorem sampleSub_translate :
    (sampleSub.translate (.one "31c".toList) sampleLib).map SubMat.zaids = .ok
      [⟨-7 / 115, "3".toList, "006".toList, some "31c".toList⟩,
       ⟨-147 / 230, "3".toList, "007".toList, some "81c".toList⟩,
       ⟨-2 / 10, "1".toList, "001".toList, some "31c".toList⟩,
       ⟨-1 / 10, "8".toList, "016".toList, some "24y".toList⟩] := by decide +kernel

/-- The hypotheses of the C28 theorems hold for the case above. -/
theorem sampleSub_hyps : (∀ z ∈ sampleSub.zaids, Canon z) ∧
    (∀ z ∈ sampleSub.zaids, ∃ n, sampleLib.IsElement z n) ∧
    (∀ z ∈ sampleSub.zaids, z.fraction < 0) ∧
    sampleSub.zaids.filter (kept (.one "31c".toList) sampleLib) ≠ sampleSub.zaids := by
  refine ⟨?_, ?_, by decide +kernel, by decide +kernel⟩
  · intro z hz
    simp only [sampleSub, mkSub, List.mem_cons, List.not_mem_nil, or_false] at hz
    rcases hz with rfl | rfl | rfl | rfl <;>
      exact ⟨by decide, by decide, (by intro l hl; first | (cases hl; decide) | cases hl), by decide⟩
  · intro z hz
    simp only [sampleSub, mkSub, List.mem_cons, List.not_mem_nil, or_false] at hz
    rcases hz with rfl | rfl | rfl | rfl
    · exact ⟨3, by decide +kernel, by decide +kernel⟩
    · exact ⟨1, by decide +kernel, by decide +kernel⟩
    · exact ⟨8, by decide +kernel, by decide +kernel⟩
    · exact ⟨8, by decide +kernel, by decide +kernel⟩

end F4Enix.Mat
