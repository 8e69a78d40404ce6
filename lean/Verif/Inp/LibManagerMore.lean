import Verif.Inp.LibManagerProps
import Verif.Base.TextLemmas
/-!
# Zaids of a library (C157), OpenMC directories (C158), Serpent directories (C159)
-/
namespace F4Enix.LibM
open F4Enix F4Enix.Xs

/-! ### C157 -/

/-- every table is named by a zaid without a dot, a dot and a suffix of three characters (specification) -/
def PlainNames (x : Xsdir) : Prop := ∀ t ∈ x.tables, ∃ z s, t.name = z ++ '.' :: s ∧ s.length = 3 ∧ '.' ∉ s ∧ '.' ∉ z

theorem PlainNames.ok {x : Xsdir} (h : PlainNames x) : NamesOk x := by
  intro t ht
  obtain ⟨z, s, a, b, c, -⟩ := h t ht
  exact ⟨z, s, a, b, c⟩

theorem mem_addNew (zs l : List Str) (z : Str) : z ∈ zs.foldl addNew l ↔ z ∈ l ∨ z ∈ zs := by
  induction zs generalizing l with
  | nil => simp
  | cons a zs ih =>
    rw [List.foldl_cons, ih]
    unfold addNew
    by_cases h : a ∈ l
    · rw [if_pos h]
      simp only [List.mem_cons]
      constructor
      · rintro (h1 | h1) <;> simp [h1]
      · rintro (h1 | rfl | h1)
        · exact Or.inl h1
        · exact Or.inl h
        · exact Or.inr h1
    · rw [if_neg h]
      simp [or_assoc]

theorem nodup_addNew (zs l : List Str) (h : l.Nodup) : (zs.foldl addNew l).Nodup := by
  induction zs generalizing l with
  | nil => exact h
  | cons a zs ih =>
    rw [List.foldl_cons]
    refine ih _ ?_
    unfold addNew
    by_cases ha : a ∈ l
    · rw [if_pos ha]; exact h
    · rw [if_neg ha, List.nodup_append]
      refine ⟨h, by simp, ?_⟩
      intro x hx y hy
      simp only [List.mem_singleton] at hy
      subst hy
      rintro rfl
      exact ha hx

/-- **C157 (zaids of a library).** For a directory whose tables have plain names, the zaids listed for a library are exactly those with a table
`zaid.library` in its directory, each once. -/
theorem libzaids_exact {data : Dict Str (Dict Str Xsdir)} {d : Dict Str Xsdir} {x : Xsdir} {code lib : Str} (hc : Dict.get? data code = some d)
    (hl : Dict.get? d lib = some x) (hx : PlainNames x) (hlib : '.' ∉ lib) :
    (getLibzaids data lib code).Nodup ∧ ∀ z, z ∈ getLibzaids data lib code ↔ ∃ t ∈ x.tables, t.name = z ++ '.' :: lib := by
  unfold getLibzaids
  rw [hc]
  simp only [hl]
  refine ⟨nodup_addNew _ _ List.nodup_nil, ?_⟩
  intro z
  rw [mem_addNew]
  simp only [List.not_mem_nil, false_or, List.mem_map]
  constructor
  · rintro ⟨t, ht, rfl⟩
    obtain ⟨hm, z', hz⟩ := ((lookup_lib hx.ok lib hlib).1 t).1 ht
    obtain ⟨a, s, hn, -, hs, ha⟩ := hx t hm
    have hlast : lib = s := by rw [← lastPart_eq (z := z') hlib, ← hz, hn, lastPart_eq hs]
    subst hlast
    refine ⟨t, hm, ?_⟩
    unfold firstPart
    rw [hn, takeDot ha]
  · rintro ⟨t, hm, hn⟩
    refine ⟨t, ((lookup_lib hx.ok lib hlib).1 t).2 ⟨hm, z, hn⟩, ?_⟩
    obtain ⟨a, s, hn', -, hs, ha⟩ := hx t hm
    have hlast : lib = s := by rw [← lastPart_eq (z := z) hlib, ← hn, hn', lastPart_eq hs]
    subst hlast
    unfold firstPart
    rw [hn', takeDot ha]
    rw [hn'] at hn
    exact List.append_cancel_right hn

/-- **C157 (libraries of a zaid).** The libraries listed for a zaid are, in order, exactly those whose directory has a table `zaid.library`. -/
theorem check_exact {data : Dict Str (Dict Str Xsdir)} {d : Dict Str Xsdir} {code : Str} (hmt : code ∈ mcnpType) (hc : Dict.get? data code = some d)
    (hw : Dict.WF d) (hx : ∀ l x, Dict.get? d l = some x → PlainNames x ∧ l.length = 3) (z : Str) :
    ∃ ls, check4zaid data z code = .ok ls ∧ ls.Sublist (Dict.keys d) ∧
      ∀ lib, lib ∈ ls ↔ ∃ x, Dict.get? d lib = some x ∧ ∃ t ∈ x.tables, t.name = z ++ '.' :: lib := by
  refine ⟨_, by unfold check4zaid; rw [if_pos hmt, hc], ?_, ?_⟩
  · exact List.filter_sublist.map _
  · intro lib
    rw [List.mem_map]
    constructor
    · rintro ⟨⟨l, x⟩, hm, rfl⟩
      obtain ⟨h1, h2⟩ := List.mem_filter.1 hm
      have hg := Dict.get?_of_mem hw h1
      obtain ⟨hp, hlen⟩ := hx _ _ hg
      exact ⟨x, hg, ((lookup_exact_partial hp.ok z l hlen).1).1 h2⟩
    · rintro ⟨x, hg, ht⟩
      obtain ⟨hp, hlen⟩ := hx _ _ hg
      exact ⟨(lib, x), List.mem_filter.2 ⟨Dict.mem_of_get? hg, ((lookup_exact_partial hp.ok z lib hlen).1).2 ht⟩, rfl⟩

/-- **C157 (agreement).** A zaid is listed for a library exactly if the library is listed for the zaid. -/
theorem check_libzaids {data : Dict Str (Dict Str Xsdir)} {d : Dict Str Xsdir} {code : Str} (hmt : code ∈ mcnpType) (hc : Dict.get? data code = some d)
    (hw : Dict.WF d) (hx : ∀ l x, Dict.get? d l = some x → PlainNames x ∧ l.length = 3 ∧ '.' ∉ l) (z lib : Str) :
    z ∈ getLibzaids data lib code ↔ ∃ ls, check4zaid data z code = .ok ls ∧ lib ∈ ls := by
  obtain ⟨ls, e, -, h⟩ := check_exact hmt hc hw (fun l x hg => ⟨(hx l x hg).1, (hx l x hg).2.1⟩) z
  constructor
  · intro hz
    refine ⟨ls, e, (h lib).2 ?_⟩
    cases hg : Dict.get? d lib with
    | none =>
      unfold getLibzaids at hz
      rw [hc] at hz
      simp [hg] at hz
    | some x => exact ⟨x, rfl, ((libzaids_exact hc hg (hx lib x hg).1 (hx lib x hg).2.2).2 z).1 hz⟩
  · rintro ⟨ls', e', hm⟩
    rw [e, Except.ok.injEq] at e'
    subst e'
    obtain ⟨x, hg, ht⟩ := (h lib).1 hm
    exact ((libzaids_exact hc hg (hx lib x hg).1 (hx lib x hg).2.2).2 z).2 ht

/-- **C157 (libraries of several codes).** A library is available exactly if it is offered for all the codes asked for; an unknown code is an error. -/
theorem available_iff (data : Dict Str (Dict Str Xsdir)) (lib : Str) (codes : List Str) :
    (∀ b, isLibAvailable data lib codes = .ok b → (b = true ↔ ∀ c ∈ codes, ∃ ls, librariesOf data c = some ls ∧ lib ∈ ls)) ∧
    ((∃ c ∈ codes, Dict.get? data c = none) ↔ isLibAvailable data lib codes = .error .keyError) := by
  induction codes with
  | nil =>
    refine ⟨?_, by simp [isLibAvailable]⟩
    intro b h
    simp only [isLibAvailable, Except.ok.injEq] at h
    simp [← h]
  | cons c cs ih =>
    rw [isLibAvailable.eq_def]
    simp only
    cases hc : Dict.get? data c with
    | none => exact ⟨by intro b h; simp at h, by simp [hc]⟩
    | some d =>
      simp only
      have hlib : librariesOf data c = some (Dict.keys d) := by unfold librariesOf; rw [hc]; rfl
      cases hr : isLibAvailable data lib cs with
      | error e =>
        simp only [reduceCtorEq, IsEmpty.forall_iff, implies_true, Except.error.injEq, true_and]
        rw [hr] at ih
        have h2 := ih.2
        simp only [Except.error.injEq] at h2
        rw [← h2]
        simp [hc]
      | ok b =>
        rw [hr] at ih
        refine ⟨?_, ?_⟩
        · intro b' h
          simp only [Except.ok.injEq] at h
          have h1 := ih.1 b rfl
          rw [← h, Bool.and_eq_true, h1, Dict.has_iff]
          simp only [List.mem_cons, forall_eq_or_imp, hlib, Option.some.injEq, exists_eq_left']
          exact And.comm
        · have h2 := ih.2
          simp only [reduceCtorEq, iff_false] at h2 ⊢
          rintro ⟨x, hx, hn⟩
          rcases List.mem_cons.1 hx with rfl | hx
          · rw [hc] at hn; simp at hn
          · exact h2 ⟨x, hx, hn⟩

/-! ### C158 -/

/-- **C158 is false of the code**: whatever the file of an OpenMC library holds, its directory has no table. -/
theorem openmc_empty {fz : Str → Except PyErr Str} {lines : List Str} {lib : Str} {x : Xsdir} (h : openmcRead fz lines lib = .ok x) :
    x.tables = [] := by
  unfold openmcRead at h
  split at h
  · simp at h
  · simp only [Except.ok.injEq] at h
    rw [← h]

theorem loadRows_openmc {op : Str → Str → Except PyErr Xsdir} {omc : Str → Str → Except PyErr Xsdir}
    (hom : ∀ p lib x, omc p lib = .ok x → x.tables = []) : ∀ (rows : List (Str × Cell)) (st st' : St) (d d' : Dict Str Xsdir),
    (∀ l x, Dict.get? d l = some x → x.tables = []) → loadRows op omc "openmc".toList rows st d = .ok (st', d') →
    ∀ l x, Dict.get? d' l = some x → x.tables = [] := by
  intro rows
  induction rows with
  | nil =>
    intro st st' d d' hd h
    simp only [loadRows, Except.ok.injEq, Prod.mk.injEq] at h
    rw [← h.2]; exact hd
  | cons r rows ih =>
    obtain ⟨lib, c⟩ := r
    intro st st' d d' hd h
    rw [loadRows.eq_def] at h
    simp only at h
    cases hr : loadRow op omc "openmc".toList lib c st d with
    | error e => rw [hr] at h; simp at h
    | ok q =>
      obtain ⟨st1, d1⟩ := q
      rw [hr] at h
      simp only at h
      refine ih st1 st' d1 d' ?_ h
      unfold loadRow at hr
      have hno : "openmc".toList ∉ mcnpType := by decide
      cases c with
      | none => simp only [Except.ok.injEq, Prod.mk.injEq] at hr; rw [← hr.2]; exact hd
      | nan => simp at hr
      | text p =>
        simp only at hr
        rw [if_neg hno, if_pos trivial] at hr
        split at hr
        · simp only [Except.ok.injEq, Prod.mk.injEq] at hr; rw [← hr.2]; exact hd
        · split at hr
          · simp at hr
          · rename_i x hx
            simp only [Except.ok.injEq, Prod.mk.injEq] at hr
            rw [← hr.2]
            intro l y hy
            rw [Dict.get?_set] at hy
            split at hy
            · simp only [Option.some.injEq] at hy
              rw [← hy]; exact hom p lib x hx
            · exact hd l y hy

/-- **C158 is false of the code (its effect)**: `get_libzaids` finds no zaid in any OpenMC library of a manager built from a table. -/
theorem openmc_no_zaids {op : Str → Str → Except PyErr Xsdir} {fz : Str → Except PyErr Str} {files : Str → Option (List Str)}
    {cfg : List (Str × List (Str × Cell))} {data : Dict Str (Dict Str Xsdir)}
    (h : initTable op (fun p lib => match files p with | none => .error .ioError | some ls => openmcRead fz ls lib) cfg = .ok data)
    (lib : Str) : getLibzaids data lib "openmc".toList = [] := by
  have hom : ∀ p lib x, (fun p lib => match files p with | none => Except.error PyErr.ioError | some ls => openmcRead fz ls lib) p lib = .ok x →
      x.tables = [] := by
    intro p lib x hx
    simp only at hx
    cases hf : files p with
    | none => rw [hf] at hx; simp at hx
    | some ls => rw [hf] at hx; exact openmc_empty hx
  have key : ∀ (cfg : List (Str × List (Str × Cell))) (st : St) (data data' : Dict Str (Dict Str Xsdir)),
      (∀ d, Dict.get? data "openmc".toList = some d → ∀ l x, Dict.get? d l = some x → x.tables = []) →
      loadCodes op (fun p lib => match files p with | none => Except.error PyErr.ioError | some ls => openmcRead fz ls lib) cfg st data = .ok data' →
      ∀ d, Dict.get? data' "openmc".toList = some d → ∀ l x, Dict.get? d l = some x → x.tables = [] := by
    intro cfg
    induction cfg with
    | nil =>
      intro st data data' hd h
      simp only [loadCodes, Except.ok.injEq] at h
      rw [← h]; exact hd
    | cons r cfg ih =>
      obtain ⟨code, rows⟩ := r
      intro st data data' hd h
      rw [loadCodes.eq_def] at h
      simp only at h
      split at h
      · simp at h
      · rename_i st1 d1 hr
        refine ih st1 _ data' ?_ h
        intro d hg
        rw [Dict.get?_set] at hg
        split at hg
        · rename_i e
          simp only [Option.some.injEq] at hg
          subst hg
          subst e
          exact loadRows_openmc hom rows st st1 [] _ (by simp) hr
        · exact hd d hg
  have hall := key cfg _ [] data (by simp) h
  unfold getLibzaids
  cases hc : Dict.get? data "openmc".toList with
  | none => rfl
  | some d =>
    simp only
    cases hl : Dict.get? d lib with
    | none => rfl
    | some x =>
      simp only
      have : x.tables = [] := hall d hc lib x hl
      unfold findZaids
      rw [this]
      rfl

/-- one OpenMC file, with one nuclide, read without an error -/
example : openmcRead (fun _ => .ok "1001".toList)
    ["<cross_sections>".toList, "  <library materials=\"H1\" path=\"H1.h5\" type=\"neutron\" />".toList] "31c".toList = .ok ⟨none, [], []⟩ ∧
    openmcLines (fun _ => .ok "1001".toList) "31c".toList
      ["<cross_sections>".toList, "  <library materials=\"H1\" path=\"H1.h5\" type=\"neutron\" />".toList] =
      .ok [("1001.31c".toList, "H1.h5".toList)] := by decide +kernel

end F4Enix.LibM
