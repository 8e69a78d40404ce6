import Verif.Inp.SerpentProps
/-!
# The library manager: default library, shared paths, concrete cases (C156, C157)
-/
namespace F4Enix.LibM
open F4Enix F4Enix.Xs

/-- **C156 (default).** The default library is the one given; else that of the first row marked `yes`; else `81c`. -/
theorem default_exact (given : Option Str) (rows : List (Str × Str)) :
    (∀ l, given = some l → defaultLib given rows = l) ∧
    (given = none → (∃ before after s, rows = before ++ (s, "yes".toList) :: after ∧ (∀ r ∈ before, r.2 ≠ "yes".toList) ∧
        defaultLib given rows = s) ∨ ((∀ r ∈ rows, r.2 ≠ "yes".toList) ∧ defaultLib given rows = "81c".toList)) := by
  refine ⟨?_, ?_⟩
  · rintro l rfl; rfl
  · rintro rfl
    unfold defaultLib
    simp only
    induction rows with
    | nil => right; exact ⟨by simp, rfl⟩
    | cons r rows ih =>
      obtain ⟨s, v⟩ := r
      rw [List.find?_cons]
      by_cases hv : v = "yes".toList
      · left
        refine ⟨[], rows, s, by rw [hv]; rfl, by simp, ?_⟩
        rw [show decide ((s, v).2 = "yes".toList) = true from decide_eq_true hv]
      · rw [show decide ((s, v).2 = "yes".toList) = false from decide_eq_false hv]
        simp only
        rcases ih with ⟨b, a, t, e, hb, hd⟩ | ⟨hn, hd⟩
        · left
          refine ⟨(s, v) :: b, a, t, by rw [e]; rfl, ?_, hd⟩
          intro r hr
          rcases List.mem_cons.1 hr with rfl | hr
          · exact hv
          · exact hb r hr
        · right
          refine ⟨?_, hd⟩
          intro r hr
          rcases List.mem_cons.1 hr with rfl | hr
          · exact hv
          · exact hn r hr

/-- **C156 is false of the code (shared paths)**: if the first path of a code is the last path of the code before it, the file is not read as a
directory of its own code; the directory of the code before it is used. -/
theorem shared_path {op omc : Str → Str → Except PyErr Xsdir} {c1 c2 l1 l2 p : Str} {x : Xsdir} (h1 : c1 ∈ mcnpType) (h2 : c2 ∈ mcnpType)
    (hp : p ≠ [] ∧ p ≠ "dummy".toList) (hx : op c1 p = .ok x) (hs : HasSuffix x l2) :
    ∃ data, initTable op omc [(c1, [(l1, .text p)]), (c2, [(l2, .text p)])] = .ok data ∧
      (Dict.get? data c2).map (fun d => (Dict.get? d l2).map (fun y => y = x)) = some (some True) := by
  have ht : x.tables ≠ [] := by
    obtain ⟨t, ht, -⟩ := hs
    exact List.ne_nil_of_mem ht
  have hl := (mem_libs x l2).2 hs
  have ho : openAt op c1 p ⟨some "dummy".toList, none⟩ = .ok ⟨some p, some (x, (tablenames x).map Prod.snd)⟩ := by
    unfold openAt
    rw [if_pos (by simpa using fun e => hp.2 e.symm), hx]
    simp only [libsOf, if_neg ht]
  have ho2 : openAt op c2 p ⟨some p, some (x, (tablenames x).map Prod.snd)⟩ = .ok ⟨some p, some (x, (tablenames x).map Prod.snd)⟩ := by
    unfold openAt
    rw [if_neg (by simp)]
  have hr1 : ∃ d, loadRow op omc c1 l1 (.text p) ⟨some "dummy".toList, none⟩ [] = .ok (⟨some p, some (x, (tablenames x).map Prod.snd)⟩, d) := by
    unfold loadRow
    simp only [if_neg hp.1, if_pos h1, ho]
    split
    · exact ⟨_, rfl⟩
    · exact ⟨_, rfl⟩
  obtain ⟨d1, hr1⟩ := hr1
  have hr2 : loadRow op omc c2 l2 (.text p) ⟨some p, some (x, (tablenames x).map Prod.snd)⟩ [] =
      .ok (⟨some p, some (x, (tablenames x).map Prod.snd)⟩, [(l2, x)]) := by
    unfold loadRow
    simp only [if_neg hp.1, if_pos h2, ho2, if_pos hl]
    rfl
  refine ⟨Dict.set (Dict.set [] c1 d1) c2 [(l2, x)], ?_, ?_⟩
  · unfold initTable
    simp only [loadCodes, loadRows, hr1, hr2]
  · rw [Dict.get?_set_self]
    simp [Dict.get?]

/-! ### A concrete case -/

/-- a directory with three tables (example) -/
def exDir : Xsdir := ⟨none, [], [exTab "1001.31c".toList, exTab "1002.31c".toList, exTab "1001.80c".toList]⟩
/-- another (example) -/
def exDir2 : Xsdir := ⟨none, [], [exTab "26056.70c".toList]⟩

/-- the files (example) -/
def exOpen (p : Str) : Except PyErr Xsdir :=
  if p = "a".toList then .ok exDir else if p = "b".toList then .ok exDir2 else .error .ioError

/-- `31c`, `21c` (not in its file) and `70c`, and `80c` without a path for MCNP; another column for D1S (example) -/
def exCfg : List (Str × List (Str × Cell)) :=
  [("mcnp".toList, [("31c".toList, .text "a".toList), ("21c".toList, .text "a".toList), ("70c".toList, .text "b".toList), ("80c".toList, .none)]),
   ("d1s".toList, [("31c".toList, .none), ("21c".toList, .none), ("70c".toList, .text []), ("80c".toList, .text "a".toList)])]

/-- what the manager holds (example) -/
def exData : Dict Str (Dict Str Xsdir) :=
  [("mcnp".toList, [("31c".toList, exDir), ("70c".toList, exDir2)]), ("d1s".toList, [("80c".toList, exDir)])]

example : OneWay (fun _ => exOpen) exOpen exCfg := by
  intro code rows hm _ l p hr
  refine ⟨rfl, ?_⟩
  simp only [exCfg, List.mem_cons, List.not_mem_nil, or_false, Prod.mk.injEq] at hm
  have key : p = "a".toList ∨ p = "b".toList ∨ p = [] := by
    rcases hm with ⟨-, rfl⟩ | ⟨-, rfl⟩ <;>
      · simp only [List.mem_cons, List.not_mem_nil, or_false, Prod.mk.injEq, Cell.text.injEq, reduceCtorEq, and_false, false_or] at hr
        tauto
  rcases key with rfl | rfl | rfl <;> decide
example : Distinct exCfg := by unfold Distinct; decide +kernel
theorem exData_eq : initTable (fun _ => exOpen) (fun _ _ => .error .ioError) exCfg = .ok exData := by
  rfl
example : librariesOf exData "mcnp".toList = some ["31c".toList, "70c".toList] := by decide +kernel
theorem exDir_plain : PlainNames exDir := by
  intro t ht
  simp only [exDir, List.mem_cons, List.not_mem_nil, or_false] at ht
  rcases ht with rfl | rfl | rfl
  · exact ⟨"1001".toList, "31c".toList, by decide, by decide, by decide, by decide⟩
  · exact ⟨"1002".toList, "31c".toList, by decide, by decide, by decide, by decide⟩
  · exact ⟨"1001".toList, "80c".toList, by decide, by decide, by decide, by decide⟩
example : getLibzaids exData "31c".toList "mcnp".toList = ["1001".toList, "1002".toList] := by decide +kernel
example : check4zaid exData "1001".toList "mcnp".toList = .ok ["31c".toList] := by decide +kernel
example : isLibAvailable exData "31c".toList ["mcnp".toList, "d1s".toList] = .ok false := by decide +kernel

end F4Enix.LibM
