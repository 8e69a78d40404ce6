import Verif.Out.EeoutClaims
import Verif.Out.EeoutHead

/-!
C128 for whole files: meshes with both kinds of tetrahedra or none, and connectivities ordered by nodes.
-/
namespace F4Enix.Eeout
open F4Enix

variable {K : Type}

/-- the first line behind the materials is one with `CONNECTIVITY DATA` -/
theorem material_rest {ls : List Str} {f : Bool} {acc : List ℤ} {r : List ℤ × List Str} (h : materialLoop f acc ls = .ok r) :
    ∃ l rest, r.2 = l :: rest ∧ l ∈ ls ∧ "CONNECTIVITY DATA".toList <:+: l := by
  induction ls generalizing f acc with
  | nil => cases h
  | cons l ls ih =>
    rw [materialLoop] at h
    by_cases hl : has "CONNECTIVITY DATA" l = true
    · rw [if_pos hl] at h
      cases h
      exact ⟨l, ls, rfl, by simp, (has_iff _ _).1 hl⟩
    · rw [if_neg hl] at h
      revert h
      generalize (if f = true then ints (words l) else .ok [] : Except PyErr (List ℤ)) = x
      cases x with
      | error e => intro h; cases h
      | ok vs =>
        intro h
        obtain ⟨l', rest, h1, h2, h3⟩ := ih h
        exact ⟨l', rest, h1, by simp [h2], h3⟩

/-- the parts of a successful reading that the refusals are about -/
theorem readFile_parts {pf : Str → Option K} {ls : List Str} {g : Grid K} (hr : readFile pf ls = .ok g) :
    ∃ info t1 t2 el x y z, infoLoop false [] ls = .ok info ∧ getInfo info "NUMBER OF 1st TETS" = .ok t1 ∧
      getInfo info "NUMBER OF 2nd TETS" = .ok t2 ∧ elements t1 t2 = .ok el ∧
      nodesLoop pf false false false [] [] [] ls = .ok x ∧ materialLoop false [] x.2 = .ok y ∧ connectivity el.2 y.2 = .ok z := by
  unfold readFile at hr
  simp only [bind, Except.bind] at hr
  cases h1 : infoLoop false [] ls with
  | error e => rw [h1] at hr; cases hr
  | ok info =>
    rw [h1] at hr; simp only at hr
    cases h2 : getInfo info "NUMBER OF MATERIALS" with
    | error e => rw [h2] at hr; cases hr
    | ok nm =>
      rw [h2] at hr; simp only at hr
      cases h3 : matNames nm 0 [] (behindMats ls) with
      | error e => rw [h3] at hr; cases hr
      | ok names =>
        rw [h3] at hr; simp only at hr
        cases h4 : getInfo info "NUMBER OF 1st TETS" with
        | error e => rw [h4] at hr; cases hr
        | ok t1 =>
          rw [h4] at hr; simp only at hr
          cases h5 : getInfo info "NUMBER OF 2nd TETS" with
          | error e => rw [h5] at hr; cases hr
          | ok t2 =>
            rw [h5] at hr; simp only at hr
            cases h6 : getInfo info "NUMBER OF NODES" with
            | error e => rw [h6] at hr; cases hr
            | ok nn =>
              rw [h6] at hr; simp only at hr
              cases h7 : elements t1 t2 with
              | error e => rw [h7] at hr; cases hr
              | ok el =>
                rw [h7] at hr; simp only at hr
                cases h8 : particleList ls with
                | error e => rw [h8] at hr; cases hr
                | ok pl =>
                  rw [h8] at hr; simp only at hr
                  cases h9 : getInfo info "NUMBER OF PARTICLES" with
                  | error e => rw [h9] at hr; cases hr
                  | ok np =>
                    rw [h9] at hr; simp only at hr
                    by_cases h10 : pl.length ≠ np
                    · rw [if_pos h10] at hr; cases hr
                    · rw [if_neg h10] at hr
                      cases h11 : nodesLoop pf false false false [] [] [] ls with
                      | error e => rw [h11] at hr; cases hr
                      | ok x =>
                        rw [h11] at hr; simp only at hr
                        cases h12 : materialLoop false [] x.2 with
                        | error e => rw [h12] at hr; cases hr
                        | ok y =>
                          rw [h12] at hr; simp only at hr
                          cases h13 : connectivity el.2 y.2 with
                          | error e => rw [h13] at hr; cases hr
                          | ok z => exact ⟨info, t1, t2, el, x, y, z, rfl, h4, h5, h7, rfl, h12, h13⟩

/-- **C128 (kinds of elements).** A file whose head says that there are tetrahedra of both orders, or of none, is refused,
whatever follows. -/
theorem mixed_file_refused (pf : Str → Option K) {head info rest : List Str} {nums : List (Str × ℕ)} {t1 t2 : ℕ}
    (hh : ∀ l ∈ head, ¬ "NUMBER OF PARTICLES".toList <:+: l ∧ ¬ "NUMBER OF EDITS".toList <:+: l) (hi : InfoLines info nums)
    (h1 : ("NUMBER OF 1st TETS".toList, t1) ∈ nums) (h2 : ("NUMBER OF 2nd TETS".toList, t2) ∈ nums)
    (hm : (0 < t1 ∧ 0 < t2) ∨ (t1 = 0 ∧ t2 = 0)) : ∃ e, readFile pf (head ++ (info ++ rest)) = .error e := by
  cases hr : readFile pf (head ++ (info ++ rest)) with
  | error e => exact ⟨e, rfl⟩
  | ok g =>
    exfalso
    obtain ⟨d, a, b, el, x, y, z, e1, e2, e3, e4, -⟩ := readFile_parts hr
    rw [info_read hh hi] at e1
    cases e1
    rw [getInfo_ok hi.2.1 h1] at e2
    rw [getInfo_ok hi.2.1 h2] at e3
    cases e2
    cases e3
    have : elements t1 t2 = .error .notImplemented := (mixed_refused t1 t2).2 (by omega)
    rw [e4] at this
    cases this

/-- **C128 (order of the connectivity).** A file in which the lines that begin a connectivity all say that it is ordered by
nodes is refused. -/
theorem node_ordered_file (pf : Str → Option K) (ls : List Str)
    (h : ∀ l ∈ ls, "CONNECTIVITY DATA".toList <:+: l → "NODE ORDERED".toList <:+: l) : ∃ e, readFile pf ls = .error e := by
  cases hr : readFile pf ls with
  | error e => exact ⟨e, rfl⟩
  | ok g =>
    exfalso
    obtain ⟨d, a, b, el, x, y, z, -, -, -, -, e5, e6, e7⟩ := readFile_parts hr
    obtain ⟨l, rest, h1, h2, h3⟩ := material_rest e6
    have hx : x.2 <:+ ls := rest_of_nodes e5
    rw [h1, node_ordered el.2 ⟨h3, h l (hx.subset h2) h3⟩ rest] at e7
    cases e7

/-- the head of a mesh with both kinds of elements (example) -/
def mixedNums : List (Str × ℕ) :=
  [("NUMBER OF PARTICLES".toList, 1), ("NUMBER OF NODES".toList, 14), ("NUMBER OF MATERIALS".toList, 1),
   ("NUMBER OF 1st TETS".toList, 1), ("NUMBER OF 2nd TETS".toList, 1), ("NUMBER OF EDITS".toList, 0)]

/-- `mixedInfo` (example) -/
def mixedInfo : List Str :=
  mixedNums.map (fun x => ' ' :: x.1 ++ List.replicate 3 ' ' ++ ':' :: List.replicate 9 ' ' ++ natStr x.2 ++ ['\n'])

/-- the hypotheses of `mixed_file_refused` are met by such a head -/
example (pf : Str → Option K) (rest : List Str) :
    ∃ e, readFile pf (["MCNP EDITS\n".toList] ++ (mixedInfo ++ rest)) = .error e := by
  refine mixed_file_refused pf (nums := mixedNums) (t1 := 1) (t2 := 1) (by decide) ?_ (by decide) (by decide) (by decide)
  refine ⟨?_, by decide, ⟨_, _, rfl, by decide⟩, ⟨_, mixedInfo.dropLast, (List.dropLast_append_getLast (by decide)).symm, by decide, by decide⟩⟩
  unfold mixedInfo mixedNums
  simp only [List.map_cons, List.map_nil]
  repeat' apply List.Forall₂.cons
  all_goals first | exact List.Forall₂.nil | exact ⟨3, 9, rfl, by decide, by decide, by decide⟩

/-- the hypothesis of `node_ordered_file` is met by the lines of such a file -/
example : ∀ l ∈ [" ELEMENT MATERIAL\n".toList, " 1 1\n".toList, " CONNECTIVITY DATA 1ST ORDER TETS NODE ORDERED\n".toList],
    "CONNECTIVITY DATA".toList <:+: l → "NODE ORDERED".toList <:+: l := by decide

end F4Enix.Eeout
