import Verif.D1S.Model
/-!
# Specifications for the D1S files (what the English properties talk about)
-/
namespace F4Enix.D1S
open F4Enix

/-- The operations a user can apply to an irradiation file. (specification) -/
inductive Op where
  /-- `select_daughters_irradiation_file(daughters)` -/
  | select (daughters : List Str)
  /-- `add_irradiation_times(times_dict)` -/
  | add (td : Dict Str (List Str))
  /-- `remove_irradiation_time(index)` -/
  | remove (index : Int)
  /-- `irr_schedules[pos].modify_time_val(index, value)` -/
  | modify (pos : Nat) (index : Int) (v : Str)

/-- The file after an operation, whether it returned or raised. (specification) -/
def applyOp (f : IrradiationFile) : Op → IrradiationFile
  | .select ds => (selectDaughters f ds).1
  | .add td => (addTimes f td).1
  | .remove i => (removeTime f i).1
  | .modify p i v => (modifyAt f p i v).1

/-- The file after a history of operations (exceptions caught by the caller). (specification) -/
def run (f : IrradiationFile) (ops : List Op) : IrradiationFile := ops.foldl applyOp f

/-- Consistency: every daughter has exactly `nsc` time factors and the output format has exactly
`nsc` time columns between the two leading ones and the comment. (specification) -/
structure Consistent (f : IrradiationFile) : Prop where
  times : ∀ i ∈ f.schedules, (i.times.length : Int) = f.nsc
  cols : f.cols = f.formatting.w1 :: f.formatting.w2 ::
    (List.replicate f.nsc.toNat f.formatting.w3 ++ [f.formatting.w4])

/-- An irradiation whose fields fit the columns of width `w`: fields are words (non-empty, no
white space) narrower than their column, the daughter tag contains something else than the letter
c, the comment is a sequence of words separated by single blanks and narrower than its column. (specification) -/
structure Fits (w : Widths) (i : Irradiation) : Prop where
  daughter : IsWord i.daughter ∧ i.daughter.length < w.w1
  notC : ∃ c ∈ i.daughter, c ≠ 'c' ∧ c ≠ 'C'
  lambd : IsWord i.lambd ∧ i.lambd.length < w.w2
  times : ∀ t ∈ i.times, IsWord t ∧ t.length < w.w3
  comment : ∃ ws : List Str, (∀ x ∈ ws, IsWord x) ∧ i.comment = some (unwords ws) ∧
    (unwords ws).length < w.w4

/-- A header: complete lines, none of which starts with `nsc`. (specification) -/
def HeaderOk (h : Str) : Prop :=
  ∃ ls : List Str, h = ls.flatten ∧
    ∀ l ∈ ls, (∃ b : Str, l = b ++ ['\n'] ∧ ∀ c ∈ b, c ≠ '\n') ∧ isNscLine l = false

/-- A reaction whose fields fit the columns of the reaction file (13, 7, 12, 40) (specification). -/
structure ReacFits (r : Reaction) : Prop where
  parent : IsWord r.parent ∧ r.parent.length < 13
  notC : ∃ c ∈ r.parent, c ≠ 'c' ∧ c ≠ 'C'
  mt : (intStr r.mt).length < 7
  daughter : IsWord r.daughter ∧ r.daughter.length < 12
  comment : ∃ ws : List Str, (∀ x ∈ ws, IsWord x) ∧ r.comment.getD [] = unwords ws ∧
    (unwords ws).length < 40

end F4Enix.D1S
