import Verif.Out.FmeshTransform
import Verif.Out.FmeshWriteMore
import Verif.Out.PlotterMore
import Verif.Mat.LibraryProps
import Mathlib.Tactic.Linarith
import Mathlib.Tactic.NormNum
/-!
# More exact statements about the export of meshes, the plots and the shipped compositions (C142, C146, C147, C151-C155)

Names of files, failures, halves in rounding, the limits of the categories and the sums of the compositions.
-/
namespace F4Enix.FmeshW
open F4Enix

/-- **C153.** The name of the array in the name of a file loses exactly the brackets and the slashes: what is left is a subsequence of the name,
without these characters, and every other character is there as many times as before. -/
theorem clean_exact (n : Str) :
    (cleanPath n).Sublist n ∧ ∀ c, (cleanPath n).count c = if c = '[' ∨ c = ']' ∨ c = '\\' ∨ c = '/' then 0 else n.count c := by
  refine ⟨List.filter_sublist, fun c => ?_⟩
  unfold cleanPath
  by_cases h : c = '[' ∨ c = ']' ∨ c = '\\' ∨ c = '/'
  · rw [if_pos h, List.count_eq_zero]
    rintro hm
    have := (List.mem_filter.1 hm).2
    rcases h with rfl | rfl | rfl | rfl <;> simp at this
  · rw [if_neg h, List.count_filter]
    push Not at h
    simp [h.1, h.2.1, h.2.2.1, h.2.2.2]

example : cleanPath "Value - [a/b\\c]".toList = "Value - abc".toList := by decide +kernel

/-- **C154.** A vtk file of a grid has the extension of its kind, and nothing else is written. -/
theorem vtk_extension (vtk : Grid → Str) (m : Mesh) (names : Option (List Str)) (path : Str) (files : Dict Str Str) :
    (m.kind = "StructuredGrid".toList → write vtk m names "vtk".toList (some path) files = (Dict.set files (path ++ ".vts".toList) (vtk m.grid), none)) ∧
    (m.kind = "UnstructuredGrid".toList → write vtk m names "vtk".toList (some path) files = (Dict.set files (path ++ ".vtu".toList) (vtk m.grid), none)) ∧
    (m.kind = "RectilinearGrid".toList → write vtk m names "vtk".toList (some path) files = (Dict.set files (path ++ ".vtr".toList) (vtk m.grid), none)) ∧
    (m.kind ≠ "StructuredGrid".toList → m.kind ≠ "UnstructuredGrid".toList → m.kind ≠ "RectilinearGrid".toList →
      write vtk m names "vtk".toList (some path) files = (Dict.set files (path ++ ".vtk".toList) (vtk m.grid), none)) := by
  have h : write vtk m names "vtk".toList (some path) files = (Dict.set files (path ++ vtkExt m.kind) (vtk m.grid), none) := by
    unfold write
    rw [if_pos rfl]
    rfl
  have d1 : "UnstructuredGrid".toList ≠ "StructuredGrid".toList := by decide
  have d2 : "RectilinearGrid".toList ≠ "StructuredGrid".toList := by decide
  have d3 : "RectilinearGrid".toList ≠ "UnstructuredGrid".toList := by decide
  rw [h]
  unfold vtkExt
  refine ⟨fun e => ?_, fun e => ?_, fun e => ?_, fun e1 e2 e3 => ?_⟩
  · rw [if_pos e]
  · rw [e, if_neg d1, if_pos rfl]
  · rw [e, if_neg d2, if_neg d3, if_pos rfl]
  · rw [if_neg e1, if_neg e2, if_neg e3]

/-- **C153.** An array that neither the cells nor the points have ends the export with `KeyError`; the files before it stay. -/
theorem array_missing (text : List ℚ → List Pt → Str × Option PyErr) (g : Grid) (path : Str) (pts : List Pt) (n : Str) (ns : List Str)
    (files : Dict Str Str) (h1 : Dict.get? g.cellData n = none) (h2 : Dict.get? g.pointData n = none) :
    writeEach text g path pts (n :: ns) files = (files, some .keyError) := by
  unfold writeEach
  have : g.array n = .error .keyError := by unfold Grid.array; rw [h1]; simp only; rw [h2]
  rw [this]

/-- **C152.** The same for a csv file: the file is there, without a line. -/
theorem csv_missing (g : Grid) (path : Str) (p : Pt) (pts : List Pt) (n : Str) (ns : List Str)
    (files : Dict Str Str) (h1 : Dict.get? g.cellData n = none) (h2 : Dict.get? g.pointData n = none) :
    writeCsv g path (p :: pts) (n :: ns) files = (Dict.set files (path ++ ".csv".toList) [], some .keyError) := by
  unfold writeCsv csvRows rowValues
  have : g.array n = .error .keyError := by unfold Grid.array; rw [h1]; simp only; rw [h2]
  rw [this]

/-- **C153.** With fewer values than points a point cloud ends with `IndexError`, and only then. -/
theorem cloud_short (vals : List ℚ) (pts : List Pt) :
    (cloudText vals pts).2 = if pts.length ≤ vals.length then none else some .indexError := by
  have key : ∀ (pts : List Pt) (i : ℕ), i ≤ vals.length →
      (cloudLines vals i pts).2 = if i + pts.length ≤ vals.length then none else some .indexError := by
    intro pts
    induction pts with
    | nil => intro i hi; simp [cloudLines, hi]
    | cons p ps ih =>
      intro i hi
      unfold cloudLines
      by_cases hlt : i < vals.length
      · rw [List.getElem?_eq_getElem hlt]
        simp only
        rw [ih (i + 1) hlt, List.length_cons]
        congr 1
        rw [eq_iff_iff]; omega
      · rw [List.getElem?_eq_none (by omega)]
        simp only
        rw [if_neg (by rw [List.length_cons]; omega)]
  unfold cloudText
  have := key pts 0 (Nat.zero_le _)
  rw [Nat.zero_add] at this
  exact this

/-- **C153.** The same for the text for fluent. -/
theorem fluent_short (vals : List ℚ) (pts : List Pt) :
    (fluentText vals pts).2 = if pts.length ≤ vals.length then none else some .indexError := by
  unfold fluentText
  simp only
  split_ifs <;> rfl

/-- **C155.** A transformation for a mesh that is not in the file ends with `KeyError`; the meshes before it stay transformed. -/
theorem many_missing {T M : Type} (app : M → T → Except PyErr M) (k : ℕ) (t : T) (r : Dict ℕ T) (mesh : Dict ℕ M) (h : Dict.get? mesh k = none) :
    transformMany app ((k, t) :: r) mesh = (mesh, some .keyError) := by
  unfold transformMany
  rw [h]

/-- the transformations before it are made -/
example : transformMany (fun m t => Except.ok (m + t)) [(4, 10), (14, 20), (24, 5)] [(4, (1 : ℕ)), (24, 2)] = ([(4, 11), (24, 2)], some .keyError) := by decide

/-- **C152.** A number that lies half way between two thousandths is written with the even one. -/
theorem half_even (k : ℕ) : thousandths (((2 * k : ℕ) + 1 / 2) / 1000) = 2 * k ∧ thousandths (((2 * k + 1 : ℕ) + 1 / 2) / 1000) = 2 * k + 2 := by
  have key : ∀ n : ℕ, thousandths (((n : ℚ) + 1 / 2) / 1000) = if n % 2 = 0 then n else n + 1 := by
    intro n
    have hn : (0 : ℚ) ≤ n := Nat.cast_nonneg n
    have h0 : |((n : ℚ) + 1 / 2) / 1000| * 1000 = (n : ℚ) + 1 / 2 := by
      rw [abs_of_nonneg (by positivity)]; ring
    have h1 : ⌊(n : ℚ) + 1 / 2⌋ = (n : ℤ) := by
      rw [Int.floor_eq_iff]; constructor <;> push_cast <;> linarith
    unfold thousandths
    simp only
    rw [h0, h1, Int.toNat_natCast, add_sub_cancel_left, if_neg (lt_irrefl _), if_neg (lt_irrefl _)]
  constructor
  · rw [key, if_pos (by omega)]
  · rw [key, if_neg (by omega)]

end F4Enix.FmeshW

namespace F4Enix.Plot
open F4Enix

/-- **C146.** A centre half way between two tenths is named with the even one. -/
theorem tenths_half (k : ℤ) : tenths (((2 * k : ℤ) + 1 / 2) / 10) = 2 * k ∧ tenths (((2 * k + 1 : ℤ) + 1 / 2) / 10) = 2 * k + 2 := by
  have key : ∀ n : ℤ, tenths (((n : ℚ) + 1 / 2) / 10) = if n % 2 = 0 then n else n + 1 := by
    intro n
    have h0 : ((n : ℚ) + 1 / 2) / 10 * 10 = (n : ℚ) + 1 / 2 := by ring
    have h1 : ⌊(n : ℚ) + 1 / 2⌋ = n := by
      rw [Int.floor_eq_iff]; constructor <;> linarith
    unfold tenths
    simp only
    rw [h0, h1, add_sub_cancel_left, if_neg (lt_irrefl _), if_neg (lt_irrefl _)]
  constructor
  · rw [key, if_pos (by omega)]
  · rw [key, if_neg (by omega)]; ring

/-- **C147.** The extension of a file is its last three characters (the whole name if it is shorter). -/
theorem ext_last (a e : Str) (h : e.length = 3) : ext (a ++ e) = e := by
  unfold ext
  rw [List.length_append, h, Nat.add_sub_cancel, List.drop_left]

/-- the whole name if it is shorter -/
theorem ext_short (n : Str) (h : n.length ≤ 3) : ext n = n := by
  unfold ext
  rw [Nat.sub_eq_zero_of_le h]
  rfl

/-- **C142.** The limits when the program starts. -/
theorem limits_fresh : (fresh.get "SDDR".toList).map Ctg.values = some [132 / 100000, 3 / 400, 1 / 40, 2, 100] ∧
    (fresh.get "TNF".toList).map Ctg.values = some [1 / 100, 100] ∧ (fresh.get "TID".toList).map Ctg.values = some [1, 10] ∧
    (∀ n, fresh.get n ≠ none ↔ n = "SDDR".toList ∨ n = "TNF".toList ∨ n = "TID".toList) := by
  refine ⟨by decide +kernel, by decide +kernel, by decide +kernel, fun n => ?_⟩
  unfold Consts.get
  split_ifs with h1 h2 h3
  · simp [h1]
  · simp [h2]
  · simp [h3]
  · exact ⟨fun h => absurd rfl h, fun h => by rcases h with h | h | h <;> contradiction⟩

end F4Enix.Plot

namespace F4Enix.Mat
open F4Enix

/-- **C151.** The sums of the percentages of the shipped compositions and their numbers of elements. -/
theorem shipped_sums_exact : availableMaterials.map (fun c => (c.name, c.perc.sum, c.elem.length)) =
    [("Pure Silver".toList, 100, 1), ("W with impurities".toList, 200009 / 2000, 30), ("Pure Lead".toList, 100, 1),
     ("Al-6061".toList, 100001 / 1000, 9), ("Al-Brz".toList, 100, 13), ("Borated Heavy Concrete".toList, 10000001 / 100000, 45),
     ("Concrete".toList, 10000071 / 100000, 50), ("Copper Cromium Zirconium (CuCrZr)".toList, 12439 / 125, 22), ("Eurofer-97".toList, 100, 24),
     ("Inconel-718".toList, 100, 16), ("Nb3Sn".toList, 100, 2), ("NbTi".toList, 100, 2), ("SS660".toList, 10051 / 100, 15),
     ("SS316L(N)-IG".toList, 100, 16), ("Microtherm".toList, 9963 / 100, 14), ("Titanium Alloy, Grade 5".toList, 77563 / 500, 8),
     ("Beryllium".toList, 24997647 / 250000, 28)] := by decide +kernel

end F4Enix.Mat
