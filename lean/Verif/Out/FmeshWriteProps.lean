import Verif.Out.FmeshWrite
import Verif.Base.TextLemmas
import Mathlib.Tactic.Linarith
import Mathlib.Tactic.Ring
import Mathlib.Tactic.FieldSimp
import Mathlib.Tactic.NormNum
import Mathlib.Data.List.Induction
import Mathlib.Data.List.Nodup
/-!
# Theorems about the export of mesh tallies (C152-C154)
-/
namespace F4Enix.FmeshW
open F4Enix

/-! ### numbers -/

/-- reading a decimal number: sign, digits, point, digits (specification) -/
def readDec (s : Str) : Option ℚ :=
  let (sg, u) : ℚ × Str := match s with
    | '-' :: u => (-1, u)
    | u => (1, u)
  match u.dropWhile isDigit with
  | '.' :: f => if u.takeWhile isDigit ≠ [] ∧ (∀ c ∈ f, isDigit c = true) ∧ f ≠ [] then
      some (sg * ((digitsVal (u.takeWhile isDigit) : ℚ) + (digitsVal f : ℚ) / 10 ^ f.length)) else none
  | _ => none

theorem thousandths_near (x : ℚ) : abs ((thousandths x : ℚ) / 1000 - abs x) ≤ 1 / 2000 := by
  have h0 : 0 ≤ |x| * 1000 := by positivity
  have h1 : (0 : ℤ) ≤ ⌊|x| * 1000⌋ := Int.floor_nonneg.2 h0
  have h2 : ((⌊|x| * 1000⌋.toNat : ℕ) : ℚ) = ((⌊|x| * 1000⌋ : ℤ) : ℚ) := by
    have : ((⌊|x| * 1000⌋.toNat : ℕ) : ℤ) = ⌊|x| * 1000⌋ := Int.toNat_of_nonneg h1
    exact_mod_cast this
  have h3 := Int.floor_le (|x| * 1000)
  have h4 := Int.lt_floor_add_one (|x| * 1000)
  rw [← h2] at h3 h4
  unfold thousandths
  simp only
  rw [abs_le]
  split
  · constructor <;> linarith
  · split
    · push_cast; constructor <;> linarith
    · split
      · constructor <;> linarith
      · push_cast; constructor <;> linarith

theorem digitsVal_three (t : ℕ) :
    digitsVal [digitChar (t % 1000 / 100), digitChar (t % 100 / 10), digitChar (t % 10)] = t % 1000 := by
  unfold digitsVal
  simp only [List.foldl_cons, List.foldl_nil]
  rw [digitChar_toNat (by omega), digitChar_toNat (by omega), digitChar_toNat (by omega)]
  omega

theorem isDigit_dot : isDigit '.' = false := by decide
theorem isDigit_minus : isDigit '-' = false := by decide

/-- the text of a number is a decimal number within half a thousandth of it -/
theorem read_fmt3 (x : ℚ) : ∃ q, readDec (fmt3 x) = some q ∧ |q - x| ≤ 1 / 2000 := by
  have key : ∀ t : ℕ, ∀ u : Str, u = natStr (t / 1000) ++ ['.', digitChar (t % 1000 / 100), digitChar (t % 100 / 10), digitChar (t % 10)] →
      u.takeWhile isDigit = natStr (t / 1000) ∧
      u.dropWhile isDigit = '.' :: [digitChar (t % 1000 / 100), digitChar (t % 100 / 10), digitChar (t % 10)] := by
    intro t u hu
    subst hu
    constructor
    · exact takeWhile_all_append (natStr_all_digit _) (by intro c hc; simp only [List.head?_cons, Option.some.injEq] at hc; rw [← hc]; exact isDigit_dot)
    · exact dropWhile_all_append (natStr_all_digit _) (by intro c hc; simp only [List.head?_cons, Option.some.injEq] at hc; rw [← hc]; exact isDigit_dot)
  have val : ∀ t : ℕ, (digitsVal (natStr (t / 1000)) : ℚ) +
      (digitsVal [digitChar (t % 1000 / 100), digitChar (t % 100 / 10), digitChar (t % 10)] : ℚ) / 10 ^ 3 = (t : ℚ) / 1000 := by
    intro t
    rw [digitsVal_natStr, digitsVal_three]
    have : (t : ℚ) = ((t / 1000 : ℕ) : ℚ) * 1000 + ((t % 1000 : ℕ) : ℚ) := by
      have := Nat.div_add_mod t 1000
      have h : ((1000 * (t / 1000) + t % 1000 : ℕ) : ℚ) = (t : ℚ) := by rw [this]
      push_cast at h
      linarith
    rw [this]
    ring
  have dig : ∀ t : ℕ, ∀ c ∈ [digitChar (t % 1000 / 100), digitChar (t % 100 / 10), digitChar (t % 10)], isDigit c = true := by
    intro t c hc
    simp only [List.mem_cons, List.not_mem_nil, or_false] at hc
    rcases hc with rfl | rfl | rfl <;> exact isDigit_digitChar (by omega)
  have near := thousandths_near x
  obtain ⟨k1, k2⟩ := key (thousandths x) _ rfl
  by_cases hx : x < 0
  · refine ⟨-1 * ((thousandths x : ℚ) / 1000), ?_, ?_⟩
    · unfold fmt3
      simp only [if_pos hx, List.cons_append, List.nil_append]
      unfold readDec
      simp only [k1, k2]
      rw [if_pos ⟨natStr_ne_nil _, dig _, by simp⟩]
      rw [← val (thousandths x)]
      rfl
    · rw [abs_of_neg hx] at near
      rw [abs_le] at near ⊢
      constructor <;> linarith [near.1, near.2]
  · refine ⟨1 * ((thousandths x : ℚ) / 1000), ?_, ?_⟩
    · unfold fmt3
      simp only [if_neg hx, List.nil_append]
      unfold readDec
      have hm : ∀ w : Str, (match natStr (thousandths x / 1000) ++ w with | '-' :: u => ((-1 : ℚ), u) | u => (1, u)) = (1, natStr (thousandths x / 1000) ++ w) := by
        intro w
        cases hn : natStr (thousandths x / 1000) with
        | nil => exact absurd hn (natStr_ne_nil _)
        | cons c cs =>
          have hc := natStr_all_digit (thousandths x / 1000) c (by rw [hn]; simp)
          have hne : c ≠ '-' := by rintro rfl; rw [isDigit_minus] at hc; cases hc
          rw [List.cons_append]
          split
          · rename_i h; simp only [List.cons.injEq] at h; exact absurd h.1 hne
          · rfl
      rw [hm]
      simp only [k1, k2]
      rw [if_pos ⟨natStr_ne_nil _, dig _, by simp⟩]
      rw [← val (thousandths x)]
      rfl
    · rw [abs_of_nonneg (not_lt.1 hx)] at near
      rw [abs_le] at near ⊢
      constructor <;> linarith [near.1, near.2]

theorem thousandths_small {x : ℚ} (h : |x| < 1 / 2000) : thousandths x = 0 := by
  have h0 : 0 ≤ |x| := abs_nonneg x
  have hf : ⌊|x| * 1000⌋ = 0 := by
    rw [Int.floor_eq_iff]; push_cast; constructor <;> linarith
  unfold thousandths
  simp only [hf]
  norm_num
  intro h1
  linarith

/-- **C152 is false of the code**: a value smaller than half a thousandth is written as zero, whatever it is. -/
theorem fmt3_small {x : ℚ} (h : |x| < 1 / 2000) : fmt3 x = (if x < 0 then "-0.000".toList else "0.000".toList) := by
  unfold fmt3
  simp only [thousandths_small h]
  split <;> decide

/-- the characters of a number -/
theorem fmt3_chars (x : ℚ) : ∀ c ∈ fmt3 x, isDigit c = true ∨ c = '.' ∨ c = '-' := by
  intro c hc
  unfold fmt3 at hc
  simp only [List.mem_append] at hc
  rcases hc with (hc | hc) | hc
  · split at hc
    · simp only [List.mem_singleton] at hc; exact Or.inr (Or.inr hc)
    · simp at hc
  · exact Or.inl (natStr_all_digit _ c hc)
  · simp only [List.mem_cons, List.not_mem_nil, or_false] at hc
    rcases hc with rfl | rfl | rfl | rfl
    · exact Or.inr (Or.inl rfl)
    · exact Or.inl (isDigit_digitChar (by omega))
    · exact Or.inl (isDigit_digitChar (by omega))
    · exact Or.inl (isDigit_digitChar (by omega))

theorem fmt3_no {x : ℚ} {c : Char} (h1 : isDigit c = false) (h2 : c ≠ '.') (h3 : c ≠ '-') : c ∉ fmt3 x := by
  intro h
  rcases fmt3_chars x c h with h | h | h
  · rw [h1] at h; cases h
  · exact h2 h
  · exact h3 h

theorem fmt3_isWord (x : ℚ) : IsWord (fmt3 x) := by
  refine ⟨by unfold fmt3; simp, ?_⟩
  intro c hc
  rcases fmt3_chars x c hc with h | h | h
  · exact isSpace_of_isDigit h
  · subst h; decide
  · subst h; decide

/-! ### csv (C152) -/

/-- the text `w` shows the number `x`: without blanks before it, it is a decimal number within half a thousandth (specification) -/
def Shows (w : Str) (x : ℚ) : Prop := ∃ q, readDec (lstrip w) = some q ∧ |q - x| ≤ 1 / 2000

theorem shows_fmt3 (x : ℚ) : Shows (fmt3 x) x := by
  obtain ⟨q, h1, h2⟩ := read_fmt3 x
  refine ⟨q, ?_, h2⟩
  have hw := fmt3_isWord x
  rw [lstrip_of_not_startsSpace, h1]
  have := startsSpace_word_append (s := []) hw
  simpa using this

theorem shows_space (x : ℚ) : Shows (' ' :: fmt3 x) x := by
  obtain ⟨q, h1, h2⟩ := shows_fmt3 x
  exact ⟨q, by rw [lstrip_cons_space (by decide)]; exact h1, h2⟩

/-- the fields of a line, divided at the commas (specification) -/
def fieldsOf : Str → List Str
  | [] => [[]]
  | c :: s =>
    if c = ',' then [] :: fieldsOf s
    else match fieldsOf s with
      | [] => [[c]]
      | w :: ws => (c :: w) :: ws

theorem fieldsOf_word {w : Str} (h : ',' ∉ w) (s : Str) : fieldsOf (w ++ ',' :: s) = w :: fieldsOf s := by
  induction w with
  | nil => simp [fieldsOf]
  | cons c w ih =>
    have hc : c ≠ ',' := fun e => h (by rw [e]; simp)
    rw [List.cons_append, fieldsOf, if_neg hc, ih (fun hm => h (List.mem_cons_of_mem _ hm))]

theorem fieldsOf_last {w : Str} (h : ',' ∉ w) : fieldsOf w = [w] := by
  induction w with
  | nil => rfl
  | cons c w ih =>
    have hc : c ≠ ',' := fun e => h (by rw [e]; simp)
    rw [fieldsOf, if_neg hc, ih (fun hm => h (List.mem_cons_of_mem _ hm))]

theorem fieldsOf_commas {ws : List Str} (hne : ws ≠ []) (h : ∀ w ∈ ws, ',' ∉ w) : fieldsOf (commas ws) = ws := by
  induction ws with
  | nil => exact absurd rfl hne
  | cons w ws ih =>
    cases ws with
    | nil => exact fieldsOf_last (h w (by simp))
    | cons w' ws =>
      rw [commas, fieldsOf_word (h w (by simp)), ih (by simp) (fun v hv => h v (List.mem_cons_of_mem _ hv))]
      simp

/-- the array of a name has a value for place `i` (proof) -/
def HasValue (g : Grid) (n : Str) (i : ℕ) : Prop := ∃ a x, g.array n = .ok a ∧ a[i]? = some x

theorem rowValues_ok (g : Grid) (i : ℕ) (names : List Str) (h : ∀ n ∈ names, HasValue g n i) :
    ∃ ws, rowValues g i names = .ok ws ∧ ws.length = names.length ∧ (∀ w ∈ ws, ∃ x, w = ' ' :: fmt3 x) ∧
      ∀ (k : ℕ) n, names[k]? = some n → ∃ a x, g.array n = .ok a ∧ a[i]? = some x ∧ ws[k]? = some (' ' :: fmt3 x) := by
  induction names with
  | nil => exact ⟨[], rfl, rfl, by simp, by simp⟩
  | cons n ns ih =>
    obtain ⟨ws, h1, h2, h3, h4⟩ := ih (fun m hm => h m (List.mem_cons_of_mem _ hm))
    obtain ⟨a, x, ha, hx⟩ := h n (by simp)
    refine ⟨(' ' :: fmt3 x) :: ws, ?_, by simp [h2], ?_, ?_⟩
    · rw [rowValues]; simp only [ha, hx, h1]
    · intro w hw
      rcases List.mem_cons.1 hw with rfl | hw
      · exact ⟨x, rfl⟩
      · exact h3 w hw
    · intro k m hk
      cases k with
      | zero =>
        simp only [List.getElem?_cons_zero, Option.some.injEq] at hk
        subst hk
        exact ⟨a, x, ha, hx, rfl⟩
      | succ k => exact h4 k m hk

/-- row `row` is that of place `i`: the coordinates and then the values of the arrays, in order (specification) -/
def RowOf (g : Grid) (names : List Str) (i : ℕ) (p : Pt) (row : List Str) : Prop :=
  row.length = 3 + names.length ∧
  (∃ w, row[0]? = some w ∧ Shows w p.1) ∧ (∃ w, row[1]? = some w ∧ Shows w p.2.1) ∧ (∃ w, row[2]? = some w ∧ Shows w p.2.2) ∧
  ∀ (k : ℕ) n, names[k]? = some n → ∃ a x w, g.array n = .ok a ∧ a[i]? = some x ∧ row[3 + k]? = some w ∧ Shows w x

theorem csvRows_ok (g : Grid) (names : List Str) (pts : List Pt) (i : ℕ)
    (h : ∀ k, k < pts.length → ∀ n ∈ names, HasValue g n (i + k)) :
    ∃ rows : List (List Str), csvRows g names i pts = ((rows.map (fun r => commas r ++ ['\r', '\n'])).flatten, none) ∧
      rows.length = pts.length ∧ (∀ r ∈ rows, r ≠ [] ∧ ∀ w ∈ r, ',' ∉ w ∧ '\n' ∉ w) ∧
      ∀ (k : ℕ) p, pts[k]? = some p → ∃ row, rows[k]? = some row ∧ RowOf g names (i + k) p row := by
  induction pts generalizing i with
  | nil => exact ⟨[], rfl, rfl, by simp, by simp⟩
  | cons p ps ih =>
    obtain ⟨rows, h1, h2, h3, h4⟩ := ih (i + 1) (fun k hk n hn => by
      have := h (k + 1) (by simpa using hk) n hn
      rwa [show i + 1 + k = i + (k + 1) by omega])
    obtain ⟨ws, w1, w2, w3, w4⟩ := rowValues_ok g i names (fun n hn => h 0 (by simp) n hn)
    refine ⟨(fmt3 p.1 :: (' ' :: fmt3 p.2.1) :: (' ' :: fmt3 p.2.2) :: ws) :: rows, ?_, by simp [h2], ?_, ?_⟩
    · rw [csvRows]
      simp only [w1, h1, List.map_cons, List.flatten_cons, List.append_assoc, List.cons_append, List.nil_append]
    · intro r hr
      rcases List.mem_cons.1 hr with rfl | hr
      · refine ⟨by simp, ?_⟩
        have hf : ∀ x : ℚ, ',' ∉ fmt3 x ∧ '\n' ∉ fmt3 x := fun x =>
          ⟨fmt3_no (by decide) (by decide) (by decide), fmt3_no (by decide) (by decide) (by decide)⟩
        have hs : ∀ x : ℚ, ',' ∉ (' ' :: fmt3 x) ∧ '\n' ∉ (' ' :: fmt3 x) := fun x => by
          have := hf x
          simp [this.1, this.2]
        intro w hw
        simp only [List.mem_cons] at hw
        rcases hw with rfl | rfl | rfl | hw
        · exact hf _
        · exact hs _
        · exact hs _
        · obtain ⟨x, rfl⟩ := w3 w hw
          exact hs x
      · exact h3 r hr
    · intro k q hk
      cases k with
      | zero =>
        simp only [List.getElem?_cons_zero, Option.some.injEq] at hk
        subst hk
        refine ⟨_, rfl, by simp [w2]; omega, ⟨_, rfl, shows_fmt3 _⟩, ⟨_, rfl, shows_space _⟩, ⟨_, rfl, shows_space _⟩, ?_⟩
        intro k n hn
        obtain ⟨a, x, ha, hx, hw⟩ := w4 k n hn
        refine ⟨a, x, ' ' :: fmt3 x, ha, hx, ?_, shows_space x⟩
        rw [show 3 + k = k + 1 + 1 + 1 by omega]
        simpa using hw
      | succ k =>
        obtain ⟨row, r1, r2⟩ := h4 k q hk
        exact ⟨row, r1, by rwa [show i + 1 + k = i + (k + 1) by omega] at r2⟩

/-- a grid as pyvista keeps it: arrays as long as the cells or the points (specification) -/
def Sound (g : Grid) : Prop :=
  (∀ n a, Dict.get? g.cellData n = some a → a.length = g.centres.length) ∧
  (∀ n a, Dict.get? g.pointData n = some a → a.length = g.points.length)

/-- a grid with arrays on its cells only, as the mesh tallies have (specification) -/
def CellGrid (g : Grid) : Prop := Sound g ∧ g.pointData = [] ∧ g.cellData ≠ []

theorem cell_hasValue {g : Grid} (hg : CellGrid g) {n : Str} (hn : Dict.has g.cellData n = true) {i : ℕ} (hi : i < g.centres.length) :
    HasValue g n i := by
  unfold Dict.has at hn
  obtain ⟨a, ha⟩ := Option.isSome_iff_exists.1 hn
  have hl := hg.1.1 n a ha
  refine ⟨a, a[i]'(by omega), ?_, List.getElem?_eq_getElem _⟩
  unfold Grid.array; rw [ha]

/-- the name of the file before the extension (specification) -/
def baseName (m : Mesh) (fmt : Str) (outfile : Option Str) : Str := outfile.getD ("Tally_".toList ++ natStr m.tally ++ '_' :: fmt)

theorem write_csv_eq (vtk : Grid → Str) (m : Mesh) (names : Option (List Str)) (outfile : Option Str) (files : Dict Str Str)
    (hg : CellGrid m.grid) : write vtk m names "csv".toList outfile files =
      writeCsv m.grid (baseName m "csv".toList outfile) m.grid.centres (names.getD m.grid.names) files := by
  have hl : 0 < m.grid.cellData.length := List.length_pos_iff.2 hg.2.2
  have hp : m.grid.pointData.length = 0 := by rw [hg.2.1]; rfl
  unfold write
  simp only
  rw [if_neg (by decide), if_pos ⟨hl, hp⟩]
  simp only
  rw [if_pos trivial]
  rfl

/-- **C152.** The csv file of a mesh with arrays on its cells has one line for each cell, in order: the coordinates of the centre and the
values of the arrays at that cell, in the order of the names, each within half a thousandth. Other files are as before. Partial: Proved: one line per cell in order, each value within half a thousandth. False: values below half a thousandth are written as zero (fmt3_small, csv_lost); with arrays on cells and points the export fails midway (mixed_fails). -/
theorem csv_exact_partial (vtk : Grid → Str) (m : Mesh) (names : Option (List Str)) (outfile : Option Str) (files : Dict Str Str)
    (hg : CellGrid m.grid) (hn : ∀ n ∈ names.getD m.grid.names, Dict.has m.grid.cellData n = true) :
    ∃ rows : List (List Str), write vtk m names "csv".toList outfile files =
        (Dict.set files (baseName m "csv".toList outfile ++ ".csv".toList) (rows.map (fun r => commas r ++ ['\r', '\n'])).flatten, none) ∧
      rows.length = m.grid.centres.length ∧ (∀ r ∈ rows, fieldsOf (commas r) = r) ∧
      ∀ (i : ℕ) p, m.grid.centres[i]? = some p → ∃ row, rows[i]? = some row ∧ RowOf m.grid (names.getD m.grid.names) i p row := by
  obtain ⟨rows, h1, h2, h3, h4⟩ := csvRows_ok m.grid (names.getD m.grid.names) m.grid.centres 0
    (fun k hk n hnn => by rw [Nat.zero_add]; exact cell_hasValue hg (hn n hnn) hk)
  refine ⟨rows, ?_, h2, fun r hr => fieldsOf_commas (h3 r hr).1 (fun w hw => ((h3 r hr).2 w hw).1), ?_⟩
  · rw [write_csv_eq vtk m names outfile files hg]
    unfold writeCsv
    rw [h1]
  · intro i p hp
    obtain ⟨row, r1, r2⟩ := h4 i p hp
    exact ⟨row, r1, by rwa [Nat.zero_add] at r2⟩

/-- **C152 is false of the code**: two meshes that differ only in values below half a thousandth (all the fluxes of a source particle, say)
and not in their signs give the same csv file. -/
theorem csv_lost (g : Grid) {a b : List ℚ} (hlen : a.length = b.length) (hs : ∀ (i : ℕ) x y, a[i]? = some x → b[i]? = some y → fmt3 x = fmt3 y)
    (n : Str) (pts : List Pt) (i : ℕ) :
    csvRows { g with cellData := [(n, a)] } [n] i pts = csvRows { g with cellData := [(n, b)] } [n] i pts := by
  have hr : ∀ i, rowValues { g with cellData := [(n, a)] } i [n] = rowValues { g with cellData := [(n, b)] } i [n] := by
    intro i
    have ea : Grid.array { g with cellData := [(n, a)] } n = .ok a := by
      unfold Grid.array; simp [Dict.get?]
    have eb : Grid.array { g with cellData := [(n, b)] } n = .ok b := by
      unfold Grid.array; simp [Dict.get?]
    rw [rowValues.eq_def, rowValues.eq_def { g with cellData := [(n, b)] }]
    simp only [ea, eb]
    by_cases hi : i < a.length
    · have h1 : a[i]? = some (a[i]'hi) := List.getElem?_eq_getElem _
      have h2 : b[i]? = some (b[i]'(by omega)) := List.getElem?_eq_getElem _
      rw [h1, h2]
      simp only [hs i _ _ h1 h2]
      rfl
    · have h1 : a[i]? = none := List.getElem?_eq_none (by omega)
      have h2 : b[i]? = none := List.getElem?_eq_none (by omega)
      rw [h1, h2]
  induction pts generalizing i with
  | nil => rfl
  | cons p ps ih =>
    rw [csvRows, csvRows, hr i, ih]

example : fmt3 (123456 / 100000) = "1.235".toList ∧ fmt3 (-2 / 10000) = "-0.000".toList ∧ fmt3 (25 / 10) = "2.500".toList ∧
    fmt3 (1 / 2000) = "0.000".toList ∧ fmt3 (3 / 2000) = "0.002".toList := by decide +kernel

/-- a mesh with two cells (example) -/
def exMesh : Mesh := ⟨4, ⟨[], [(1 / 2, 0, 0), (3 / 2, 0, -1)], [("Value - Total".toList, [5, 1 / 100000]), ("Error - Total".toList, [1 / 10, 2])], [],
  ["Value - Total".toList, "Error - Total".toList]⟩, "RectilinearGrid".toList⟩

example : CellGrid exMesh.grid ∧ ∀ n ∈ exMesh.grid.names, Dict.has exMesh.grid.cellData n = true := by
  refine ⟨⟨⟨?_, ?_⟩, rfl, by decide⟩, by decide⟩
  · intro n a h
    have hm := Dict.mem_of_get? h
    simp only [exMesh, List.mem_cons, Prod.mk.injEq, List.not_mem_nil, or_false] at hm
    rcases hm with ⟨-, rfl⟩ | ⟨-, rfl⟩ <;> rfl
  · intro n a h
    simp [exMesh] at h

example : write (fun _ => []) exMesh none "csv".toList none [] = ([("Tally_4_csv.csv".toList,
    "0.500, 0.000, 0.000, 5.000, 0.100\r\n1.500, 0.000, -1.000, 0.000, 2.000\r\n".toList)], none) := by decide +kernel

end F4Enix.FmeshW
