import Verif.Inp.EliteWholeMore
/-!
# Extraction of sectors: a concrete case (C160-C162)
-/
namespace F4Enix.EliteX
open F4Enix F4Enix.Inp F4Enix.Elite

/-- a small model: an envelope of sector 1 (filled with universe 7), one of sector 4, the cell of the universe, the outer cell and the graveyard -/
def exDeck (planes : List ℤ) : Deck where
  cells := [("10".toList, mkCell 10 0 none (planes ++ [5]) [] none (some 7)), ("11".toList, mkCell 11 0 none [8] [] (some 7) none),
    ("40".toList, mkCell 40 0 none [9] [] none none),
    ("800".toList, mkCell 800 0 none [5] [] none none), ("801".toList, mkCell 801 0 none [5] [] none none)]
  surfs := [("5".toList, ⟨5, [], [], true, [(5, .sur)], none⟩), ("8".toList, ⟨8, [], [], true, [(8, .sur)], none⟩),
    ("9".toList, ⟨9, [], [], true, [(9, .sur)], none⟩), ("427016".toList, ⟨427016, [], [], true, [(427016, .sur)], none⟩),
    ("427024".toList, ⟨427024, [], [], true, [(427024, .sur)], none⟩)]
  materials := mkMatList []
  transformations := []
  other := [("SI70".toList, ⟨0, [], [], true, [], none⟩), ("SP70".toList, ⟨0, [], [], true, [], none⟩)]
  tallyKeys := []
  fmeshKeys := []
  header := ["title".toList]

/-- the texts of the outer cell and the graveyard: number, material, surface (example) -/
def exRows : Str → List CellText.Row := fun _ => [⟨0, [[.hole 3], [.hole 1], [.ch '-', .hole 1]]⟩]

/-- the boundary planes of sector 1, a plane in the universe along 10 degrees, and spheres (example) -/
def exShape : Str → Surf ℚ := fun k =>
  if k = "427024".toList then ⟨0, .p, [-3/5, 4/5, 0, 0], none, 0, 0⟩
  else if k = "427016".toList then ⟨0, .p, [-4/5, 3/5, 0, 0], none, 0, 0⟩
  else if k = "8".toList then ⟨0, .p, [-6/5, 8/5, 0, 0], none, 0, 0⟩
  else ⟨0, .other, [8], none, 0, 8⟩

/-- the table (example) -/
def exTable : Excel := [(10, some .s1), (40, some .s4), (800, none), (801, none)]

/-- what is seen of a file (proof) -/
def summary (r : Option (Sector → List ℤ) × Except PyErr (Out ℚ)) :
    Except PyErr (List (Str × List ℤ) × List (Str × ℕ × ℚ) × List (Str × Option Str)) :=
  r.2.map (fun o => (o.cells.map (fun kc => (kc.1, kc.2.values.filterMap (fun v => if v.2 = Kind.sur then some v.1 else none))),
    o.surfs.map (fun q => (q.1, q.2.2.stars, q.2.2.last)), o.other.map (fun kc => (kc.1, kc.2.2))))

set_option synthInstance.maxHeartbeats 400000 in
set_option synthInstance.maxSize 1000 in
/-- Sector 1: cells 10 and 11 with the outer cell and the graveyard, both cut; the two planes get a star, the plane of the universe is moved. -/
example : summary (extractSector (exDeck [427024, 427016]) exRows exShape toyEnv (1/100) 9 none [some .s1] exTable true) =
    .ok ([("10".toList, [427024, 427016, 5]), ("11".toList, [8]), ("800".toList, [5, 427024, 427016]), ("801".toList, [5, 427024, 427016])],
      [("5".toList, 0, 8), ("8".toList, 0, -1/50), ("427016".toList, 1, 0), ("427024".toList, 1, 0)],
      [("SI70".toList, some "SI70 L 427001 ".toList), ("SP70".toList, some "SP70 1 ".toList)]) := by decide +kernel

set_option synthInstance.maxHeartbeats 400000 in
set_option synthInstance.maxSize 1000 in
/-- If the envelope is bounded by other surfaces, the planes of the cut are not in the file. -/
example : summary (extractSector (exDeck []) exRows exShape toyEnv (1/100) 9 none [some .s1] exTable true) =
    .ok ([("10".toList, [5]), ("11".toList, [8]), ("800".toList, [5, 427024, 427016]), ("801".toList, [5, 427024, 427016])],
      [("5".toList, 0, 8), ("8".toList, 0, -1/50)],
      [("SI70".toList, some "SI70 L 427001 ".toList), ("SP70".toList, some "SP70 1 ".toList)]) := by decide +kernel

set_option synthInstance.maxHeartbeats 400000 in
set_option synthInstance.maxSize 1000 in
/-- A second call with another table gives the cells of the first one. -/
example : summary (extractSector (exDeck [427024, 427016]) exRows exShape toyEnv (1/100) 9
      (extractSector (exDeck [427024, 427016]) exRows exShape toyEnv (1/100) 9 none [some .s1] exTable false).1 [some .s1] [(40, some .s1)] true) =
    summary (extractSector (exDeck [427024, 427016]) exRows exShape toyEnv (1/100) 9 none [some .s1] exTable true) ∧
    (summary (extractSector (exDeck [427024, 427016]) exRows exShape toyEnv (1/100) 9 none [some .s1] [(40, some .s1)] false)).toOption.map Prod.fst =
      some [("40".toList, [9]), ("800".toList, [5, 427024, 427016]), ("801".toList, [5, 427024, 427016])] := by
  constructor <;> decide +kernel

/-- a rotation by a right angle about z, with a displacement (example) -/
def exTr : List ℚ := [5, 100, 0, 0, 0, 1, 0, -1, 0, 0, 0, 0, 1]

example : Rotation (fun x => x) false exTr := by
  unfold Rotation trMatrix exTr
  simp only [List.getD_cons_succ, List.getD_cons_zero, Bool.false_eq_true, if_false]
  ext i j
  fin_cases i <;> fin_cases j <;> simp [Matrix.mul_apply, Fin.sum_univ_three]

end F4Enix.EliteX
