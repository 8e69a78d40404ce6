import Verif.Out.MeshFileEx
/-!
# Mesh tally files that are refused (C163 - C169)
-/
namespace F4Enix.MeshFile
open F4Enix F4Enix.Mesh F4Enix.Find

/-- **C164 (an axis without boundaries).** If one of the three axes has no boundary at all the values are not read: `ValueError`, whatever the format. -/
theorem values_need_axes (num : ParseNum) (junk : Data) (b : Bounds) (ls : List Str) (h : b.x1 = [] ∨ b.x2 = [] ∨ b.x3 = [])
    (hf : meshType b.cyl b.tbin.explicit ls ≠ .bad) : meshValues num junk b ls = .error .valueError := by
  have he : b.empty = true := by
    unfold Bounds.empty
    rcases h with h | h | h <;> rw [h] <;> simp
  unfold meshValues
  cases hm : meshType b.cyl b.tbin.explicit ls with
  | bad => exact absurd hm hf
  | col => simp only; rw [if_pos he]
  | oldCuv => simp only; rw [if_pos he]
  | mat o => simp only; rw [if_pos he]

/-- **C163 (numbers of tallies).** If the number of some tally of the file is not a number, `mesh_ids` is refused with `ValueError`. -/
theorem ids_refused (names : List Str) (h : ∃ n ∈ names, parseInt n = none) : meshIds names = .error .valueError := by
  unfold meshIds
  have : names.mapM parseInt = none := by
    induction names with
    | nil => simp at h
    | cons a l ih =>
      rw [List.mapM_cons]
      cases ha : parseInt a with
      | none => rfl
      | some i =>
        obtain ⟨n, hn, hp⟩ := h
        rcases List.mem_cons.1 hn with rfl | hn
        · rw [ha] at hp; cases hp
        · rw [ih ⟨n, hn, hp⟩]; rfl
  rw [this]

/-- **C164 (damaged lines of bins).** A line of bins without a colon, or of a kind that is not known, is refused with `ValueError`. -/
theorem bins_refused (num : ParseNum) (l : Str) :
    (':' ∉ l → extraBin num l = .error .valueError ∧ binList num l = .error .valueError) ∧
    (∀ qs, binList num l = .ok qs → (∀ w ∈ ["Energy", "Decay time", "Time", "Nuclide", "Cell"], ¬ w.toList <:+: l.takeWhile (fun c => c != ':')) →
      extraBin num l = .error .valueError) := by
  constructor
  · intro h
    have hd : l.dropWhile (fun c => c != ':') = [] := by
      clear * - h
      induction l with
      | nil => rfl
      | cons c r ih =>
        simp only [List.mem_cons, not_or] at h
        rw [List.dropWhile_cons_of_pos (by simp only [bne_iff_ne, ne_eq]; exact fun e => h.1 e.symm)]
        exact ih h.2
    have hb : binList num l = .error .valueError := by
      unfold binList afterColon
      rw [hd]
    exact ⟨by unfold extraBin; rw [hb], hb⟩
  · intro qs hq h
    have ht : etTag (l.takeWhile (fun c => c != ':')) = none := by
      unfold etTag
      have hc : ∀ w : Str, ¬ w <:+: l.takeWhile (fun c => c != ':') → ¬ contains w (l.takeWhile (fun c => c != ':')) = true := by
        intro w hw hc
        exact hw ((contains_iff _ _).1 hc)
      rw [if_neg (hc _ (h "Energy" (by simp))), if_neg (hc _ (h "Decay time" (by simp))), if_neg (hc _ (h "Time" (by simp))),
        if_neg (hc _ (h "Nuclide" (by simp))), if_neg (hc _ (h "Cell" (by simp)))]
    unfold extraBin
    rw [hq]
    simp only
    rw [ht]

/-- **C169 (words of a line).** A word that is not there gives `IndexError`, a word that is not a number where a whole number is needed `ValueError`. -/
theorem words_refused (l : Str) (i : ℕ) :
    ((tokens l).length ≤ i → wordInt l i = .error .indexError ∧ wordAt l i = .error .indexError) ∧
    (∀ w, (tokens l)[i]? = some w → wordAt l i = .ok w ∧ (parseInt w = none → wordInt l i = .error .valueError) ∧ ∀ n, parseInt w = some n → wordInt l i = .ok n) := by
  unfold wordInt wordAt
  constructor
  · intro h
    rw [List.getElem?_eq_none h]
    exact ⟨rfl, rfl⟩
  · intro w h
    rw [h]
    refine ⟨rfl, ?_, ?_⟩
    · intro hp; simp only; rw [hp]
    · intro n hp; simp only; rw [hp]

/-- **C164 (places).** A place is three numbers: with numbers only but another amount it is refused with `ValueError`. -/
theorem place_refused (num : ParseNum) (s : Str) (qs : List ℚ) (h : rowNums num (tokens s) = .ok qs) :
    (qs.length ≠ 3 → vec3 num s = .error .valueError) ∧ (∀ x y z, qs = [x, y, z] → vec3 num s = .ok ⟨x, y, z⟩) := by
  unfold vec3
  rw [h]
  constructor
  · intro hl
    rcases qs with _ | ⟨a, _ | ⟨b, _ | ⟨c, _ | ⟨d, r⟩⟩⟩⟩
    · rfl
    · rfl
    · rfl
    · exact absurd rfl hl
    · rfl
  · rintro x y z rfl
    rfl

example : meshIds ["4".toList, "x".toList] = .error .valueError := ids_refused _ ⟨"x".toList, by simp, by decide⟩

end F4Enix.MeshFile
