import Verif.Out.EeoutClaims
import Verif.Out.PathwaysGet
import Verif.Inp.XsdirProps
import Verif.Inp.TallyTight
import Verif.Inp.AceProps
/-!
# Small exact statements about characters, columns and refusals

Each is the part of a property that a wrong program tested against the theorems had left open.
-/
namespace F4Enix

theorem char_le (a b : Char) : a ≤ b ↔ a.toNat ≤ b.toNat := by
  rw [Char.le_def, UInt32.le_iff_toNat_le]; rfl

namespace Eeout
variable {K : Type}

/-- the characters of the name of a quantity in the head of the file -/
theorem isInfoChar_iff (c : Char) : isInfoChar c = true ↔
    ('A' ≤ c ∧ c ≤ 'Z') ∨ ('a' ≤ c ∧ c ≤ 'z') ∨ isSpace c = true ∨ ('0' ≤ c ∧ c ≤ '9') := by
  simp only [isInfoChar, isDigit, Bool.or_eq_true, Bool.and_eq_true, decide_eq_true_eq, char_le, or_assoc]
  rfl

/-- **C124 (columns).** Coordinates whose numbers differ are refused. -/
theorem columns_refused (xs ys zs : List K) (h : ¬ (xs.length = ys.length ∧ ys.length = zs.length)) :
    columns xs ys zs = .error .valueError := by
  unfold columns; rw [if_neg h]

/-- **C124 (columns).** Otherwise point `i` has the coordinates `i`. -/
theorem columns_points {xs ys zs : List K} {ps : List (K × K × K)} (h : columns xs ys zs = .ok ps) :
    ps.map Prod.fst = xs ∧ ps.map (fun p => p.2.1) = ys ∧ ps.map (fun p => p.2.2) = zs := by
  unfold columns at h
  split at h
  · rename_i hl
    simp only [Except.ok.injEq] at h
    subst h
    obtain ⟨h1, h2⟩ := hl
    have h3 : (ys.zip zs).length = xs.length := by rw [List.length_zip]; omega
    refine ⟨List.map_fst_zip (by omega), ?_, ?_⟩
    · rw [show (fun p : K × K × K => p.2.1) = Prod.fst ∘ Prod.snd from rfl, ← List.map_map, List.map_snd_zip (by omega),
        List.map_fst_zip (by omega)]
    · rw [show (fun p : K × K × K => p.2.2) = Prod.snd ∘ Prod.snd from rfl, ← List.map_map, List.map_snd_zip (by omega),
        List.map_snd_zip (by omega)]
  · simp at h

/-- **C126 (refusal).** An array is put on the points if there are as many, else on the elements if there are as many, else refused. -/
theorem place_exact (np nc len : ℕ) :
    (place np nc len = .ok .points ↔ len = np) ∧ (place np nc len = .ok .cells ↔ len ≠ np ∧ len = nc) ∧
    (place np nc len = .error .valueError ↔ len ≠ np ∧ len ≠ nc) := by
  unfold place
  by_cases h1 : len = np
  · simp [h1]
  · by_cases h2 : len = nc
    · subst h2; simp [h1]
    · simp [h1, h2]

/-- **C124 (refusal).** A number of nodes that is no multiple of those of an element is refused. -/
theorem connectivity_refused {n : ℕ} {lines data rest : List Str} {ids : List ℤ} (h1 : connLines false [] lines = .ok (data, rest))
    (h2 : 2 ≤ data.length) (h3 : nodeIdLines (data.take (data.length - 2)) = .ok ids) (h : ids.length % n ≠ 0) :
    connectivity n lines = .error .valueError := by
  unfold connectivity
  simp only [h1]
  rw [if_neg (by omega), h3]
  simp only
  rw [if_neg h]

/-- a line of the head without a number is refused -/
theorem infoLine_refused {l : Str} (h : l.takeWhile isInfoChar ≠ []) (hd : digitGroups l = []) : infoLine l = .error .indexError := by
  unfold infoLine
  split
  · rename_i h1; exact absurd h1 h
  · rw [hd]; rfl

end Eeout

namespace Path

/-- **C111 (values).** The value at the time number `i` of those available is the column number `i` of the table. -/
theorem at_column (r : Row) (i : ℕ) (t : Str) (v : Option ℚ) (ht : times[i]? = some t) (hv : r.vals[i]? = some v) : r.at t = v := by
  have key : ∀ (ts : List Str) (vs : List (Option ℚ)) (i : ℕ), ts.Nodup → ts[i]? = some t → vs[i]? = some v →
      (((ts.zip vs).find? (fun p => p.1 = t)).map Prod.snd).getD none = v := by
    intro ts
    induction ts with
    | nil => intro vs i _ h; simp at h
    | cons a ts ih =>
      intro vs i hn h1 h2
      match vs, h2 with
      | b :: vs, h2 =>
        cases i with
        | zero =>
          simp only [List.getElem?_cons_zero, Option.some.injEq] at h1 h2
          subst h1; subst h2
          simp
        | succ i =>
          simp only [List.getElem?_cons_succ] at h1 h2
          rw [List.nodup_cons] at hn
          have ha : a ≠ t := by
            rintro rfl
            exact hn.1 (List.mem_of_getElem? h1)
          rw [List.zip_cons_cons, List.find?_cons_of_neg (by simpa using ha)]
          exact ih vs i hn.2 h1 h2
  exact key times r.vals i (by decide +kernel) ht hv

end Path

namespace Xs

/-- upper case letters are read as lower case ones, all else as it is -/
theorem lowerStr_get (s : Str) (i : ℕ) (c : Char) (h : s[i]? = some c) :
    (∀ k, k < 26 → c = Char.ofNat (65 + k) → (lowerStr s)[i]? = some (Char.ofNat (97 + k))) ∧
    ((c < 'A' ∨ 'Z' < c) → (lowerStr s)[i]? = some c) := by
  have e : (lowerStr s)[i]? = some (if 65 ≤ c.toNat ∧ c.toNat ≤ 90 then Char.ofNat (c.toNat + 32) else c) := by
    unfold lowerStr; rw [List.getElem?_map, h]; rfl
  constructor
  · intro k hk hc
    rw [e]
    have hn : (Char.ofNat (65 + k)).toNat = 65 + k := by
      have key : ∀ k, k < 26 → (Char.ofNat (65 + k)).toNat = 65 + k := by decide
      exact key k hk
    rw [hc, hn, if_pos (by omega)]
    congr 2; omega
  · intro hc
    rw [e, if_neg]
    rintro ⟨h1, h2⟩
    rcases hc with hc | hc
    · rw [Char.lt_def, UInt32.lt_iff_toNat_lt] at hc
      have : c.toNat < 65 := hc
      omega
    · rw [Char.lt_def, UInt32.lt_iff_toNat_lt] at hc
      have : 90 < c.toNat := hc
      omega

/-- a path of the data without `=` is refused -/
theorem datapath_refused {l : Str} (h : '=' ∉ l) : datapathOf l = .error .valueError := by
  unfold datapathOf; rw [if_neg h]

end Xs

namespace Tally

/-- the characters of particles -/
theorem isNP_iff (c : Char) : isNP c = true ↔ c ∈ ['n', 'N', ',', 'p', 'P'] := by
  simp [isNP, or_assoc]

end Tally

namespace Ace

/-- a library without temperatures is refused -/
theorem chooseT_empty (T : ℚ) : chooseT T [] = .error .valueError := by
  unfold chooseT; rfl

/-- a mixture of nothing is refused -/
theorem mixture_empty {K T : Type} [Field K] (load : Str → Except PyErr (List T)) (eval : T → ℕ → K) (unity : List Bool) :
    mixture load eval unity [] = .error .indexError := rfl

end Ace
end F4Enix
