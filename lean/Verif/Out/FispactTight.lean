import Verif.Out.FispactProps
/-!
# Further theorems about pathways

Added after wrong programs had survived the first ones: the character classes of the specification are
enumerated, a line is recognised as a path exactly when the pattern says so, printing a nuclide and
reading it back gives the nuclide, truncated files are refused with `IndexError`.
-/
namespace F4Enix.Fispact
open F4Enix

theorem char_of_toNat {c d : Char} (h : c.toNat = d.toNat) : c = d := Char.toNat_inj.mp h

/-- the capitals are the 26 letters -/
theorem isUpper_iff (c : Char) : isUpper c = true ↔ c ∈ "ABCDEFGHIJKLMNOPQRSTUVWXYZ".toList := by
  constructor
  · intro h
    simp only [isUpper, Bool.and_eq_true, decide_eq_true_eq] at h
    have hc : c = Char.ofNat c.toNat := (Char.ofNat_toNat c).symm
    obtain ⟨k, hk⟩ : ∃ k, c.toNat = 65 + k := ⟨c.toNat - 65, by omega⟩
    have hk2 : k < 26 := by omega
    rw [hc, hk]
    clear hk hc
    revert k
    decide
  · revert c
    decide

theorem isLower_iff (c : Char) : isLower c = true ↔ c ∈ "abcdefghijklmnopqrstuvwxyz".toList := by
  constructor
  · intro h
    simp only [isLower, Bool.and_eq_true, decide_eq_true_eq] at h
    have hc : c = Char.ofNat c.toNat := (Char.ofNat_toNat c).symm
    obtain ⟨k, hk⟩ : ∃ k, c.toNat = 97 + k := ⟨c.toNat - 97, by omega⟩
    have hk2 : k < 26 := by omega
    rw [hc, hk]
    clear hk hc
    revert k
    decide
  · revert c
    decide

theorem isDigit_iff (c : Char) : isDigit c = true ↔ c ∈ "0123456789".toList := by
  constructor
  · intro h
    simp only [isDigit, Bool.and_eq_true, decide_eq_true_eq] at h
    have hc : c = Char.ofNat c.toNat := (Char.ofNat_toNat c).symm
    obtain ⟨k, hk⟩ : ∃ k, c.toNat = 48 + k := ⟨c.toNat - 48, by omega⟩
    have hk2 : k < 10 := by omega
    rw [hc, hk]
    clear hk hc
    revert k
    decide
  · revert c
    decide

/-- **C42 (the characters of a reaction)** are letters, digits, comma, plus and minus -/
theorem reactionChar_iff (c : Char) : reactionChar c = true ↔
    c ∈ "ABCDEFGHIJKLMNOPQRSTUVWXYZ".toList ∨ c ∈ "abcdefghijklmnopqrstuvwxyz".toList ∨ c ∈ "0123456789".toList ∨
      c ∈ [',', '+', '-'] := by
  rw [← isUpper_iff, ← isLower_iff, ← isDigit_iff]
  simp only [reactionChar, isLetter, Bool.or_eq_true, decide_eq_true_eq, List.mem_cons, List.not_mem_nil, or_false]
  tauto

/-- **C42 (which lines are paths).** A line is taken for a path exactly when it begins with blanks, the
word `path`, blanks and a digit. -/
theorem isPathLine_iff (l : Str) : isPathLine l = true ↔
    ∃ a b d s, l = a ++ "path".toList ++ b ++ d :: s ∧ a ≠ [] ∧ b ≠ [] ∧ (∀ c ∈ a, isSpace c = true) ∧
      (∀ c ∈ b, isSpace c = true) ∧ d ∈ "0123456789".toList := by
  constructor
  · intro h
    unfold isPathLine at h
    simp only [Bool.and_eq_true] at h
    obtain ⟨h1, ⟨h2, h3⟩, h4⟩ := h
    obtain ⟨r, hr⟩ := List.isPrefixOf_iff_prefix.mp h2
    have e1 : l = l.takeWhile isSpace ++ l.dropWhile isSpace := (List.takeWhile_append_dropWhile).symm
    rw [← hr] at h3 h4 e1
    have e2 : ("path".toList ++ r).drop 4 = r := rfl
    rw [e2] at h3 h4
    have e3 : r = r.takeWhile isSpace ++ r.dropWhile isSpace := (List.takeWhile_append_dropWhile).symm
    cases hd : r.dropWhile isSpace with
    | nil => rw [hd] at h4; cases h4
    | cons d s =>
      rw [hd] at h4 e3
      refine ⟨l.takeWhile isSpace, r.takeWhile isSpace, d, s, ?_, ?_, ?_, fun c hc => mem_takeWhile_imp hc,
        fun c hc => mem_takeWhile_imp hc, (isDigit_iff d).mp h4⟩
      · conv_lhs => rw [e1, e3]
        simp
      · cases l with
        | nil => cases h1
        | cons c l => simp only [startsSpace] at h1; simp [h1]
      · cases hrr : r with
        | nil => rw [hrr] at h3; cases h3
        | cons c r' =>
          rw [hrr] at h3
          simp only [startsSpace] at h3
          simp [h3]
  · rintro ⟨a, b, d, s, rfl, na, nb, ha, hb, hd⟩
    have hd' := (isDigit_iff d).mpr hd
    have e : a ++ "path".toList ++ b ++ d :: s = a ++ ("path".toList ++ (b ++ d :: s)) := by simp
    rw [e]
    unfold isPathLine
    have s1 : startsSpace (a ++ ("path".toList ++ (b ++ d :: s))) = true := by
      cases a with
      | nil => exact absurd rfl na
      | cons c a => exact ha c (by simp)
    have d1 := (takeWhile_run (p := isSpace) (a := a) (s := "path".toList ++ (b ++ d :: s)) ha (by
      intro x t hx
      have : x = 'p' := by
        have : "path".toList = ['p', 'a', 't', 'h'] := rfl
        rw [this] at hx
        simp only [List.cons_append, List.cons.injEq] at hx
        exact hx.1.symm
      rw [this]; decide)).2
    have d2 : ("path".toList ++ (b ++ d :: s)).drop 4 = b ++ d :: s := rfl
    have s2 : startsSpace (b ++ d :: s) = true := by
      cases b with
      | nil => exact absurd rfl nb
      | cons c b => exact hb c (by simp)
    have d3 := (takeWhile_run (p := isSpace) (a := b) (s := d :: s) hb (by
      intro x t hx
      simp only [List.cons.injEq] at hx
      rw [← hx.1]
      exact digit_not_space hd')).2
    rw [s1]
    simp only
    rw [d1, d2, s2, d3]
    simp [hd']

/-- **C42 (printing a nuclide).** What is printed for a nuclide is read back as that nuclide: nothing of it is
lost, and metastable states stay apart from ground states. -/
theorem zaid_str_roundtrip {z : Zaid} {c : Char} {low : Str} (he : z.element = c :: low)
    (hc : c ∈ "ABCDEFGHIJKLMNOPQRSTUVWXYZ".toList) (hl : ∀ x ∈ low, x ∈ "abcdefghijklmnopqrstuvwxyz".toList)
    (hi : z.isotope ≠ []) (hd : ∀ x ∈ z.isotope, x ∈ "0123456789".toList) : getZaid z.str = .ok z :=
  getZaid_ok ⟨c, low, [], by simp [Zaid.str, he], he, (isUpper_iff c).mpr hc, fun x hx => (isLower_iff x).mpr (hl x hx),
    fun x hx => (by cases hx), hi, fun x hx => (isDigit_iff x).mpr (hd x hx)⟩

/-- so two nuclides that are printed alike are the same -/
theorem zaid_str_inj {z z' : Zaid} {c c' : Char} {low low' : Str} (he : z.element = c :: low) (he' : z'.element = c' :: low')
    (hc : c ∈ "ABCDEFGHIJKLMNOPQRSTUVWXYZ".toList) (hc' : c' ∈ "ABCDEFGHIJKLMNOPQRSTUVWXYZ".toList)
    (hl : ∀ x ∈ low, x ∈ "abcdefghijklmnopqrstuvwxyz".toList) (hl' : ∀ x ∈ low', x ∈ "abcdefghijklmnopqrstuvwxyz".toList)
    (hi : z.isotope ≠ []) (hi' : z'.isotope ≠ []) (hd : ∀ x ∈ z.isotope, x ∈ "0123456789".toList)
    (hd' : ∀ x ∈ z'.isotope, x ∈ "0123456789".toList) (h : z.str = z'.str) : z = z' := by
  have h1 := zaid_str_roundtrip he hc hl hi hd
  rw [h, zaid_str_roundtrip he' hc' hl' hi' hd'] at h1
  cases h1; rfl

example : Zaid.str ⟨"Co".toList, "60".toList, true⟩ = "Co60m".toList ∧
    getZaid "Co60m".toList = .ok ⟨"Co".toList, "60".toList, true⟩ := by decide +kernel

/-- **C42 (truncated files).** If the file ends with the line of the nuclides, or a path that is continued ends
before the lines of the continuation, reading raises `IndexError`: no path is made up. -/
theorem truncated {num : Str → Option ℚ} {c : Chain} {l1 : Str} (hh : IsPathHead num c.perc l1)
    (hz : ShowsZaids (c.parent :: c.nuclides) l1) (hne : c.steps ≠ []) :
    readPath num l1 [] = .error .indexError ∧
    (∀ l2 l3 l4, ∀ rs, ShowsReactions rs l2 → 1 < c.steps.length → rs ≠ [] → rs.length ≠ c.steps.length →
      readPath num l1 [l2, l3, l4] = .error .indexError ∧
      (∀ l5, contains "path continued".toList l5 = false → ∀ rest,
        readPath num l1 (l2 :: l3 :: l4 :: l5 :: rest) = .error .assertionError) ∧
      (∀ l5 zs, contains "path continued".toList l5 = true → ShowsZaids zs l5 → zs ≠ [] →
        readPath num l1 [l2, l3, l4, l5] = .error .indexError)) := by
  obtain ⟨w, hw, hq⟩ := perc_ok hh
  obtain ⟨ws, hws, hf⟩ := findAll_zaids hz
  have hnn : c.nuclides ≠ [] := by simpa [Chain.nuclides] using hne
  obtain ⟨d, hd⟩ : ∃ d, c.nuclides.getLast? = some d := ⟨_, List.getLast?_eq_some_getLast hnn⟩
  have hlen : c.nuclides.length = c.steps.length := by simp [Chain.nuclides]
  constructor
  · unfold readPath
    rw [hw]; simp only
    rw [hq]; simp only
    rw [hws, splitNames_ok hf hd]
  · intro l2 l3 l4 rs hr h1 hrs hrl
    have key : ∀ rest, readPath num l1 (l2 :: rest) =
        continued c.parent d c.perc rs c.nuclides.dropLast rest[2]? rest[3]? := by
      intro rest
      unfold readPath
      rw [hw]; simp only
      rw [hq]; simp only
      rw [hws, splitNames_ok hf hd]; simp only
      rw [reactions_ok hr, if_pos (by omega)]
      have hm : mkPathway c.parent d c.perc rs (some c.nuclides.dropLast) = .error .assertionError := by
        unfold mkPathway
        simp only
        rw [if_neg (by rw [List.length_dropLast]; omega), if_neg hrs]
      rw [hm]
      rfl
    refine ⟨?_, ?_, ?_⟩
    · rw [key]; rfl
    · intro l5 h5 rest
      rw [key]
      change continued _ _ _ _ _ (some l5) _ = _
      unfold continued
      simp only
      rw [h5, if_neg (by simp)]
    · intro l5 zs h5 hz5 hzne
      rw [key]
      obtain ⟨ws5, hws5, hf5⟩ := findAll_zaids hz5
      change continued _ _ _ _ _ (some l5) none = _
      obtain ⟨x, hx⟩ : ∃ x, zs.getLast? = some x := ⟨_, List.getLast?_eq_some_getLast hzne⟩
      unfold continued
      simp only
      rw [h5, if_pos rfl, hws5, getZaids_ok hf5]
      simp only
      rw [hx]

/-- a pathway without reactions cannot be printed -/
theorem str_no_reactions {p : Pathway} (h : p.reactions = []) : p.str = .error .indexError := by
  unfold Pathway.str
  cases p.intermediates <;> simp [h]

example : readPath exNum " path  1  43.807% Mn 55 ---(R)--- Mn 56 ---(S)--- ".toList [] = .error .indexError := by
  decide +kernel

end F4Enix.Fispact
