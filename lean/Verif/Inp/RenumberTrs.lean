import Verif.Inp.Assemble

/-! Renumbering and the transformations of a model (MCNPinput.py:1219-1357): a reference to a transformation finds
after the renumbering the moved card of what it found before, and nothing else. -/

namespace F4Enix.Inp

/-- **C16** (transformations). After a renumbering every transformation is found under its new number, marked the same way, as the card
it was with its numbers moved; looking up the moved number gives a card exactly if
looking up the old one did. -/
theorem c16_transformations (m : Deck) (o : Offsets) (all : Option ℤ) (h : Renumberable m (o.withAll all))
    (ht : TrOk m.transformations)
    (hpos : ∀ kc ∈ m.transformations, ∀ n, first kc.2.values .tr = some n → 0 < shift ((o.withAll all).of .tr) n) :
    ∃ m', renumber m o all true = .ok m' ∧ TrOk m'.transformations ∧
      (∀ p n, TrMark p → 0 < n → m'.transformations.get? (p ++ intStr (shift ((o.withAll all).of .tr) n)) =
        (m.transformations.get? (p ++ intStr n)).map (applyMap (o.withAll all))) := by
  refine ⟨_, renumber_eq m o all h, ?_⟩
  obtain ⟨t1, -, t3, t4⟩ := trs_rekeyed ht (o.withAll all) hpos
  refine ⟨t1, ?_⟩
  simp only
  generalize o.withAll all = O at *
  have back : ∀ p n c', TrMark p → 0 < n →
      (rekey (m.transformations.map (fun kc => (kc.1, applyMap O kc.2)))).get? (p ++ intStr (shift (O.of .tr) n)) = some c' →
      ∃ c, m.transformations.get? (p ++ intStr n) = some c ∧ c' = applyMap O c := by
    intro p n c' hp hn hg
    have hm := Dict.mem_of_get? hg
    obtain ⟨x, hx, e⟩ := t3 _ hm
    obtain ⟨a, ra, a1, a2, a3, a4, a5, a6⟩ := t1.each _ hm
    obtain ⟨b, rb, b1, b2, b3, b4, b5, b6⟩ := ht.each x hx
    simp only at e a2 a6 a5
    have hv : a = shift (O.of .tr) b ∧ c'.pre = x.2.pre := by
      rw [e] at a2 ⊢
      simp only [applyMap, b2, List.map_cons, List.cons.injEq, Prod.mk.injEq] at a2
      exact ⟨a2.1.1.symm, rfl⟩
    obtain ⟨k1, k2⟩ := trMark_inj hp a5 a6
    have hbn : n = b := shift_inj (ne_of_gt hn) (ne_of_gt b1) (k2.trans hv.1)
    refine ⟨x.2, ?_, e⟩
    have : x.1 = p ++ intStr n := by rw [b6, k1, hv.2, hbn]
    rw [← this]
    exact Dict.get?_of_mem ht.wf hx
  intro p n hp hn
  cases hd : m.transformations.get? (p ++ intStr n) with
  | none =>
    cases hg : (rekey (m.transformations.map (fun kc => (kc.1, applyMap O kc.2)))).get? (p ++ intStr (shift (O.of .tr) n)) with
    | none => rfl
    | some c' =>
      obtain ⟨c, hc, -⟩ := back p n c' hp hn hg
      rw [hd] at hc; cases hc
  | some c =>
    exact t4 p n c hp hd

/-- the model of C186 has a transformation, renumbered to 8 -/
example : ∃ m', renumber asmDemo ⟨none, none, none, some 7⟩ none true = .ok m' ∧
    ∃ p, TrMark p ∧ (asmDemo.transformations.get? (p ++ intStr 1)).isSome = true ∧
      m'.transformations.get? (p ++ intStr 8) =
        (asmDemo.transformations.get? (p ++ intStr 1)).map (applyMap ⟨none, none, none, some 7⟩) := by
  have hc := asmDemo_complete
  obtain ⟨m', h1, -, h3⟩ := c16_transformations asmDemo ⟨none, none, none, some 7⟩ none
    ⟨hc.cells, hc.surfs, by decide +kernel, by decide +kernel⟩ hc.trs (by
      have : ∀ kc ∈ asmDemo.transformations, ∀ n ∈ first kc.2.values .tr, 0 < shift (some 7) n := by decide +kernel
      exact fun kc h n hn => this kc h n hn)
  refine ⟨m', h1, ['T', 'R'], Or.inl rfl, by decide +kernel, ?_⟩
  exact h3 _ 1 (Or.inl rfl) (by decide)

end F4Enix.Inp
