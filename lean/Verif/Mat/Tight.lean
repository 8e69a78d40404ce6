import Verif.Mat.MixProps
/-!
# Further theorems about materials

Added after wrong programs had survived the first ones: what `switch_fraction` returns when nothing is
switched, how the library of a zaid is chosen, which material a name refers to, the errors of requests
that name something unknown, the value of the unit factor.
-/
namespace F4Enix.Mat
open F4Enix

/-- **C56 (nothing to switch).** When the fractions already are of the requested kind, the returned
submaterials are those of the material; when a switch is made they are as many, without zaids, in both
directions; any other kind is refused. -/
theorem switch_returned (m : Material) (lm : LibMan) :
    (0 ≤ m.tot → m.switchReturned "atom".toList lm = .ok m.subs) ∧
    (m.tot ≤ 0 → m.switchReturned "mass".toList lm = .ok m.subs) ∧
    (m.tot < 0 → ∀ l, m.switchReturned "atom".toList lm = .ok l →
      l.length = m.subs.length ∧ ∀ s ∈ l, s.zaids = [] ∧ s.elements = []) ∧
    (∀ t, t ≠ "atom".toList → t ≠ "mass".toList → m.switchReturned t lm = .error .keyError) := by
  refine ⟨fun h => ?_, fun h => ?_, fun h l hl => ?_, fun t h1 h2 => ?_⟩
  · unfold Material.switchReturned
    rw [(switch_noop m lm).1 h]
    simp only
    rw [if_neg]
    rintro (⟨-, h'⟩ | ⟨h', -⟩)
    · linarith
    · exact absurd h' atom_ne_mass
  · unfold Material.switchReturned
    rw [(switch_noop m lm).2 h]
    simp only
    rw [if_neg]
    rintro (⟨h', -⟩ | ⟨-, h'⟩)
    · exact absurd h'.symm atom_ne_mass
    · linarith
  · unfold Material.switchReturned at hl
    cases hs : m.switch "atom".toList lm with
    | error e => rw [hs] at hl; cases hl
    | ok m' =>
      simp only [hs] at hl
      rw [if_pos (by simp [h])] at hl
      simp only [Except.ok.injEq] at hl
      subst hl
      refine ⟨by simp, fun s hs' => ?_⟩
      simp only [List.mem_map] at hs'
      obtain ⟨a, -, rfl⟩ := hs'
      exact ⟨rfl, rfl⟩
  · unfold Material.switchReturned
    rw [switch_refuses m lm h1 h2]

/-- **C28 (choice of the library).** A single library is used for every zaid. A dictionary from old to new
libraries is looked up with the library of the zaid; a dictionary from libraries to zaids gives the first
library whose list contains the zaid. A zaid the dictionary does not provide for is refused with
`ValueError`, an empty dictionary with `IndexError`. -/
theorem newTag_spec (z : Zaid) :
    (∀ l, newTag (.one l) z = .ok l) ∧
    newTag (.byOld []) z = .error .indexError ∧ newTag (.byZaid []) z = .error .indexError ∧
    (∀ (d : Dict Str Str) l t, z.library = some l → Dict.get? d l = some t → newTag (.byOld d) z = .ok t) ∧
    (∀ (d : Dict Str Str), d ≠ [] → (∀ l, z.library = some l → Dict.get? d l = none) →
      newTag (.byOld d) z = .error .valueError) ∧
    (∀ (a b : Dict Str (List Str)) lib zs, (∀ p ∈ a, z.num ∉ p.2) → z.num ∈ zs →
      newTag (.byZaid (a ++ (lib, zs) :: b)) z = .ok lib) ∧
    (∀ (d : Dict Str (List Str)), d ≠ [] → (∀ p ∈ d, z.num ∉ p.2) → newTag (.byZaid d) z = .error .valueError) := by
  have hfind : ∀ (a b : Dict Str (List Str)), (∀ p ∈ a, z.num ∉ p.2) → findLib z.num (a ++ b) = findLib z.num b := by
    intro a b ha
    induction a with
    | nil => rfl
    | cons p a ih =>
      obtain ⟨l, zs⟩ := p
      rw [List.cons_append, findLib, if_neg (ha (l, zs) (by simp))]
      exact ih (fun q hq => ha q (by simp [hq]))
  refine ⟨fun _ => rfl, rfl, rfl, fun d l t hl hd => ?_, fun d hne hd => ?_, fun a b lib zs ha hz => ?_,
    fun d hne hd => ?_⟩
  · cases d with
    | nil => cases hd
    | cons p d => simp only [newTag, hl, hd]
  · cases d with
    | nil => exact absurd rfl hne
    | cons p d =>
      cases hl : z.library with
      | none => simp only [newTag, hl]
      | some l => simp only [newTag, hl, hd l hl]
  · have h1 : findLib z.num (a ++ (lib, zs) :: b) = some lib := by
      rw [hfind a _ ha, findLib, if_pos hz]
    unfold newTag
    split
    · rename_i h; cases h
    · rename_i h; cases h
    · rename_i h; simp only [NewLib.byZaid.injEq] at h; simp at h
    · rename_i h; cases h
    · rename_i h; cases h; rw [h1]
  · have h1 : findLib z.num d = none := by
      have := hfind d [] hd
      rw [List.append_nil] at this
      rw [this]; rfl
    cases d with
    | nil => exact absurd rfl hne
    | cons p d => simp only [newTag, h1]

example : newTag (.byZaid [("31c".toList, ["8016".toList]), ("99c".toList, ["1001".toList])])
    ⟨1, "1".toList, "001".toList, none⟩ = .ok "99c".toList := by decide +kernel

/-- **C31 (which material a name refers to).** A name stands for the last material that bears it. -/
theorem lookup_last (a b : List Material) (m : Material) (hb : ∀ x ∈ b, x.name ≠ m.name) :
    lookup (a ++ m :: b) m.name = some m := by
  unfold lookup
  rw [List.reverse_append, List.reverse_cons, List.find?_append, List.find?_append]
  have : List.find? (fun x => decide (x.name = m.name)) b.reverse = none := by
    rw [List.find?_eq_none]
    intro x hx
    simpa using hb x (List.mem_reverse.mp hx)
  rw [this]
  simp

theorem lookup_none (ms : List Material) (n : Str) (h : ∀ x ∈ ms, x.name ≠ n) : lookup ms n = none := by
  unfold lookup
  rw [List.find?_eq_none]
  intro x hx
  simpa using h x (List.mem_reverse.mp hx)

/-- **C31 (unknown material).** A mixture that asks for a material that is not in the list is refused with
`KeyError`, provided the materials before it can be mixed. -/
theorem mix_unknown (ms : List Material) (ftype : Str) (lm : LibMan) (before after : List (Str × ℚ)) (n : Str) (p : ℚ)
    (hb : ∀ q ∈ before, ∃ m, lookup ms q.1 = some m ∧ ∃ l, sourceSubs m q.2 ftype lm = .ok l)
    (hn : ∀ x ∈ ms, x.name ≠ n) : mixSubs ms ftype lm (before ++ (n, p) :: after) = .error .keyError := by
  induction before with
  | nil => simp only [List.nil_append, mixSubs, lookup_none ms n hn]
  | cons q before ih =>
    obtain ⟨m, hm, l, hl⟩ := hb q (by simp)
    obtain ⟨qn, qp⟩ := q
    simp only [List.cons_append, mixSubs, hm, hl, ih (fun q hq => hb q (by simp [hq]))]

/-- **C59 (unknown material).** A cell with an atom density and a material that is not there makes
`get_densities_range` fail with `KeyError`. -/
theorem densitiesRange_unknown (lm : LibMan) (ms : Dict Str Material) (n : Str) (d : ℚ) (cells : List (Str × ℚ))
    (hd : 0 ≤ d) (hn : Dict.get? ms n = none) : densitiesRange lm ms ((n, d) :: cells) = .error .keyError := by
  unfold densitiesRange
  rw [if_neg (not_lt.mpr hd), hn]

/-- **C32 (missing default library).** An isotope the requested library does not have, neither itself nor as a
natural element, needs the default library; if that is not available the conversion fails with `KeyError`, which a
translation does not catch. -/
theorem convert_default_missing (lm : LibMan) {zaid lib : Str} (hl : lib ∈ lm.libs) (hn : last3 zaid ≠ ['0', '0', '0'])
    (h1 : lm.tables lib zaid = false) (h2 : lm.tables lib (dropLast3 zaid ++ ['0', '0', '0']) = false)
    (hd : lm.default ∉ lm.libs) : lm.convert zaid lib = .error .keyError ∧
      ∀ z : Zaid, z.num = zaid → lm.isDosimetry z = false → lm.translation z lib = .error .keyError := by
  have hc : lm.convert zaid lib = .error .keyError := by
    unfold LibMan.convert
    rw [if_neg (not_not.mpr hl), if_neg hn, if_neg, if_neg (by simp [h2])]
    · simp only [LibMan.defaultHas, if_neg hd]
    · simp [LibMan.check4zaid, h1]
  refine ⟨hc, fun z hz hdos => ?_⟩
  unfold LibMan.translation
  rw [if_neg (by simp [hdos]), hz, hc]

/-- **C58 (known elements).** An element is known exactly when its number is an integer that occurs in the isotope
table. -/
theorem knows_iff (lm : LibMan) (z : Zaid) :
    lm.knows z = true ↔ ∃ r ∈ lm.isos, parseInt z.element = some (r.z : ℤ) := by
  unfold LibMan.knows
  cases h : parseInt z.element with
  | none => simp
  | some n =>
    simp only [List.any_eq_true, decide_eq_true_eq, Option.some.injEq]
    constructor
    · rintro ⟨r, hr, e⟩; exact ⟨r, hr, e.symm⟩
    · rintro ⟨r, hr, e⟩; exact ⟨r, hr, e.symm⟩

/-- **C30 (the unit factor)** between `g/cm3` per atomic mass unit and atoms per barn and centimetre is
`0.60220434469282`. -/
theorem unitFactor_value : unitFactor = 60220434469282 / 10 ^ 14 := by
  unfold unitFactor avogadro; norm_num

/-- **C30 (mass of a zaid).** An isotope of the table has the mass of its row; otherwise the mass is the sum of the
masses of the element's isotopes weighted with their abundances; an unknown element is refused with `KeyError`, a name
that is not a number with `ValueError`. -/
theorem mass_spec (lm : LibMan) (z : Zaid) :
    (∀ a r b, lm.isos = a ++ r :: b → r.idx = z.num → (∀ x ∈ a, x.idx ≠ z.num) → lm.mass z = .ok r.mass) ∧
    ((∀ r ∈ lm.isos, r.idx ≠ z.num) →
      (parseInt z.element = none → lm.mass z = .error .valueError) ∧
      ∀ n, parseInt z.element = some n →
        ((∀ r ∈ lm.isos, (r.z : ℤ) ≠ n) → lm.mass z = .error .keyError) ∧
        ((∃ r ∈ lm.isos, (r.z : ℤ) = n) →
          lm.mass z = .ok ((lm.isos.filter (fun r => decide ((r.z : ℤ) = n))).map (fun r => r.mass * r.ab)).sum)) := by
  constructor
  · intro a r b h hr ha
    have : lm.isos.find? (fun r => decide (r.idx = z.num)) = some r := by
      rw [h, List.find?_append]
      have h1 : a.find? (fun r => decide (r.idx = z.num)) = none := by
        rw [List.find?_eq_none]; intro x hx; simpa using ha x hx
      rw [h1]
      simp [hr]
    unfold LibMan.mass
    rw [this]
  · intro hn
    have h0 : lm.isos.find? (fun r => decide (r.idx = z.num)) = none := by
      rw [List.find?_eq_none]; intro x hx; simpa using hn x hx
    unfold LibMan.mass
    rw [h0]
    refine ⟨fun h => by simp [h], fun n h => ⟨fun hz => ?_, fun hz => ?_⟩⟩
    · have : lm.isos.filter (fun r => decide ((r.z : ℤ) = n)) = [] := by
        rw [List.filter_eq_nil_iff]; intro x hx; simpa using hz x hx
      simp [h, this]
    · obtain ⟨r, hr, e⟩ := hz
      have hm : r ∈ lm.isos.filter (fun r => decide ((r.z : ℤ) = n)) := by simp [hr, e]
      simp only [h]
      generalize lm.isos.filter (fun r => decide ((r.z : ℤ) = n)) = l at hm
      cases l with
      | nil => cases hm
      | cons x l => rfl

example : sampleLib.mass ⟨1, "3".toList, "000".toList, none⟩ = .ok (69 / 10) ∧
    sampleLib.mass ⟨1, "3".toList, "006".toList, none⟩ = .ok 6 ∧
    sampleLib.mass ⟨1, "92".toList, "235".toList, none⟩ = .error .keyError := by decide +kernel

end F4Enix.Mat
