import Verif.D1S.InputProps
/-!
# What a translation leaves behind, also when it fails (C188)

`SubMaterial.translate`, `Material.translate`, `MatCardsList.translate`, `MatCardsList.update_info` (`src/f4enix/input/materials.py:559-666, 1041-1080, 1579-1636`),
`Input.translate`, `Input.update_zaidinfo`, `D1S_Input.smart_translate` (`src/f4enix/input/MCNPinput.py:497-548, 1995-2061`) as functions of the state: every function returns the
objects after the call and the error with which it ended, if any.
-/
namespace F4Enix.D1S
open F4Enix F4Enix.Mat

/-! ### model -/

/-- a step of a loop over the elements of a list, each changed in place: the first failure ends the loop, the elements behind it stay. (Python, materials.py:1064-1079) -/
def sweep {α : Type} (f : α → α × Option PyErr) : List α → List α × Option PyErr
  | [] => ([], none)
  | a :: as =>
    match f a with
    | (a', some e) => (a' :: as, some e)
    | (a', none) => (a' :: (sweep f as).1, (sweep f as).2)

/-- `SubMaterial.translate` (materials.py:559-666): the list of zaids is replaced when all of them are translated -/
def subState (nl : NewLib) (lm : LibMan) (s : SubMat) : SubMat × Option PyErr :=
  match translateZaids nl lm s.zaids with
  | .error e => (s, some e)
  | .ok zs => ({ s with zaids := zs, elements := collapse zs }, none)

/-- `Material._update_info` (materials.py:1099-1112). Simplification: a failing update leaves the elements as they are (the code may have rebuilt some from the zaids, which changes
nothing if they are those of the zaids). -/
def infoState (lm : LibMan) (m : Material) : Material × Option PyErr :=
  match m.updateInfo lm with
  | .error e => (m, some e)
  | .ok m' => (m', none)

/-- `Material.translate` (materials.py:1073-1076) -/
def matState (nl : NewLib) (lm : LibMan) (m : Material) : Material × Option PyErr :=
  match sweep (subState nl lm) m.subs with
  | (subs, some e) => ({ m with subs := subs }, some e)
  | (subs, none) => infoState lm { m with subs := subs }

/-- the body of the loop of `MatCardsList.translate` (materials.py:1607-1612) -/
def cardState (nl : NewLib) (lm : LibMan) (m : Material) : Material × Option PyErr :=
  match matState nl lm m with
  | (m', some e) => (m', some e)
  | (m', none) => ({ m' with subs := m'.subs.map (fun s => { s with elements := collapse s.zaids }) }, none)

/-- `MatCardsList.translate` with the final `update_info` (materials.py:1620-1636) -/
def listState (nl : NewLib) (lm : LibMan) (ms : List Material) : List Material × Option PyErr :=
  match sweep (cardState nl lm) ms with
  | (ms', some e) => (ms', some e)
  | (ms', none) => sweep (infoState lm) ms'

/-- the argument `newlib` of `Input.translate`: text or dictionary (MCNPinput.py:497-534) -/
inductive LibArg where
  | text (s : Str)
  | dict (nl : NewLib)

/-- the conversion of the argument (MCNPinput.py:524-531); `json` stands for `json.loads`. Only `KeyError` is caught: `newlib[0]` of an empty text fails. -/
def readArg (json : Str → Except PyErr NewLib) : LibArg → Except PyErr NewLib
  | .dict nl => .ok nl
  | .text [] => .error .indexError
  | .text (c :: s) => if c = '{' then json (c :: s) else .ok (.one (c :: s))

/-- `Input.translate` (MCNPinput.py:497-534) on the materials of the input -/
def inputState (json : Str → Except PyErr NewLib) (arg : LibArg) (lm : LibMan) (ms : List Material) : List Material × Option PyErr :=
  match readArg json arg with
  | .error e => (ms, some e)
  | .ok nl =>
    match sweep (infoState lm) ms with
    | (ms', some e) => (ms', some e)
    | (ms', none) => listState nl lm ms'

/-- the part of `smart_translate` after the optional first translation (MCNPinput.py:2037-2061) -/
def smartCoreState (i : DInput) (rs : List Reaction) (act tr : Str) (lm : LibMan) : DInput × Option PyErr :=
  let active := rs.map (fun r => beforeDot r.parent)
  let i' := addPikmt { i with reac := some (rs.map (fun r => r.changeLib act)) }
  let transp := transpLoop active [] (i.materials.flatMap Material.zaids)
  let r := listState (.byZaid (smartLibs act tr active transp)) lm i'.materials
  ({ i' with materials := r.1 }, r.2)

/-- `D1S_Input.smart_translate` (MCNPinput.py:1995-2061): the input after the call -/
def smartState (json : Str → Except PyErr NewLib) (i : DInput) (act tr : Str) (lm : LibMan) (fixNatural : Bool) : DInput × Option PyErr :=
  match i.reac with
  | none => (i, some .valueError)
  | some rs =>
    if fixNatural then
      match inputState json (.text tr) lm i.materials with
      | (ms, some e) => ({ i with materials := ms }, some e)
      | (ms, none) => smartCoreState { i with materials := ms } rs act tr lm
    else smartCoreState i rs act tr lm

/-! ### lemmas -/

theorem sweep_ok {α : Type} {f : α → α × Option PyErr} {g : α → Except PyErr α} (hfg : ∀ a b, g a = .ok b → f a = (b, none)) {l l' : List α}
    (h : mapE g l = .ok l') : sweep f l = (l', none) := by
  induction l generalizing l' with
  | nil => simp only [mapE, Except.ok.injEq] at h; subst h; rfl
  | cons a l ih =>
    unfold mapE at h
    cases ha : g a with
    | error e => rw [ha] at h; cases h
    | ok b =>
      cases hl : mapE g l with
      | error e => simp only [ha, hl] at h; cases h
      | ok bs =>
        simp only [ha, hl, Except.ok.injEq] at h
        subst h
        unfold sweep
        simp only [hfg a b ha, ih hl]

theorem sweep_error {α : Type} {f : α → α × Option PyErr} {g : α → Except PyErr α} (hok : ∀ a b, g a = .ok b → f a = (b, none))
    (herr : ∀ a e, g a = .error e → (f a).2 = some e) {l : List α} {e : PyErr}
    (h : mapE g l = .error e) : ∃ pre a post pre', l = pre ++ a :: post ∧ mapE g pre = .ok pre' ∧ g a = .error e ∧
      sweep f l = (pre' ++ (f a).1 :: post, some e) := by
  induction l with
  | nil => cases h
  | cons a l ih =>
    unfold mapE at h
    cases ha : g a with
    | error e' =>
      simp only [ha, Except.error.injEq] at h
      subst h
      refine ⟨[], a, l, [], rfl, rfl, ha, ?_⟩
      have h2 := herr a _ ha
      unfold sweep
      revert h2
      rcases f a with ⟨b, _ | e⟩
      · intro h2; cases h2
      · intro h2; simp only [Option.some.injEq] at h2; subst h2; rfl
    | ok b =>
      cases hl : mapE g l with
      | ok bs => simp only [ha, hl] at h; cases h
      | error e' =>
        simp only [ha, hl, Except.error.injEq] at h
        subst h
        obtain ⟨pre, c, post, pre', h1, h2, h3, h4⟩ := ih hl
        refine ⟨a :: pre, c, post, b :: pre', by rw [h1]; rfl, ?_, h3, ?_⟩
        · simp only [mapE, ha, h2]
        · unfold sweep
          simp only [hok a b ha, h4]
          rfl

theorem subState_ok {nl : NewLib} {lm : LibMan} {s s' : SubMat} (h : s.translate nl lm = .ok s') : subState nl lm s = (s', none) := by
  unfold SubMat.translate at h
  unfold subState
  cases hz : translateZaids nl lm s.zaids with
  | error e => rw [hz] at h; cases h
  | ok zs => rw [hz] at h; simp only [Except.ok.injEq] at h; subst h; rfl

theorem subState_error {nl : NewLib} {lm : LibMan} {s : SubMat} {e : PyErr} (h : s.translate nl lm = .error e) : subState nl lm s = (s, some e) := by
  unfold SubMat.translate at h
  unfold subState
  cases hz : translateZaids nl lm s.zaids with
  | ok zs => rw [hz] at h; cases h
  | error e' => rw [hz] at h; simp only [Except.error.injEq] at h; subst h; rfl

theorem infoState_ok {lm : LibMan} {m m' : Material} (h : m.updateInfo lm = .ok m') : infoState lm m = (m', none) := by
  unfold infoState; rw [h]

theorem infoState_error {lm : LibMan} {m : Material} {e : PyErr} (h : m.updateInfo lm = .error e) : infoState lm m = (m, some e) := by
  unfold infoState; rw [h]

theorem updateInfo_again {lm : LibMan} {m m' : Material} (h : m.updateInfo lm = .ok m') :
    m' = { m with subs := m.subs.map (fun s => { s with elements := collapse s.zaids }) } ∧ m'.updateInfo lm = .ok m' := by
  unfold Material.updateInfo at h
  split at h
  · rename_i hc
    simp only [Except.ok.injEq] at h
    subst h
    refine ⟨rfl, ?_⟩
    unfold Material.updateInfo
    rw [if_pos]
    · simp [Function.comp_def]
    · simpa [List.all_map, Function.comp_def] using hc
  · cases h

theorem rebuilt_same {lm : LibMan} {m m' : Material} (h : m.updateInfo lm = .ok m') :
    ({ m' with subs := m'.subs.map (fun s => { s with elements := collapse s.zaids }) } : Material) = m' := by
  rw [(updateInfo_again h).1]
  simp [Function.comp_def]

theorem cardState_ok {nl : NewLib} {lm : LibMan} {m m' : Material} (h : m.translate nl lm = .ok m') :
    cardState nl lm m = (m', none) ∧ matState nl lm m = (m', none) ∧ m'.updateInfo lm = .ok m' := by
  unfold Material.translate at h
  cases hs : mapE (fun s : SubMat => s.translate nl lm) m.subs with
  | error e => rw [hs] at h; cases h
  | ok subs =>
    rw [hs] at h
    have h1 : sweep (subState nl lm) m.subs = (subs, none) := sweep_ok (g := fun s : SubMat => s.translate nl lm) (fun a b hab => subState_ok hab) hs
    have h2 : matState nl lm m = (m', none) := by
      unfold matState
      simp only [h1, infoState_ok h]
    refine ⟨?_, h2, (updateInfo_again h).2⟩
    unfold cardState
    simp only [h2, rebuilt_same h]

/-- What a failing `Material.translate` leaves of the material: the submaterials before the one that fails translated, the others as they were; or all translated if it is the
annotation that fails. (specification) -/
def PartlyTranslated (nl : NewLib) (lm : LibMan) (m m' : Material) (e : PyErr) : Prop :=
  m'.name = m.name ∧
  ((∃ pre s post pre', m.subs = pre ++ s :: post ∧ m'.subs = pre' ++ s :: post ∧
      List.Forall₂ (fun a b : SubMat => a.translate nl lm = .ok b) pre pre' ∧ s.translate nl lm = .error e) ∨
   (List.Forall₂ (fun a b : SubMat => a.translate nl lm = .ok b) m.subs m'.subs ∧ m'.updateInfo lm = .error e))

theorem cardState_error {nl : NewLib} {lm : LibMan} {m : Material} {e : PyErr} (h : m.translate nl lm = .error e) :
    (cardState nl lm m).2 = some e ∧ PartlyTranslated nl lm m (cardState nl lm m).1 e := by
  unfold Material.translate at h
  cases hs : mapE (fun s : SubMat => s.translate nl lm) m.subs with
  | error e' =>
    rw [hs] at h
    simp only [Except.error.injEq] at h
    subst h
    obtain ⟨pre, s, post, pre', h1, h2, h3, h4⟩ := sweep_error (f := subState nl lm) (g := fun s : SubMat => s.translate nl lm)
      (fun a b hab => subState_ok hab) (fun a e hae => by rw [subState_error hae]) hs
    have h5 : cardState nl lm m = ({ m with subs := pre' ++ s :: post }, some e') := by
      unfold cardState matState
      rw [subState_error h3] at h4
      simp only [h4]
    rw [h5]
    exact ⟨rfl, rfl, Or.inl ⟨pre, s, post, pre', h1, rfl, mapE_ok h2, h3⟩⟩
  | ok subs =>
    rw [hs] at h
    have h1 : sweep (subState nl lm) m.subs = (subs, none) := sweep_ok (g := fun s : SubMat => s.translate nl lm) (fun a b hab => subState_ok hab) hs
    have h5 : cardState nl lm m = ({ m with subs := subs }, some e) := by
      unfold cardState matState
      simp only [h1, infoState_error h]
    rw [h5]
    exact ⟨rfl, rfl, Or.inr ⟨mapE_ok hs, h⟩⟩

theorem infoSweep_same {lm : LibMan} {ms : List Material} (h : ∀ m ∈ ms, m.updateInfo lm = .ok m) : sweep (infoState lm) ms = (ms, none) := by
  induction ms with
  | nil => rfl
  | cons m ms ih =>
    unfold sweep
    simp only [infoState_ok (h m (by simp)), ih (fun q hq => h q (List.mem_cons_of_mem _ hq))]

/-! ### C188 -/

/-- **C188** (accepted). When the translation of a list of materials ends normally the materials afterwards are the translated ones; the final update of the annotation changes
nothing and cannot fail. -/
theorem translation_accepted {nl : NewLib} {lm : LibMan} {ms ms' : List Material} (h : translateAll ms nl lm = .ok ms') :
    listState nl lm ms = (ms', none) := by
  have h1 : sweep (cardState nl lm) ms = (ms', none) := sweep_ok (g := fun m : Material => m.translate nl lm) (fun a b hab => (cardState_ok hab).1) h
  unfold listState
  simp only [h1]
  apply infoSweep_same
  have hf := mapE_ok h
  intro m hm
  clear h h1
  induction hf with
  | nil => simp at hm
  | @cons a b l l' hab _ ih =>
    rcases List.mem_cons.1 hm with rfl | hm
    · exact (cardState_ok hab).2.2
    · exact ih hm

/-- **C188** (refused). A translation that fails leaves the materials before the failing one translated, those behind it as they were, and the failing one partly translated. -/
theorem translation_refused {nl : NewLib} {lm : LibMan} {ms : List Material} {e : PyErr} (h : translateAll ms nl lm = .error e) :
    ∃ pre m post pre' m', ms = pre ++ m :: post ∧ listState nl lm ms = (pre' ++ m' :: post, some e) ∧ translateAll pre nl lm = .ok pre' ∧
      PartlyTranslated nl lm m m' e := by
  obtain ⟨pre, m, post, pre', h1, h2, h3, h4⟩ := sweep_error (f := cardState nl lm) (g := fun m : Material => m.translate nl lm)
    (fun a b hab => (cardState_ok hab).1) (fun a e hae => (cardState_error hae).1) h
  refine ⟨pre, m, post, pre', _, h1, ?_, h2, (cardState_error h3).2⟩
  unfold listState
  simp only [h4]

/-- **C188** (outcome). The call fails with exactly the errors of the translation of the materials one by one. -/
theorem translation_outcome (nl : NewLib) (lm : LibMan) (ms : List Material) (e : PyErr) :
    (listState nl lm ms).2 = some e ↔ translateAll ms nl lm = .error e := by
  cases h : translateAll ms nl lm with
  | ok ms' => rw [translation_accepted h]; simp
  | error e' =>
    obtain ⟨pre, m, post, pre', m', -, h2, -⟩ := translation_refused h
    rw [h2]
    simp

/-- the submaterial is as before or its zaids are the translated ones (specification) -/
def Whole (nl : NewLib) (lm : LibMan) (s s' : SubMat) : Prop :=
  s'.header = s.header ∧ s'.keys = s.keys ∧ (s' = s ∨ (translateZaids nl lm s.zaids = .ok s'.zaids ∧ s'.elements = collapse s'.zaids))

theorem whole_translated {nl : NewLib} {lm : LibMan} {s s' : SubMat} (h : s.translate nl lm = .ok s') : Whole nl lm s s' := by
  obtain ⟨h1, h2, h3, h4⟩ := translate_parts h
  exact ⟨h3, h4, Or.inr ⟨h1, h2⟩⟩

theorem whole_list {nl : NewLib} {lm : LibMan} {l l' : List SubMat} (h : List.Forall₂ (fun a b : SubMat => a.translate nl lm = .ok b) l l') :
    List.Forall₂ (Whole nl lm) l l' := by
  induction h with
  | nil => exact .nil
  | cons a _ ih => exact .cons (whole_translated a) ih

theorem whole_refl (nl : NewLib) (lm : LibMan) (l : List SubMat) : List.Forall₂ (Whole nl lm) l l := by
  induction l with
  | nil => exact .nil
  | cons s l ih => exact .cons ⟨rfl, rfl, Or.inl rfl⟩ ih

theorem forall₂_app {α β : Type} {R : α → β → Prop} {a a' : List α} {b b' : List β} (h : List.Forall₂ R a b) (h' : List.Forall₂ R a' b') :
    List.Forall₂ R (a ++ a') (b ++ b') := by
  induction h with
  | nil => exact h'
  | cons x _ ih => exact .cons x ih

theorem whole_done {nl : NewLib} {lm : LibMan} {m m' : Material} (h : m.translate nl lm = .ok m') :
    m'.name = m.name ∧ List.Forall₂ (Whole nl lm) m.subs m'.subs := by
  unfold Material.translate at h
  cases hs : mapE (fun s : SubMat => s.translate nl lm) m.subs with
  | error e => rw [hs] at h; cases h
  | ok subs =>
    rw [hs] at h
    have hu := (updateInfo_again h).1
    have hf := mapE_ok hs
    have hm : m'.subs = subs := by
      rw [hu]
      simp only
      clear hu h hs
      generalize m.subs = l0 at hf
      induction hf with
      | nil => rfl
      | @cons a b l l' hab _ ih =>
        rw [List.map_cons, ih, ← (translate_parts hab).2.1]
    refine ⟨by rw [hu], ?_⟩
    rw [hm]
    exact whole_list hf

/-- **C188** (no half translated submaterial). Whether the translation fails or not, the materials keep their number, order and names, and their submaterials number, order, header
and keywords, and every submaterial is as it was before or completely translated, its element list being that of its zaids. Partial: False as stated: materials and submaterials before the failing one stay translated (translation_refused, not_atomic), and a translation by old libraries can then not be repeated (repeat_refused). Proved: exactly what is left behind, no submaterial is half translated, the outcome, what smart_translate leaves of reaction file and cards. -/
theorem translation_whole_partial (nl : NewLib) (lm : LibMan) (ms : List Material) :
    List.Forall₂ (fun m m' : Material => m'.name = m.name ∧ List.Forall₂ (Whole nl lm) m.subs m'.subs) ms (listState nl lm ms).1 := by
  have done : ∀ {l l' : List Material}, List.Forall₂ (fun a b : Material => a.translate nl lm = .ok b) l l' →
      List.Forall₂ (fun m m' : Material => m'.name = m.name ∧ List.Forall₂ (Whole nl lm) m.subs m'.subs) l l' := by
    intro l l' h
    induction h with
    | nil => exact .nil
    | cons a _ ih => exact .cons (whole_done a) ih
  cases h : translateAll ms nl lm with
  | ok ms' =>
    rw [translation_accepted h]
    exact done (mapE_ok h)
  | error e =>
    obtain ⟨pre, m, post, pre', m', h1, h2, h3, h4⟩ := translation_refused h
    rw [h2, h1]
    refine forall₂_app (done (mapE_ok h3)) (.cons ⟨h4.1, ?_⟩ ?_)
    · rcases h4.2 with ⟨a, s, b, a', e1, e2, e3, -⟩ | ⟨e1, -⟩
      · rw [e1, e2]
        exact forall₂_app (whole_list e3) (.cons ⟨rfl, rfl, Or.inl rfl⟩ (whole_refl nl lm b))
      · exact whole_list e1
    · clear h2 h1 h3 h4
      induction post with
      | nil => exact .nil
      | cons m l ih => exact .cons ⟨rfl, whole_refl nl lm m.subs⟩ ih

/-- **C188** (amounts). Whatever happens, a submaterial in mass fractions all of whose zaids can be translated keeps the mass of every element. -/
theorem translation_mass {nl : NewLib} {lm : LibMan} (ht : TableOk lm) {s s' : SubMat} (h : Whole nl lm s s') (hc : ∀ z ∈ s.zaids, Canon z)
    (hel : ∀ z ∈ s.zaids, ∃ n, lm.IsElement z n) (hneg : ∀ z ∈ s.zaids, z.fraction < 0) (hk : ∀ z ∈ s.zaids, kept nl lm z = true) (e : Str) :
    elementAmount e s'.zaids = elementAmount e s.zaids := by
  rcases h.2.2 with rfl | ⟨h1, -⟩
  · rfl
  · have htr : s.translate nl lm = .ok { s with zaids := s'.zaids, elements := collapse s'.zaids } := by
      unfold SubMat.translate
      rw [h1]
    have := translate_mass_element lm ht htr hc hel hneg e
    simp only at this
    rw [this, List.filter_eq_self.2 hk]

/-- **C188** (an input). The argument of `Input.translate` is the name of a library, a dictionary, or the text of a dictionary; an empty text and a text that is no dictionary are
refused before anything changes. -/
theorem input_argument (json : Str → Except PyErr NewLib) (lm : LibMan) (ms : List Material) :
    (∀ c s, c ≠ '{' → inputState json (.text (c :: s)) lm ms = inputState json (.dict (.one (c :: s))) lm ms) ∧
    (∀ s nl, json ('{' :: s) = .ok nl → inputState json (.text ('{' :: s)) lm ms = inputState json (.dict nl) lm ms) ∧
    (∀ s e, json ('{' :: s) = .error e → inputState json (.text ('{' :: s)) lm ms = (ms, some e)) ∧
    inputState json (.text []) lm ms = (ms, some .indexError) := by
  refine ⟨?_, ?_, ?_, rfl⟩
  · intro c s hc
    simp only [inputState, readArg, if_neg hc]
  · intro s nl h
    simp only [inputState, readArg, if_pos, h]
  · intro s e h
    simp only [inputState, readArg, if_pos, h]

/-- the annotation of every material can be computed: known elements, no empty submaterial, no element whose fractions add up to zero (specification) -/
def Annotated (lm : LibMan) (ms : List Material) : Prop := ∀ m ∈ ms, m.updateInfo lm = .ok m

/-- **C188** (an input). For materials whose annotation can be computed and is up to date `Input.translate` is the translation of the list; otherwise it fails and no zaid changes. -/
theorem input_translation (json : Str → Except PyErr NewLib) (nl : NewLib) (lm : LibMan) (ms : List Material) :
    (Annotated lm ms → inputState json (.dict nl) lm ms = listState nl lm ms) ∧
    (∀ m ∈ ms, ∀ e, m.updateInfo lm = .error e → (inputState json (.dict nl) lm ms).2 = some .keyError ∧
      ((inputState json (.dict nl) lm ms).1.map (fun m => (m.name, m.subs.map SubMat.zaids))) = ms.map (fun m => (m.name, m.subs.map SubMat.zaids))) := by
  constructor
  · intro h
    simp only [inputState, readArg, infoSweep_same h]
  · intro m hm e he
    have key : (sweep (infoState lm) ms).2 = some .keyError ∧
        (sweep (infoState lm) ms).1.map (fun m => (m.name, m.subs.map SubMat.zaids)) = ms.map (fun m => (m.name, m.subs.map SubMat.zaids)) := by
      induction ms with
      | nil => simp at hm
      | cons a l ih =>
        unfold sweep
        cases ha : a.updateInfo lm with
        | error e' =>
          rw [infoState_error ha]
          refine ⟨?_, rfl⟩
          unfold Material.updateInfo at ha
          split at ha
          · cases ha
          · simp only [Except.error.injEq] at ha; rw [← ha]
        | ok b =>
          rw [infoState_ok ha]
          rcases List.mem_cons.1 hm with rfl | hm
          · rw [he] at ha; cases ha
          · obtain ⟨i1, i2⟩ := ih hm
            refine ⟨i1, ?_⟩
            obtain ⟨u1, u2⟩ := updateInfo_zaids ha
            simp only [List.map_cons, i2, u1, u2]
    simp only [inputState, readArg]
    revert key
    rcases sweep (infoState lm) ms with ⟨ms', _ | e⟩
    · intro key; simp at key
    · intro key; exact key

/-- **C188** (a D1S input). `smart_translate` leaves the reaction file and the PIKMT card of `smartTranslate` whatever happens; the materials are the translated ones if it ends
normally. Cards other than PIKMT, and the irradiation file, are not touched. -/
theorem smart_left (json : Str → Except PyErr NewLib) (i : DInput) (act tr : Str) (lm : LibMan) :
    (smartState json i act tr lm false).1.reac = (smartTranslate i act tr lm false).reac ∧
    (smartState json i act tr lm false).1.data = (smartTranslate i act tr lm false).data ∧
    (smartState json i act tr lm false).1.irrad = i.irrad ∧
    (∀ k, k ≠ "PIKMT".toList → Dict.get? (smartState json i act tr lm false).1.data k = Dict.get? i.data k) ∧
    (∀ ms, (smartTranslate i act tr lm false).materials = .ok ms →
      (smartState json i act tr lm false).1.materials = ms ∧ (smartState json i act tr lm false).2 = none) ∧
    (∀ e, (smartTranslate i act tr lm false).materials = .error e → (smartState json i act tr lm false).2 = some e) := by
  unfold smartState smartTranslate
  cases hr : i.reac with
  | none =>
    refine ⟨hr, rfl, rfl, fun _ _ => rfl, ?_, ?_⟩
    · intro ms h; cases h
    · intro e h; cases h; rfl
  | some rs =>
    simp only [if_neg (by decide : ¬ (false = true)), smartCoreState, smartCore, addPikmt]
    refine ⟨trivial, trivial, trivial, ?_, ?_, ?_⟩
    · intro k hk
      exact Dict.get?_set_ne _ _ (Ne.symm hk)
    · intro ms h
      rw [translation_accepted h]
      exact ⟨rfl, rfl⟩
    · intro e h
      exact (translation_outcome _ _ _ _).2 h

/-- **C188** (a D1S input, natural zaids). If the first translation to the transport library fails, reaction file and cards are as before. -/
theorem smart_fix_refused (json : Str → Except PyErr NewLib) (i : DInput) (act tr : Str) (lm : LibMan) {e : PyErr}
    (h : (inputState json (.text tr) lm i.materials).2 = some e) (hr : i.reac ≠ none) :
    (smartState json i act tr lm true).2 = some e ∧ (smartState json i act tr lm true).1.reac = i.reac ∧
    (smartState json i act tr lm true).1.data = i.data ∧
    (smartState json i act tr lm true).1.materials = (inputState json (.text tr) lm i.materials).1 := by
  unfold smartState
  cases hi : i.reac with
  | none => exact absurd hi hr
  | some rs =>
    simp only [if_true]
    revert h
    rcases inputState json (.text tr) lm i.materials with ⟨ms, _ | e'⟩
    · intro h; cases h
    · intro h
      exact ⟨h, rfl, rfl, rfl⟩

/-- **C188 is false of the code if refusals are meant to leave the input alone, and a refused translation by old libraries cannot be repeated**: once a zaid has got a library that is no key of the
dictionary, every translation with a dictionary without that key is refused. -/
theorem repeat_refused {d : Dict Str Str} {lm : LibMan} {ms : List Material} {m : Material} (hm : m ∈ ms) {s : SubMat} (hs : s ∈ m.subs) {z : Zaid} (hz : z ∈ s.zaids)
    {l : Str} (hl : z.library = some l) (hd : Dict.get? d l = none) : (listState (.byOld d) lm ms).2 ≠ none := by
  intro hcon
  cases h : translateAll ms (.byOld d) lm with
  | error e =>
    rw [(translation_outcome _ _ _ e).2 h] at hcon
    cases hcon
  | ok ms' =>
    obtain ⟨m', -, hm'⟩ := forall₂_mem_left (mapE_ok h) hm
    simp only [Material.translate] at hm'
    split at hm'
    · simp at hm'
    rename_i subs hsubs
    obtain ⟨s', -, hs'⟩ := forall₂_mem_left (mapE_ok hsubs) hs
    obtain ⟨tag, htag, -⟩ := (translateZaids_eq (translate_parts hs').1).2 z hz
    cases d with
    | nil => simp [newTag] at htag
    | cons p q => simp [newTag, hl, hd] at htag

/-! ### a concrete case -/

/-- `leftHydrogen` (example) -/
def leftHydrogen (lib : Str) : SubMat := mkSub [⟨1, "1".toList, "001".toList, some lib⟩] none []
/-- `leftLithium` (example) -/
def leftLithium : SubMat := mkSub [⟨1, "3".toList, "006".toList, some "00c".toList⟩] none []
/-- `leftOxygen` (example) -/
def leftOxygen (lib : Str) : SubMat := mkSub [⟨2, "8".toList, "016".toList, some lib⟩] none []

/-- oxygen, then hydrogen and lithium, then oxygen (example) -/
def leftMats : List Material :=
  [⟨"M1".toList, [leftOxygen "21c".toList]⟩, ⟨"M2".toList, [leftHydrogen "21c".toList, leftLithium]⟩, ⟨"M3".toList, [leftOxygen "21c".toList]⟩]

/-- a translation of the libraries `21c` only: M1 and the hydrogen of M2 are translated, the lithium, which is in `00c`, is not, and M3 is not reached -/
theorem left_behind :
    listState (.byOld [("21c".toList, "31c".toList)]) sampleLib leftMats =
      ([⟨"M1".toList, [leftOxygen "31c".toList]⟩, ⟨"M2".toList, [leftHydrogen "31c".toList, leftLithium]⟩, ⟨"M3".toList, [leftOxygen "21c".toList]⟩], some .valueError) := by
  decide +kernel

/-- **C188 is false of the code**: the refused translation has changed materials, and repeating it with the missing library added is refused again, because of the zaids
that were translated; for the materials as they were it would have succeeded. -/
theorem not_atomic :
    (listState (.byOld [("21c".toList, "31c".toList)]) sampleLib leftMats).1 ≠ leftMats ∧
    (listState (.byOld [("21c".toList, "31c".toList), ("00c".toList, "31c".toList)]) sampleLib
      (listState (.byOld [("21c".toList, "31c".toList)]) sampleLib leftMats).1).2 ≠ none ∧
    (listState (.byOld [("21c".toList, "31c".toList), ("00c".toList, "31c".toList)]) sampleLib leftMats).2 = none := by
  refine ⟨by decide +kernel, ?_, by decide +kernel⟩
  rw [left_behind]
  exact repeat_refused (m := ⟨"M1".toList, [leftOxygen "31c".toList]⟩) (by simp) (s := leftOxygen "31c".toList) (by simp) (z := ⟨2, "8".toList, "016".toList, some "31c".toList⟩)
    (by simp [leftOxygen, mkSub]) rfl (by decide +kernel)

example : Annotated sampleLib leftMats := by unfold Annotated; decide +kernel
example : translateAll leftMats (.byOld [("21c".toList, "31c".toList)]) sampleLib = .error .valueError := by decide +kernel
/-- the update of the annotation can fail after the submaterials were translated: oxygen 18 is in no library of this manager and is dropped, leaving an empty submaterial -/
theorem annotation_fails_late :
    listState (.one "31c".toList) sampleLib [⟨"M1".toList, [leftHydrogen "21c".toList, mkSub [⟨1, "8".toList, "018".toList, some "21c".toList⟩] none []]⟩] =
      ([⟨"M1".toList, [leftHydrogen "31c".toList, mkSub [] none []]⟩], some .keyError) := by decide +kernel
example : readArg (fun _ => .error .valueError) (.text "31c".toList) = .ok (.one "31c".toList) := by decide +kernel

/-- the hypotheses of `translation_mass` are met by hydrogen given by mass -/
example : elementAmount "1".toList (mkSub [⟨-1, "1".toList, "001".toList, some "31c".toList⟩] none []).zaids =
    elementAmount "1".toList (mkSub [⟨-1, "1".toList, "001".toList, some "21c".toList⟩] none []).zaids := by
  refine translation_mass (nl := .one "31c".toList) sampleLib_ok (whole_translated (by decide +kernel)) ?_ ?_ (by decide +kernel) (by decide +kernel) _
  · intro z hz
    simp only [mkSub, List.mem_cons, List.not_mem_nil, or_false] at hz
    subst hz
    exact ⟨by decide, by decide, (by intro l hl; cases hl; decide), by decide⟩
  · intro z hz
    simp only [mkSub, List.mem_cons, List.not_mem_nil, or_false] at hz
    subst hz
    exact ⟨1, by decide +kernel, by decide +kernel⟩

/-- the first translation of `smart_translate` can fail -/
example : (inputState (fun _ => .error .valueError) (.text "31c".toList) sampleLib
    [⟨"M1".toList, [mkSub [⟨1, "8".toList, "018".toList, some "21c".toList⟩] none []]⟩]).2 = some .keyError := by decide +kernel

end F4Enix.D1S
