import Verif.WW.CliFiles
/-!
# Sessions of the menu of weight windows with their files (C194, C195)
-/
namespace F4Enix.Cli
open F4Enix F4Enix.WW F4Enix.Mesh F4Enix.MeshFile

/-! ## Specification -/

/-- a window read back from a file: the same counts, particles and kind of mesh, every number near the old one (specification) -/
structure NearWin (w w' : Win) : Prop where
  i : AxisNear w.1.i w'.1.i
  j : AxisNear w.1.j w'.1.j
  k : AxisNear w.1.k w'.1.k
  origin : List.Forall₂ WW.Near w.1.origin w'.1.origin
  kind : w'.1.directors.isSome = w.1.directors.isSome
  directors : ∀ d1 d2, w.1.directors = some (d1, d2) → ∃ d1' d2', w'.1.directors = some (d1', d2') ∧ List.Forall₂ WW.Near d1 d1' ∧ List.Forall₂ WW.Near d2 d2'
  particles : present w'.2 = present w.2
  values : ∀ p e k j i v, (look w.2.values p e).bind (fun a => a.get k j i) = some v →
    ∃ e' v', WW.Near e e' ∧ WW.Near v v' ∧ (look w'.2.values p e').bind (fun a => a.get k j i) = some v'
  again : save pyFmt w'.1 w'.2 = save pyFmt w.1 w.2

/-- a window whose file has room for it (specification) -/
def HasRoom (w : Win) : Prop := Fits w.1 w.2 ∧ EnergiesDiffer five w.2.values

/-- the files of the disk that are read as windows have the counts of their axes (specification) -/
def Tidy (wd : World) : Prop := ∀ p t w, wd.disk p = some t → load pyFmt t = .ok w → WW.Good w.1.shape w.2.values

/-! ## Windows that are read or made -/

theorem newWW_nonempty {cyl : Bool} {v : Values} {s : Window} (h : newWW cyl v = .ok s)
    (hk : v.keys = [.neutron] ∨ v.keys = [.neutron, .photon]) : ∀ p d, (p, d) ∈ v → d ≠ [] := by
  have hform : (∃ d, v = [(.neutron, d)]) ∨ ∃ d d', v = [(.neutron, d), (.photon, d')] := by
    match v, hk with
    | [], hk => simp [Dict.keys] at hk
    | [(a, d)], hk => simp [Dict.keys] at hk; exact Or.inl ⟨d, by rw [hk]⟩
    | [(a, d), (b, d')], hk => simp [Dict.keys] at hk; exact Or.inr ⟨d, d', by rw [hk.1, hk.2]⟩
    | _ :: _ :: _ :: _, hk => simp [Dict.keys] at hk
  have hne : ∀ (g : Dict Label (List ℚ)) (d : Dict ℚ Arr3) (p : Particle) (x : Dict Label (List ℚ)), fillRatios1 cyl p g (ratios1 d) = .ok x → d ≠ [] := by
    intro g d p x hx hd
    rw [hd] at hx
    cases hx
  unfold newWW setValues at h
  rcases hform with ⟨d, rfl⟩ | ⟨d, d', rfl⟩
  · intro p d0 hm
    simp only [List.mem_singleton, Prod.mk.injEq] at hm
    rw [hm.2]
    have e : calcRatios [(Particle.neutron, d)] (particlesOf [(Particle.neutron, d)]) = .ok [(.neutron, ratios1 d)] := by
      simp [particlesOf, calcRatios, Dict.get?]
    simp only [e, fillRatios] at h
    cases hf : fillRatios1 cyl .neutron (fillValues cyl [(Particle.neutron, d)] []) (ratios1 d) with
    | error x => rw [hf] at h; cases h
    | ok x => exact hne _ d _ x hf
  · have e : calcRatios [(Particle.neutron, d), (.photon, d')] (particlesOf [(Particle.neutron, d), (.photon, d')]) =
        .ok [(.neutron, ratios1 d), (.photon, ratios1 d')] := by
      simp [particlesOf, calcRatios, Dict.get?]
    simp only [e, fillRatios] at h
    cases hf : fillRatios1 cyl .neutron (fillValues cyl [(Particle.neutron, d), (.photon, d')] []) (ratios1 d) with
    | error x => rw [hf] at h; cases h
    | ok x =>
      simp only [hf] at h
      cases hf' : fillRatios1 cyl .photon x (ratios1 d') with
      | error x => rw [hf'] at h; cases h
      | ok y =>
        intro p d0 hm
        simp only [List.mem_cons, List.not_mem_nil, or_false, Prod.mk.injEq] at hm
        rcases hm with ⟨-, rfl⟩ | ⟨-, rfl⟩
        · exact hne _ _ _ x hf
        · exact hne _ _ _ y hf'

theorem nested1_arrays {nfz nfy nfx : Nat} {es vals : List ℚ} {d : Dict ℚ Arr3} (h : nested1 nfz nfy nfx es vals = .ok d) :
    Dict.WF d ∧ ∀ e a, (e, a) ∈ d → a.WF ∧ a.shape = (nfz, nfy, nfx) := by
  unfold nested1 at h
  split at h
  · rename_i hl
    obtain rfl := Except.ok.inj h
    obtain ⟨h1, h2, -⟩ := fillEnergies_spec nfz nfy nfx vals es.length hl es 0 (by omega) [] ⟨by simp [Dict.WF, Dict.keys], by simp⟩
    exact ⟨h1, h2⟩
  · cases h

theorem nested_arrays {ni : ℤ} {nfz nfy nfx : Nat} {es vs : List (List ℚ)} {v : Values} (h : nested ni nfz nfy nfx es vs = .ok v) :
    (v.keys = [.neutron] ∨ v.keys = [.neutron, .photon]) ∧
    ∀ p d, (p, d) ∈ v → Dict.WF d ∧ ∀ e a, (e, a) ∈ d → a.WF ∧ a.shape = (nfz, nfy, nfx) := by
  unfold nested at h
  split at h
  · rename_i e0 v0 he0 hv0
    cases h0 : nested1 nfz nfy nfx e0 v0 with
    | error x => rw [h0] at h; cases h
    | ok d0 =>
      rw [h0] at h
      simp only at h
      split at h
      · split at h
        · rename_i e1 v1 he1 hv1
          cases h1 : nested1 nfz nfy nfx e1 v1 with
          | error x => rw [h1] at h; cases h
          | ok d1 =>
            rw [h1] at h
            obtain rfl := Except.ok.inj h
            refine ⟨Or.inr rfl, ?_⟩
            intro p d hp
            simp only [List.mem_cons, List.not_mem_nil, or_false, Prod.mk.injEq] at hp
            rcases hp with ⟨-, rfl⟩ | ⟨-, rfl⟩
            · exact nested1_arrays h0
            · exact nested1_arrays h1
        · cases h
      · obtain rfl := Except.ok.inj h
        refine ⟨Or.inl rfl, ?_⟩
        intro p d hp
        simp only [List.mem_singleton, Prod.mk.injEq] at hp
        rw [hp.2]
        exact nested1_arrays h0
  · cases h

theorem made_inv {cyl : Bool} {sh : ℕ × ℕ × ℕ} {v : Values} {s : Window} (hk : v.keys = [.neutron] ∨ v.keys = [.neutron, .photon])
    (hv : ∀ p d, (p, d) ∈ v → Dict.WF d ∧ ∀ e a, (e, a) ∈ d → a.WF ∧ a.shape = sh) (h : newWW cyl v = .ok s) : Inv sh s ∧ s.values = v := by
  have hg : WW.Good sh v := ⟨hk, fun p d hp => ⟨newWW_nonempty h hk p d hp, (hv p d hp).1, (hv p d hp).2⟩⟩
  obtain ⟨s', h1, h2, -, h4⟩ := inv_set { values := [], ratios := [], grid := [], cyl := cyl } hg
  have h1' : newWW cyl v = .ok s' := h1
  rw [h] at h1'
  obtain rfl := Except.ok.inj h1'
  exact ⟨h4, h2⟩

/-- whatever the file holds, a window that is read from it is consistent -/
theorem load_inv {f : NumFmt} {text : Str} {w : Win} (h : load f text = .ok w) : ∃ sh, Inv sh w.2 := by
  unfold load at h
  cases hp : parse f text with
  | error e => rw [hp] at h; cases h
  | ok r =>
    simp only [hp] at h
    cases hg : geoOf r with
    | error e => rw [hg] at h; cases h
    | ok g =>
      simp only [hg] at h
      cases hn : nested r.header.ni r.header.nfz.toNat r.header.nfy.toNat r.header.nfx.toNat r.energies r.values with
      | error e => rw [hn] at h; cases h
      | ok v =>
        simp only [hn] at h
        cases hw : newWW g.directors.isSome v with
        | error e => rw [hw] at h; cases h
        | ok s =>
          rw [hw] at h
          obtain rfl := Except.ok.inj h
          obtain ⟨a, b⟩ := nested_arrays hn
          exact ⟨_, (made_inv a b hw).1⟩

theorem inv_shape {sh sh' : ℕ × ℕ × ℕ} {s : Window} (h : Inv sh s) (hg : WW.Good sh' s.values) : Inv sh' s := ⟨hg, h.rat, h.grid⟩

theorem header_counts {t : GTally} {hd : Header} (h : gvrHeader t = .ok hd) :
    hd.ni = 1 ∧ hd.nfx = (t.mesh.x1.length : ℤ) - 1 ∧ hd.nfy = (t.mesh.x2.length : ℤ) - 1 ∧ hd.nfz = (t.mesh.x3.length : ℤ) - 1 := by
  unfold gvrHeader at h
  split at h
  · cases h
  · simp only at h
    split at h
    · obtain rfl := Except.ok.inj h
      exact ⟨rfl, rfl, rfl, rfl⟩
    · split at h
      · cases h
      · obtain rfl := Except.ok.inj h
        exact ⟨rfl, rfl, rfl, rfl⟩

theorem compose_nonempty {x : List ℚ} {f : List ℤ} {b : List ℚ} (h : compose x f = .ok b) : x ≠ [] := by
  rintro rfl
  cases h

/-- whatever the tally holds, a window made from it is consistent and has the shape of its geometry -/
theorem gvrObject_inv {pw : ℚ → ℚ → ℚ} {t : GTally} {r : ℚ} {w : Win} (h : gvrObject pw t r 1 = .ok w) : Inv w.1.shape w.2 := by
  unfold gvrObject at h
  cases hp : gvrParse t with
  | error e => rw [hp] at h; cases h
  | ok p =>
    simp only [hp] at h
    unfold gvrParse at hp
    cases hh : gvrHeader t with
    | error e => rw [hh] at hp; cases hp
    | ok hd =>
      simp only [hh] at hp
      cases c1 : compose t.mesh.x1 (onesOf t.mesh.nx1) with
      | error e => rw [c1] at hp; cases hp
      | ok bi =>
        simp only [c1] at hp
        cases c2 : compose t.mesh.x2 (onesOf t.mesh.nx2) with
        | error e => rw [c2] at hp; cases hp
        | ok bj =>
          simp only [c2] at hp
          cases c3 : compose t.mesh.x3 (onesOf t.mesh.nx3) with
          | error e => rw [c3] at hp; cases hp
          | ok bk =>
            simp only [c3] at hp
            obtain rfl := Except.ok.inj hp
            obtain ⟨e1, e2, e3, e4⟩ := header_counts hh
            have x1 := compose_nonempty c1
            have x2 := compose_nonempty c2
            have x3 := compose_nonempty c3
            obtain ⟨b1, d1, g1⟩ := axisOf_bins t.mesh.x1 x1
            obtain ⟨b2, d2, g2⟩ := axisOf_bins t.mesh.x2 x2
            obtain ⟨b3, d3, g3⟩ := axisOf_bins t.mesh.x3 x3
            rw [show t.mesh.nx1 = t.mesh.x1.length - 1 from rfl, d1] at c1
            rw [show t.mesh.nx2 = t.mesh.x2.length - 1 from rfl, d2] at c2
            rw [show t.mesh.nx3 = t.mesh.x3.length - 1 from rfl, d3] at c3
            obtain rfl := Except.ok.inj c1
            obtain rfl := Except.ok.inj c2
            obtain rfl := Except.ok.inj c3
            have hgeo : geoOf ⟨hd, b1, b2, b3, [[100]], [fluxValues t.mesh]⟩ =
                .ok ⟨binAxis t.mesh.x1, binAxis t.mesh.x2, binAxis t.mesh.x3, hd.origin, hd.directors⟩ := by
              unfold geoOf
              simp only [g1, g2, g3]
            rw [hgeo] at h
            simp only at h
            cases hn : nested hd.ni hd.nfz.toNat hd.nfy.toNat hd.nfx.toNat [[100]] [fluxValues t.mesh] with
            | error e => rw [hn] at h; cases h
            | ok v =>
              simp only [hn] at h
              obtain ⟨a, b⟩ := nested_arrays hn
              have hk : v.keys = [.neutron] := by
                unfold nested at hn
                simp only [List.getElem?_cons_zero] at hn
                cases h1 : nested1 hd.nfz.toNat hd.nfy.toNat hd.nfx.toNat [100] (fluxValues t.mesh) with
                | error x => rw [h1] at hn; cases hn
                | ok d0 =>
                  simp only [h1] at hn
                  rw [if_neg (by rw [e1]; decide)] at hn
                  obtain rfl := Except.ok.inj hn
                  rfl
              obtain ⟨d, hd'⟩ : ∃ d, v = [(Particle.neutron, d)] := by
                match v, hk with
                | [], hk => simp [Dict.keys] at hk
                | [(x, d)], hk => simp [Dict.keys] at hk; exact ⟨d, by rw [hk]⟩
                | _ :: _ :: _, hk => simp [Dict.keys] at hk
              subst hd'
              simp only [Dict.get?, if_true, Option.getD_some] at h
              unfold createGvr at h
              cases ht : toGvr d r with
              | error e => rw [ht] at h; cases h
              | ok d' =>
                simp only [ht] at h
                cases hw : newWW hd.directors.isSome [(.neutron, d')] with
                | error e => rw [hw] at h; cases h
                | ok s =>
                  simp only [hw] at h
                  rw [if_neg (by simp)] at h
                  simp only at h
                  obtain rfl := Except.ok.inj h
                  obtain ⟨q1, q2⟩ := b .neutron d (by simp)
                  have hd' : Dict.WF d' ∧ ∀ e a, (e, a) ∈ d' → a.WF ∧ a.shape = (hd.nfz.toNat, hd.nfy.toNat, hd.nfx.toNat) := by
                    unfold toGvr at ht
                    split at ht
                    · cases ht
                    · split at ht
                      · cases ht
                      · split at ht
                        · cases ht
                        · obtain rfl := Except.ok.inj ht
                          refine ⟨?_, ?_⟩
                          · unfold Dict.WF at q1 ⊢
                            simpa [Dict.keys, Function.comp_def] using q1
                          · intro e a ha
                            obtain ⟨⟨e0, a0⟩, h0, h1⟩ := List.mem_map.1 ha
                            simp only [Prod.mk.injEq] at h1
                            rw [← h1.2]
                            exact ⟨map_wf _ (map_wf _ (q2 e0 a0 h0).1), (q2 e0 a0 h0).2⟩
                  have := (made_inv (sh := (hd.nfz.toNat, hd.nfy.toNat, hd.nfx.toNat)) (Or.inl rfl) (by
                    intro p d0 hp
                    simp only [List.mem_singleton, Prod.mk.injEq] at hp
                    rw [hp.2]
                    exact hd') hw).1
                  have hs : (Geo.mk (binAxis t.mesh.x1) (binAxis t.mesh.x2) (binAxis t.mesh.x3) hd.origin hd.directors).shape =
                      (hd.nfz.toNat, hd.nfy.toNat, hd.nfx.toNat) := by
                    have p1 := List.length_pos_iff.2 x1
                    have p2 := List.length_pos_iff.2 x2
                    have p3 := List.length_pos_iff.2 x3
                    unfold Geo.shape binAxis
                    simp only [ones_sum, Int.toNat_natCast, e2, e3, e4]
                    simp only [Prod.mk.injEq]
                    refine ⟨?_, ?_, ?_⟩ <;> omega
                  rw [← hs] at this
                  exact this

theorem gvrNum_inv {wd : World} {ls : List Str} {t : PyNum} {r : ℚ} {w : Win} (h : gvrNum wd ls t r = .ok w) : Inv w.1.shape w.2 := by
  have key : ∀ id, createGvrFromMeshtal wd.pw wd.cs wd.sn wd.num wd.junk ls id r 1 = .ok w → Inv w.1.shape w.2 := by
    intro id hc
    unfold createGvrFromMeshtal at hc
    cases ht : chooseTally wd.cs wd.sn wd.num wd.junk ls id with
    | error e => rw [ht] at hc; cases hc
    | ok t => rw [ht] at hc; exact gvrObject_inv hc
  cases t with
  | int n => exact key n h
  | float q =>
    unfold gvrNum at h
    simp only at h
    split at h
    · exact key 0 h
    · split at h <;> cases h

theorem step_inv {pw : ℚ → ℚ → ℚ} (hpw : ∀ x, pw x 1 = x) {sh : ℕ × ℕ × ℕ} {s s' : Window} (h : Inv sh s) {o : Op} (ho : step pw s o = .ok s') : Inv sh s' := by
  rcases c07_refused_iff pw hpw s h o with ⟨he, _⟩ | ⟨⟨s'', hs, hi⟩, _⟩
  · rw [he] at ho; cases ho
  · rw [hs] at ho
    obtain rfl := Except.ok.inj ho
    exact hi

/-! ## C194 -/

/-- **C194** (all sessions). Whatever is typed and whatever the files hold, every window that a session holds, writes, exports or plots is consistent:
its ratios are those of its values, its grid shows both, and all its arrays have one shape. -/
theorem live_consistent (wd : World) (hpw : ∀ x, wd.pw x 1 = x) (ins : List Str) : AllOf (fun w => ∃ sh, Inv sh w.2) (live wd ins).1 := by
  refine (live_comes wd ins).mono ?_
  intro w hw
  induction hw with
  | file _ h => exact load_inv h
  | tally _ h => exact ⟨_, gvrNum_inv h⟩
  | oper _ h ih =>
    obtain ⟨sh, ih⟩ := ih
    exact ⟨sh, step_inv hpw ih h⟩
  | again _ _ h _ => exact load_inv h
  | tallyAgain _ _ h _ => exact ⟨_, gvrNum_inv h⟩

theorem fine_text {wd : World} {w : Win} (hi : Inv w.1.shape w.2) (hf : HasRoom w) :
    ∃ w', save pyFmt w.1 w.2 = .ok (textOf wd w) ∧ load pyFmt (textOf wd w) = .ok w' ∧ NearWin w w' ∧ Inv w'.1.shape w'.2 := by
  obtain ⟨text, g', s', h1, h2, h3, h4, h5, h6, h7, h8, h9, h10, h11⟩ := window_file (fun x _ => x) (fun _ => rfl) hi [] hf.1 hf.2
  have h1' : save pyFmt w.1 w.2 = .ok text := h1
  have ht : textOf wd w = text := by
    unfold textOf
    rw [h1']
  obtain ⟨text', s'', k1, k2, k3, k4⟩ := saved_and_loaded hi (fits_printable hf.1) hf.2
  rw [h1'] at k1
  obtain rfl := Except.ok.inj k1
  rw [h2] at k2
  simp only [Except.ok.injEq, Prod.mk.injEq] at k2
  rw [ht]
  refine ⟨(g', s'), h1', h2, ⟨h3, h4, h5, h6, h7, h8, h9, h10, by rw [h11]; exact h1'.symm⟩, ?_⟩
  have hsh : g'.shape = w.1.shape := by
    unfold Geo.shape
    rw [h3.1, h4.1, h5.1]
  show Inv g'.shape s'
  rw [hsh, k2.2]
  exact k4

/-- **C194** (shapes). If the window files of the disk have the counts of their axes, and the windows that a session writes fit in their files, then
every window of the session has the shape of its geometry. -/
theorem live_shaped (wd : World) (hpw : ∀ x, wd.pw x 1 = x) (ht : Tidy wd) (ins : List Str) (hf : ∀ p w, .wrote p w ∈ (live wd ins).1.done → HasRoom w) :
    AllOf (fun w => Inv w.1.shape w.2) (live wd ins).1 := by
  refine (live_comes wd ins).mono ?_
  intro w hw
  induction hw with
  | file h1 h2 =>
    obtain ⟨sh, hi⟩ := load_inv h2
    exact inv_shape hi (ht _ _ _ h1 h2)
  | tally _ h => exact gvrNum_inv h
  | oper _ h ih => exact step_inv hpw ih h
  | again h1 _ h3 ih =>
    obtain ⟨w', -, e2, -, e4⟩ := fine_text (wd := wd) ih (hf _ _ h1)
    rw [e2] at h3
    obtain rfl := Except.ok.inj h3
    exact e4
  | tallyAgain _ _ h _ => exact gvrNum_inv h

/-- **C194** (files). Every window that a session writes is in its file: the file can be read, and gives the window back up to half a unit of the fifth digit. -/
theorem live_written (wd : World) (hpw : ∀ x, wd.pw x 1 = x) (ht : Tidy wd) (ins : List Str) (hf : ∀ p w, .wrote p w ∈ (live wd ins).1.done → HasRoom w)
    (p : Path) (w : Win) (hw : .wrote p w ∈ (live wd ins).1.done) :
    ∃ w', save pyFmt w.1 w.2 = .ok (textOf wd w) ∧ load pyFmt (textOf wd w) = .ok w' ∧ NearWin w w' := by
  obtain ⟨w', e1, e2, e3, -⟩ := fine_text (wd := wd) ((live_shaped wd hpw ht ins hf).2.1 p w hw) (hf p w hw)
  exact ⟨w', e1, e2, e3⟩

theorem diskAfter_append (wd : World) (d : Path → Option Str) (a b : List (Effect Win)) :
    diskAfter wd d (a ++ b) = diskAfter wd (diskAfter wd d a) b := by
  induction a generalizing d with
  | nil => rfl
  | cons e a ih => cases e <;> exact ih _

/-- the file written last is as written; a file that is not written stays as it was -/
theorem disk_last (wd : World) (a b : List (Effect Win)) (p : Path) :
    (∀ w, (∀ w', .wrote p w' ∉ b) → diskAfter wd wd.disk (a ++ .wrote p w :: b) p = some (textOf wd w)) ∧
    ((∀ w', .wrote p w' ∉ a) → diskAfter wd wd.disk a p = wd.disk p) := by
  have key : ∀ (es : List (Effect Win)) (d : Path → Option Str), (∀ w', .wrote p w' ∉ es) → diskAfter wd d es p = d p := by
    intro es
    induction es with
    | nil => intro d _; rfl
    | cons e es ih =>
      intro d h
      have h' : ∀ w', .wrote p w' ∉ es := fun w' hm => h w' (List.mem_cons_of_mem _ hm)
      cases e with
      | wrote q w =>
        show diskAfter wd (fun p => if p = q then some (textOf wd w) else d p) es p = d p
        rw [ih _ h']
        exact if_neg (fun e => h w (by rw [e]; exact List.mem_cons_self))
      | exported q w => exact ih d h'
      | plotted w => exact ih d h'
  refine ⟨?_, key a wd.disk⟩
  intro w hb
  rw [diskAfter_append]
  show diskAfter wd (fun p' => if p' = p then some (textOf wd w) else diskAfter wd wd.disk a p') b p = _
  rw [key b _ hb]
  exact if_pos rfl

/-- **C194** (write, then open). The window selected, written and opened again in the same session is held beside the old one, near to it. -/
theorem write_then_open (wd : World) (s : St Win) (ins sel : List Str) (k : Str) (p : Path) (w : Win) (hs : AllOf (fun w => Inv w.1.shape w.2) s)
    (hsel : select s ins = (s, sel, .ok (some k))) (hk : Dict.get? s.windows k = some (p, w)) (hf : HasRoom w) (x : Str)
    (hx : wd.path x = ⟨p.parent, stemOf p.name ++ "_written".toList⟩) (hn : Dict.get? s.windows (stemOf (wd.path x).name) = none) (rest : List Str) :
    ∃ s' w', liveRun wd .write s ins = (s', sel, none) ∧ s'.windows = s.windows ∧
      (liveRun wd .opn s' (x :: rest)).1.windows = s.windows ++ [(stemOf (wd.path x).name, (wd.path x, w'))] ∧
      (liveRun wd .opn s' (x :: rest)).2 = (rest, none) ∧ NearWin w w' := by
  obtain ⟨w', e1, e2, e3, -⟩ := fine_text (wd := wd) (hs.1 k p w hk) hf
  refine ⟨{ s with done := s.done ++ [.wrote ⟨p.parent, stemOf p.name ++ "_written".toList⟩ w],
                   extra := " ".toList ++ k ++ "_written saved!".toList }, w', ?_, rfl, ?_⟩
  · show liveWrite s ins = _
    unfold liveWrite
    rw [withKey_sel s ins sel k p w _ hsel hk]
    simp only [e1]
  · have hd := (disk_last wd s.done [] (wd.path x)).1 w (by simp)
    rw [hx] at hd
    have := open_new_partial (envOf wd (diskAfter wd wd.disk (s.done ++ [.wrote ⟨p.parent, stemOf p.name ++ "_written".toList⟩ w])))
      { s with done := s.done ++ [.wrote ⟨p.parent, stemOf p.name ++ "_written".toList⟩ w],
               extra := " ".toList ++ k ++ "_written saved!".toList } x rest w' hn (by
        show (match diskAfter wd wd.disk _ (wd.path x) with | none => Except.error PyErr.ioError | some t => load pyFmt t) = _
        rw [hx, hd]
        exact e2)
    exact ⟨this.1, this.2, e3⟩

/-! ## C195: the command `gvr` -/

/-- **C195** fails for the numbers a user would type: any number other than zero, typed as the splitting ratio, ends the program with `KeyError`, whatever tallies
the file has, if the file has the form of a meshtal file at all. -/
theorem gvr_number_ends (wd : World) (s : St Win) (c x y z text : Str) (ins : List Str) (hc : lower c = "gvr".toList) (q : ℚ)
    (hy : wd.float y = some q) (hq : q ≠ 0) (hn : Dict.get? s.windows (stemOf (wd.path x).name) = none)
    (hd : diskAfter wd wd.disk s.done (wd.path x) = some text) (hs : ∃ d, scan .outside (fileLines text) [] = .ok d) (n : ℕ) :
    liveLoop wd (n + 1) s (c :: x :: y :: z :: ins) = (s, .exc .keyError) := by
  have hcmd : cmdOf (lower c) = some .gvr := by rw [hc]; decide +kernel
  obtain ⟨d, hs⟩ := hs
  have hf : ¬ Dict.has s.windows (stemOf ((envOf wd (diskAfter wd wd.disk s.done)).path x).name) = true := by
    show ¬ Dict.has s.windows (stemOf (wd.path x).name) = true
    unfold Dict.has; rw [hn]; simp
  have hr : liveRun wd .gvr s (x :: y :: z :: ins) = (s, ins, some (.exc .keyError)) := by
    show handleGvr (envOf wd _) s (x :: y :: z :: ins) = _
    rw [handleGvr, if_neg hf]
    unfold gvrEnd
    have e1 : askDefault (envOf wd (diskAfter wd wd.disk s.done)) (envOf wd (diskAfter wd wd.disk s.done)).five (y :: z :: ins) = (some (.float q), z :: ins) := by
      show (some (((wd.float y).map PyNum.float).getD _), z :: ins) = _
      rw [hy]; rfl
    have e3 : ∃ v : PyNum, askDefault (envOf wd (diskAfter wd wd.disk s.done)) (envOf wd (diskAfter wd wd.disk s.done)).one (z :: ins) = (some v, ins) :=
      ⟨_, rfl⟩
    obtain ⟨v, e3⟩ := e3
    have e2 : (envOf wd (diskAfter wd wd.disk s.done)).gvr ((envOf wd (diskAfter wd wd.disk s.done)).path x) (.float q)
        (envOf wd (diskAfter wd wd.disk s.done)).five = .error .keyError := by
      show (match diskAfter wd wd.disk s.done (wd.path x) with | none => Except.error PyErr.ioError | some t => gvrNum wd (fileLines t) (.float q) _) = _
      rw [hd]
      simp only [gvrNum, if_neg hq, hs]
    simp only [e1, e3, e2]
    rfl
  rw [liveLoop, hcmd]
  simp only [hr]

/-- **C195** (what the answer does). Zero typed as the splitting ratio takes the first tally, an answer that is no number takes tally 5; both with a splitting ratio of 5
and then softened by the factor typed (1 if it is no number). -/
theorem gvr_answer_partial (wd : World) (s : St Win) (x y z text : Str) (ins : List Str) (id : ℤ)
    (hy : wd.float y = some 0 ∧ id = 0 ∨ wd.float y = none ∧ id = 5) (hn : Dict.get? s.windows (stemOf (wd.path x).name) = none)
    (hd : diskAfter wd wd.disk s.done (wd.path x) = some text) (w : Win)
    (hw : createGvrFromMeshtal wd.pw wd.cs wd.sn wd.num wd.junk (fileLines text) id 5 1 = .ok w) (w' : Window)
    (hw' : soften wd.pw w.2 ((wd.float z).getD 1) = .ok w') :
    (liveRun wd .gvr s (x :: y :: z :: ins)).1.windows = s.windows ++ [(stemOf (wd.path x).name, (wd.path x, (w.1, w')))] ∧
    (liveRun wd .gvr s (x :: y :: z :: ins)).2 = (ins, none) := by
  have hf : ¬ Dict.has s.windows (stemOf ((envOf wd (diskAfter wd wd.disk s.done)).path x).name) = true := by
    show ¬ Dict.has s.windows (stemOf (wd.path x).name) = true
    unfold Dict.has; rw [hn]; simp
  have hr : liveRun wd .gvr s (x :: y :: z :: ins) = keep s ins (wd.path x) (.ok (w.1, w')) := by
    show handleGvr (envOf wd _) s (x :: y :: z :: ins) = _
    rw [handleGvr, if_neg hf]
    unfold gvrEnd
    have e1 : ∃ t : PyNum, askDefault (envOf wd (diskAfter wd wd.disk s.done)) (envOf wd (diskAfter wd wd.disk s.done)).five (y :: z :: ins) = (some t, z :: ins) ∧
        gvrNum wd (fileLines text) t 5 = .ok w := by
      rcases hy with ⟨hy, rfl⟩ | ⟨hy, rfl⟩
      · refine ⟨.float 0, ?_, ?_⟩
        · show (some (((wd.float y).map PyNum.float).getD _), z :: ins) = _
          rw [hy]; rfl
        · simp only [gvrNum, if_true]; exact hw
      · refine ⟨.int 5, ?_, hw⟩
        show (some (((wd.float y).map PyNum.float).getD _), z :: ins) = _
        rw [hy]; rfl
    obtain ⟨t, e1, e2⟩ := e1
    have e3 : ∃ v : PyNum, askDefault (envOf wd (diskAfter wd wd.disk s.done)) (envOf wd (diskAfter wd wd.disk s.done)).one (z :: ins) = (some v, ins) ∧
        v.val = (wd.float z).getD 1 := by
      refine ⟨((wd.float z).map PyNum.float).getD (.float 1), rfl, ?_⟩
      cases wd.float z <;> rfl
    obtain ⟨v, e3, e4⟩ := e3
    have e5 : (envOf wd (diskAfter wd wd.disk s.done)).gvr ((envOf wd (diskAfter wd wd.disk s.done)).path x) t
        (envOf wd (diskAfter wd wd.disk s.done)).five = .ok w := by
      show (match diskAfter wd wd.disk s.done (wd.path x) with | none => Except.error PyErr.ioError | some t' => gvrNum wd (fileLines t') t _) = _
      rw [hd]
      have : ((envOf wd (diskAfter wd wd.disk s.done)).five).val = 5 := by
        show ((5 : ℤ) : ℚ) = 5
        norm_num
      simp only [this]
      exact e2
    have e6 : (envOf wd (diskAfter wd wd.disk s.done)).soften w v = .ok (w.1, w') := by
      show onWin w.1 (soften wd.pw w.2 v.val) = _
      rw [e4, hw']; rfl
    simp only [e1, e3, e5, e6]
    rfl
  rw [hr]
  refine ⟨?_, rfl⟩
  show Dict.set s.windows _ _ = _
  generalize stemOf (wd.path x).name = k at hn
  generalize s.windows = d at hn
  induction d with
  | nil => rfl
  | cons q d ih =>
    obtain ⟨a, b⟩ := q
    rw [Dict.get?] at hn
    split at hn
    · cases hn
    · rename_i hne
      rw [Dict.set, if_neg hne, ih hn, List.cons_append]

/-! ## Cases -/

/-- a window of one voxel, with two particles (example) -/
def oneGeo : Geo := ⟨⟨[0, 10], [1]⟩, ⟨[0, 5], [1]⟩, ⟨[0, 1], [1]⟩, [0, 0, -5], none⟩

/-- its values: one neutron energy, one photon energy (example) -/
def oneValues : Values := [(.neutron, [(20, ⟨1, 1, 1, [1 / 3]⟩)]), (.photon, [(100, ⟨1, 1, 1, [7]⟩)])]

/-- its file (example) -/
def oneText : Str :=
  match newWW false oneValues with
  | .error _ => []
  | .ok s =>
    match save pyFmt oneGeo s with
    | .error _ => []
    | .ok t => t

/-- a disk with that file, under the name `ww`, and a mesh file `m` without tallies (example) -/
def oneWorld : World where
  disk p := if p.name = "ww".toList then some oneText else if p.name = "m".toList then some "nothing\n".toList else none
  float := parseFloat
  path x := ⟨[], x⟩
  pw q n := if n = 2 then q * q else q
  cs q := q
  sn q := q
  num := parseFloat
  junk := fun _ => (0, 0)
  info _ _ := []
  torn _ := []

/-- a session: the file is opened, softened, the result written and opened; three windows and one file -/
example : let r := live oneWorld (["open", "ww", "operate", "soft", "2", "write", "2", "open", "ww_softened_written", "x", "END"].map String.toList)
    Dict.keys r.1.windows = ["ww", "ww_softened", "ww_softened_written"].map String.toList ∧ r.2 = .exit ∧ r.1.done.length = 1 := by decide +kernel

/-- a session that ends with `KeyError`: five is typed as the splitting ratio -/
example : (live oneWorld (["gvr", "m", "5", "1", "END"].map String.toList)).2 = .exc .keyError := by decide +kernel

/-- the window of the sessions fits in its file, and the disk is as required -/
example : Tidy oneWorld ∧ ∃ s, newWW false oneValues = .ok s ∧ Inv oneGeo.shape s ∧ HasRoom (oneGeo, s) := by
  have hgood : WW.Good oneGeo.shape oneValues := by
    refine ⟨Or.inr rfl, ?_⟩
    intro p d hm
    simp only [oneValues, List.mem_cons, List.not_mem_nil, or_false, Prod.mk.injEq] at hm
    rcases hm with ⟨rfl, rfl⟩ | ⟨rfl, rfl⟩ <;> refine ⟨by simp, by simp [Dict.WF, Dict.keys], ?_⟩ <;> intro e' a hm <;>
      simp only [List.mem_cons, List.not_mem_nil, or_false, Prod.mk.injEq] at hm <;> obtain ⟨-, rfl⟩ := hm <;> exact ⟨rfl, by decide⟩
  obtain ⟨s, h1, h2, -, h4⟩ := inv_set { values := [], ratios := [], grid := [], cyl := false } hgood
  have h1' : newWW false oneValues = .ok s := h1
  have hfine : HasRoom (oneGeo, s) := by
    show Fits oneGeo s ∧ EnergiesDiffer five s.values
    refine ⟨⟨⟨rfl, by decide, by decide, inRange_all (by decide +kernel)⟩, ⟨rfl, by decide, by decide, inRange_all (by decide +kernel)⟩,
      ⟨rfl, by decide, by decide, inRange_all (by decide +kernel)⟩, ⟨rfl, inRange_all (by decide +kernel)⟩, ?_, ?_⟩, ?_⟩
    · intro d1 d2 hd
      cases hd
    · intro p d hm
      simp only [h2, oneValues, List.mem_cons, List.not_mem_nil, or_false, Prod.mk.injEq] at hm
      rcases hm with ⟨rfl, rfl⟩ | ⟨rfl, rfl⟩ <;> refine ⟨by norm_num, ?_⟩ <;> intro e' a hm <;>
        simp only [List.mem_cons, List.not_mem_nil, or_false, Prod.mk.injEq] at hm <;> obtain ⟨rfl, rfl⟩ := hm <;>
        exact ⟨inRange_simple (by decide +kernel), inRange_all (by decide +kernel)⟩
    · intro p d hm
      simp only [h2, oneValues, List.mem_cons, List.not_mem_nil, or_false, Prod.mk.injEq] at hm
      rcases hm with ⟨rfl, rfl⟩ | ⟨rfl, rfl⟩ <;> decide +kernel
  refine ⟨?_, s, h1', h4, hfine⟩
  intro p t w hp hl
  obtain ⟨w', e1, e2, -, e4⟩ := fine_text (wd := oneWorld) (w := (oneGeo, s)) h4 hfine
  simp only [oneWorld] at hp
  split at hp
  · have ht : oneText = textOf oneWorld (oneGeo, s) := by
      unfold oneText
      rw [h1']
      simp only [e1]
    obtain rfl := Option.some.inj hp
    rw [ht, e2] at hl
    obtain rfl := Except.ok.inj hl
    exact e4.good
  · split at hp
    · obtain rfl := Option.some.inj hp
      have : (match load pyFmt "nothing\n".toList with | .ok _ => true | .error _ => false) = false := by decide +kernel
      rw [hl] at this
      cases this
    · cases hp

end F4Enix.Cli
