import Verif.Out.EeoutLemmas
/-!
# Reading of the sections of an eeout file (C124-C127)
-/
namespace F4Enix.Eeout
open F4Enix

variable {K : Type}

theorem isPrefixOf_false {p l : Str} (h : ¬ p <+: l) : p.isPrefixOf l = false := by
  cases hh : p.isPrefixOf l with
  | false => rfl
  | true => exact absurd (List.isPrefixOf_iff_prefix.1 hh) h

/-! ### coordinates -/

theorem take_ok {pf : Str → Option K} {f : Bool} {l : Str} {v acc : List K} (h : floats pf (sciWords l) = .ok v) :
    take pf f l acc = .ok (if f = true then acc ++ v else acc) := by
  unfold take
  cases f <;> simp [h]

theorem nodes_step {pf : Str → Option K} {fx fy fz : Bool} {xs ys zs v : List K} {l : Str} {ls : List Str}
    (h : floats pf (sciWords l) = .ok v) (he : ¬ " ELEMENT TYPE".toList <+: l) :
    nodesLoop pf fx fy fz xs ys zs (l :: ls) =
      nodesLoop pf (!has "NODES Y" l && (fx || has "NODES X" l)) (!has "NODES Z" l && (fy || has "NODES Y" l)) (fz || has "NODES Z" l)
        (if fx = true then xs ++ v else xs) (if fy = true then ys ++ v else ys) (if fz = true then zs ++ v else zs) ls := by
  rw [nodesLoop, take_ok h, take_ok h, take_ok h]
  simp only [isPrefixOf_false he, Bool.false_eq_true, if_false]

theorem nodes_quiet {pf : Str → Option K} {xs ys zs : List K} {l : Str} {ls : List Str}
    (h : ¬ "NODES X".toList <:+: l ∧ ¬ "NODES Y".toList <:+: l ∧ ¬ "NODES Z".toList <:+: l ∧ ¬ " ELEMENT TYPE".toList <+: l) :
    nodesLoop pf false false false xs ys zs (l :: ls) = nodesLoop pf false false false xs ys zs ls := by
  obtain ⟨h1, h2, h3, h4⟩ := h
  have ht : ∀ acc : List K, take pf false l acc = .ok acc := fun acc => rfl
  rw [nodesLoop, ht, ht, ht]
  simp only [isPrefixOf_false h4, has_false h1, has_false h2, has_false h3, Bool.false_eq_true, if_false, Bool.not_false, Bool.or_false,
    Bool.and_false]

theorem nodes_front {pf : Str → Option K} {xs ys zs : List K} {A ls : List Str}
    (h : ∀ l ∈ A, ¬ "NODES X".toList <:+: l ∧ ¬ "NODES Y".toList <:+: l ∧ ¬ "NODES Z".toList <:+: l ∧ ¬ " ELEMENT TYPE".toList <+: l) :
    nodesLoop pf false false false xs ys zs (A ++ ls) = nodesLoop pf false false false xs ys zs ls := by
  induction A with
  | nil => rfl
  | cons l A ih =>
    rw [List.cons_append, nodes_quiet (h l (by simp)), ih (fun x hx => h x (by simp [hx]))]

theorem nodes_nums {pf : Str → Option K} {fx fy fz : Bool} (hy : fy = true → fx = false) {vs : List K} {N : List Str}
    (h : NumLines pf N vs) {xs ys zs : List K} (rest : List Str) :
    nodesLoop pf fx fy fz xs ys zs (N ++ rest) = nodesLoop pf fx fy fz (if fx = true then xs ++ vs else xs)
      (if fy = true then ys ++ vs else ys) (if fz = true then zs ++ vs else zs) rest := by
  obtain ⟨wss, rfl, h1, h2⟩ := h
  induction wss generalizing vs xs ys zs with
  | nil =>
    have : vs = [] := by
      cases vs with
      | nil => rfl
      | cons v vs => cases h2
    subst this
    simp
  | cons ws wss ih =>
    rw [List.flatten_cons, List.map_append] at h2
    obtain ⟨v, v', rfl, e1, e2⟩ := List.map_eq_append_iff.1 h2.symm
    have hw := (h1 ws (by simp)).2
    rw [List.map_cons, List.cons_append, nodes_step (v := v) (by rw [sciWords_numLine hw]; exact floats_ok e1.symm)
      (fun hp => numLine_tag hw (c := 'T') (by decide) (by decide) hp.isInfix),
      has_false (tag := "NODES X") (numLine_tag hw (c := 'N') (by decide) (by decide)),
      has_false (tag := "NODES Y") (numLine_tag hw (c := 'N') (by decide) (by decide)),
      has_false (tag := "NODES Z") (numLine_tag hw (c := 'N') (by decide) (by decide))]
    simp only [Bool.not_false, Bool.true_and, Bool.or_false]
    rw [ih (fun x hx => h1 x (by simp [hx])) e2.symm]
    cases fx <;> cases fy <;> cases fz <;> simp

theorem nodes_record {pf : Str → Option K} {fx fy fz : Bool} {l : Str} (h : IsRecord l) {xs ys zs : List K} (rest : List Str) :
    nodesLoop pf fx fy fz xs ys zs (l :: rest) = nodesLoop pf fx fy fz xs ys zs rest := by
  have t := fun (tag : String) (hc : 'N' ∈ tag.toList) => has_false (record_tag h hc (by decide))
  obtain ⟨ns, h1, h2, rfl⟩ := id h
  rw [nodes_step (v := []) (by
      rw [sciWords_intLine (fun n hn => by have := h2 n hn; omega)]; rfl)
    (fun hp => record_tag h (c := 'T') (by decide) (by decide) hp.isInfix), t "NODES X" (by decide), t "NODES Y" (by decide),
    t "NODES Z" (by decide)]
  simp

theorem nodes_head {pf : Str → Option K} {fx fy fz : Bool} {l : Str} (hs : sciWords l = []) (he : ¬ " ELEMENT TYPE".toList <+: l)
    {xs ys zs : List K} (rest : List Str) :
    nodesLoop pf fx fy fz xs ys zs (l :: rest) =
      nodesLoop pf (!has "NODES Y" l && (fx || has "NODES X" l)) (!has "NODES Z" l && (fy || has "NODES Y" l)) (fz || has "NODES Z" l)
        xs ys zs rest := by
  rw [nodes_step (v := []) (by rw [hs]; rfl) he]
  simp

theorem zip_columns (ps : List (K × K × K)) : (ps.map Prod.fst).zip ((ps.map (fun p => p.2.1)).zip (ps.map (fun p => p.2.2))) = ps := by
  induction ps with
  | nil => rfl
  | cons p ps ih => simp only [List.map_cons, List.zip_cons_cons, ih]

/-- the coordinates -/
theorem nodes_read {pf : Str → Option K} {A X Y Z rest : List Str} {r1 r2 r3 : Str} {ps : List (K × K × K)}
    (hA : ∀ l ∈ A, ¬ "NODES X".toList <:+: l ∧ ¬ "NODES Y".toList <:+: l ∧ ¬ "NODES Z".toList <:+: l ∧ ¬ " ELEMENT TYPE".toList <+: l)
    (hX : NumLines pf X (ps.map Prod.fst)) (hY : NumLines pf Y (ps.map (fun p => p.2.1))) (hZ : NumLines pf Z (ps.map (fun p => p.2.2)))
    (h1 : IsRecord r1) (h2 : IsRecord r2) (h3 : IsRecord r3) :
    nodesLoop pf false false false [] [] [] (A ++ " NODES X (cm)\n".toList :: (X ++ r1 :: " NODES Y (cm)\n".toList ::
      (Y ++ r2 :: " NODES Z (cm)\n".toList :: (Z ++ r3 :: " ELEMENT TYPE\n".toList :: rest)))) =
    .ok (ps, " ELEMENT TYPE\n".toList :: rest) := by
  rw [nodes_front hA, nodes_head (by decide +kernel) (by decide)]
  have e1 : has "NODES X" " NODES X (cm)\n".toList = true := by decide
  have e2 : has "NODES Y" " NODES X (cm)\n".toList = false := by decide
  have e3 : has "NODES Z" " NODES X (cm)\n".toList = false := by decide
  rw [e1, e2, e3, nodes_nums (by simp) hX, nodes_record h1, nodes_head (by decide +kernel) (by decide)]
  have e1 : has "NODES X" " NODES Y (cm)\n".toList = false := by decide
  have e2 : has "NODES Y" " NODES Y (cm)\n".toList = true := by decide
  have e3 : has "NODES Z" " NODES Y (cm)\n".toList = false := by decide
  rw [e1, e2, e3, nodes_nums (by simp) hY, nodes_record h2, nodes_head (by decide +kernel) (by decide)]
  have e1 : has "NODES X" " NODES Z (cm)\n".toList = false := by decide
  have e2 : has "NODES Y" " NODES Z (cm)\n".toList = false := by decide
  have e3 : has "NODES Z" " NODES Z (cm)\n".toList = true := by decide
  rw [e1, e2, e3, nodes_nums (by simp) hZ, nodes_record h3, nodesLoop]
  have e4 : floats pf (sciWords " ELEMENT TYPE\n".toList) = .ok [] := by
    have : sciWords " ELEMENT TYPE\n".toList = [] := by decide +kernel
    rw [this]; rfl
  rw [take_ok e4, take_ok e4, take_ok e4]
  simp [columns, zip_columns]

/-! ### materials of the elements -/

theorem ints_natStr (ns : List ℕ) : ints (ns.map natStr) = .ok (ns.map (fun n : ℕ => (n : ℤ))) := by
  induction ns with
  | nil => rfl
  | cons n ns ih =>
    have : parseInt (natStr n) = some (n : ℤ) := by
      have := parseInt_intStr (n : ℤ)
      simpa [intStr] using this
    rw [List.map_cons, ints, this]
    simp only [ih]
    rfl

theorem words_intLine {w : ℕ} {ns : List ℕ} (hne : ns ≠ []) (h : ∀ n ∈ ns, (natStr n).length < w) : words (intLine w ns) = ns.map natStr := by
  unfold words
  rw [tokens_intLine h, if_neg (by simpa using hne)]

theorem material_lines {w : ℕ} {N : List Str} {ns : List ℕ} (h : IntLines w N ns) (acc : List ℤ) (rest : List Str) :
    materialLoop true acc (N ++ rest) = materialLoop true (acc ++ ns.map (fun n : ℕ => (n : ℤ))) rest := by
  obtain ⟨nss, rfl, h1, rfl⟩ := h
  induction nss generalizing acc with
  | nil => simp
  | cons ms nss ih =>
    obtain ⟨hne, hl⟩ := h1 ms (by simp)
    rw [List.map_cons, List.cons_append, materialLoop,
      has_false (tag := "CONNECTIVITY DATA") (intLine_tag (c := 'C') (by decide) (by decide))]
    simp only [Bool.false_eq_true, if_false, if_true, words_intLine hne hl, ints_natStr, Bool.true_or]
    rw [ih _ (fun x hx => h1 x (by simp [hx]))]
    simp

theorem material_read {A M rest : List Str} {r4 ch : Str} {ns : List ℕ}
    (hA : ∀ l ∈ A, ¬ "CONNECTIVITY DATA".toList <:+: l ∧ ¬ "ELEMENT MATERIAL".toList <:+: l) (hM : IntLines 8 M ns)
    (h4 : IsRecord r4) (hc : "CONNECTIVITY DATA".toList <:+: ch) :
    materialLoop false [] (A ++ " ELEMENT MATERIAL\n".toList :: (M ++ r4 :: ch :: rest)) = .ok (ns.map (fun n : ℕ => (n : ℤ)), ch :: rest) := by
  have front : ∀ B : List Str, (∀ l ∈ B, ¬ "CONNECTIVITY DATA".toList <:+: l ∧ ¬ "ELEMENT MATERIAL".toList <:+: l) → ∀ ls,
      materialLoop false [] (B ++ ls) = materialLoop false [] ls := by
    intro B
    induction B with
    | nil => intro _ ls; rfl
    | cons l B ih =>
      intro hB ls
      obtain ⟨b1, b2⟩ := hB l (by simp)
      rw [List.cons_append, materialLoop, has_false b1, has_false b2]
      simp only [Bool.false_eq_true, if_false, Bool.or_false, List.append_nil]
      exact ih (fun x hx => hB x (by simp [hx])) ls
  rw [front A hA, materialLoop]
  have e1 : has "CONNECTIVITY DATA" " ELEMENT MATERIAL\n".toList = false := by decide
  have e2 : has "ELEMENT MATERIAL" " ELEMENT MATERIAL\n".toList = true := by decide
  simp only [e1, e2, Bool.false_eq_true, if_false, Bool.false_or, List.append_nil]
  obtain ⟨rs, l1, l2, rfl⟩ := h4
  have hr : IntLines 15 [intLine 15 rs] rs := by
    have hrs : rs ≠ [] := by intro e; rw [e] at l1; cases l1
    refine ⟨[rs], rfl, ?_, by simp⟩
    intro ms hms
    obtain rfl := List.mem_singleton.1 hms
    exact ⟨hrs, fun n hn => by have := l2 n hn; omega⟩
  rw [material_lines hM]
  have := material_lines hr ([] ++ ns.map (fun n : ℕ => (n : ℤ))) (ch :: rest)
  rw [List.singleton_append] at this
  rw [this, materialLoop, (has_iff _ _).2 hc]
  simp only [if_true]
  rw [List.take_left' (by simp [l1])]
  simp

/-! ### connectivity -/

theorem conn_lines {w : ℕ} {N : List Str} {ns : List ℕ} (h : IntLines w N ns) (acc : List Str) {rest : List Str} (hr : rest ≠ []) :
    connLines true acc (N ++ rest) = connLines true (acc ++ N) rest := by
  obtain ⟨nss, rfl, h1, rfl⟩ := h
  induction nss generalizing acc with
  | nil => simp
  | cons ms nss ih =>
    rw [List.map_cons, List.cons_append]
    have hne : nss.map (intLine w) ++ rest ≠ [] := by simp [hr]
    have step : ∀ R : List Str, R ≠ [] → connLines true acc (intLine w ms :: R) = connLines true (acc ++ [intLine w ms]) R := by
      intro R hR
      cases R with
      | nil => exact absurd rfl hR
      | cons r R =>
        rw [connLines, has_false (tag := "CONNECTIVITY DATA") (intLine_tag (c := 'C') (by decide) (by decide)),
          has_false (tag := "NEAREST NEIGHBOR DATA") (intLine_tag (c := 'N') (by decide) (by decide))]
        · simp
        · simp
    rw [step _ hne, ih _ (fun x hx => h1 x (by simp [hx]))]
    simp

theorem nodeIds_natStr (ns : List ℕ) : nodeIds (ns.map natStr) = .ok (ns.map (fun n : ℕ => (n : ℤ) - 1)) := by
  induction ns with
  | nil => rfl
  | cons n ns ih =>
    have : searchDigits (natStr n) = some (natStr n) := by
      have := searchDigits_natStr [] [] n (by simp) (by simp)
      simpa using this
    rw [List.map_cons, nodeIds, this]
    simp only [ih, digitsVal_natStr]
    rfl

theorem nodeIdLines_ok {w : ℕ} {N : List Str} {ns : List ℕ} (h : IntLines w N ns) :
    nodeIdLines N = .ok (ns.map (fun n : ℕ => (n : ℤ) - 1)) := by
  obtain ⟨nss, rfl, h1, rfl⟩ := h
  induction nss with
  | nil => rfl
  | cons ms nss ih =>
    obtain ⟨hne, hl⟩ := h1 ms (by simp)
    rw [List.map_cons, nodeIdLines, words_intLine hne hl, nodeIds_natStr]
    simp only [ih (fun x hx => h1 x (by simp [hx]))]
    simp

theorem rows_flatten {n : ℕ} (hn : 0 < n) (els : List (List ℤ)) (h : ∀ x ∈ els, x.length = n) (f : ℕ) (hf : els.flatten.length ≤ f) :
    rows n f els.flatten = els.map (fun x => (n : ℤ) :: x) := by
  induction els generalizing f with
  | nil => cases f <;> simp [rows]
  | cons x els ih =>
    have hx := h x (by simp)
    rw [List.flatten_cons] at hf ⊢
    rw [List.length_append, hx] at hf
    cases f with
    | zero => omega
    | succ f =>
      have hne : x ++ els.flatten ≠ [] := by
        intro e
        have := congrArg List.length e
        rw [List.length_append, hx, List.length_nil] at this
        omega
      rw [rows, if_neg hne, List.take_left' hx, List.drop_left' hx, ih (fun y hy => h y (by simp [hy])) f (by omega)]
      rfl

theorem connectivity_read {n : ℕ} (hn : 0 < n) {C rest : List Str} {r5 ch nh : Str} {els : List (List ℕ)}
    (hch : "CONNECTIVITY DATA".toList <:+: ch ∧ ¬ "NODE ORDERED".toList <:+: ch ∧ ¬ "NEAREST NEIGHBOR DATA".toList <:+: ch)
    (hC : IntLines 12 C els.flatten) (h5 : IsRecord r5)
    (hnh : "NEAREST NEIGHBOR DATA".toList <:+: nh ∧ ¬ "CONNECTIVITY DATA".toList <:+: nh) (hels : ∀ x ∈ els, x.length = n) :
    connectivity n (ch :: (C ++ r5 :: nh :: rest)) =
      .ok (els.map (fun x => (n : ℤ) :: x.map (fun m : ℕ => (m : ℤ) - 1)), nh :: rest) := by
  have e0 : connLines false [] (ch :: (C ++ r5 :: nh :: rest)) = .ok (C ++ [r5, nh], nh :: rest) := by
    have hR : C ++ r5 :: nh :: rest ≠ [] := by simp
    have step : connLines false [] (ch :: (C ++ r5 :: nh :: rest)) = connLines true [] (C ++ r5 :: nh :: rest) := by
      revert hR
      generalize C ++ r5 :: nh :: rest = R
      intro hR
      cases R with
      | nil => exact absurd rfl hR
      | cons r R =>
        rw [connLines, (has_iff _ _).2 hch.1, has_false hch.2.1, has_false hch.2.2]
        · simp
        · simp
    rw [step, conn_lines hC [] (by simp)]
    rw [connLines, has_false (tag := "CONNECTIVITY DATA") (record_tag h5 (c := 'C') (by decide) (by decide)),
      has_false (tag := "NEAREST NEIGHBOR DATA") (record_tag h5 (c := 'R') (by decide) (by decide))]
    simp only [Bool.false_and, Bool.false_eq_true, if_false, if_true, Bool.or_false, List.nil_append]
    · cases rest with
      | nil =>
        rw [connLines, has_false hnh.2, (has_iff _ _).2 hnh.1]
        simp
      | cons r R =>
        rw [connLines, has_false hnh.2, (has_iff _ _).2 hnh.1]
        · simp
        · simp
    · simp
  unfold connectivity
  rw [e0]
  have e1 : (C ++ [r5, nh]).length = C.length + 2 := by simp
  simp only [e1]
  rw [if_neg (by omega), Nat.add_sub_cancel, List.take_left' rfl, nodeIdLines_ok hC]
  have e2 : els.flatten.map (fun n : ℕ => (n : ℤ) - 1) = (els.map (fun x => x.map (fun m : ℕ => (m : ℤ) - 1))).flatten := by
    rw [List.map_flatten]
  simp only [e2]
  have e3 : ((els.map (fun x => x.map (fun m : ℕ => (m : ℤ) - 1))).flatten).length % n = 0 := by
    clear e0 e1 e2 hC
    induction els with
    | nil => simp
    | cons x els ih =>
      rw [List.map_cons, List.flatten_cons, List.length_append, List.length_map, hels x (by simp), Nat.add_mod_left]
      exact ih (fun y hy => hels y (by simp [hy]))
  rw [if_pos e3, rows_flatten hn _ (by
    intro x hx
    obtain ⟨y, hy, rfl⟩ := List.mem_map.1 hx
    rw [List.length_map, hels y hy]) _ (Nat.le_refl _)]
  simp [List.map_map, Function.comp_def]

/-! ### densities and volumes -/

theorem rho_nums {pf : Str → Option K} {fd fv : Bool} (hf : (fd || fv) = true) {N : List Str} {vs : List K} (h : NumLines pf N vs) {ds ws : List K}
    (rest : List Str) :
    rhoVolLoop pf fd fv ds ws (N ++ rest) =
      rhoVolLoop pf fd fv (if fd = true then ds ++ vs else ds) (if fd = true then ws else ws ++ vs) rest := by
  obtain ⟨wss, rfl, h1, h2⟩ := h
  induction wss generalizing vs ds ws with
  | nil =>
    have : vs = [] := by
      cases vs with
      | nil => rfl
      | cons v vs => cases h2
    subst this
    simp
  | cons us wss ih =>
    rw [List.flatten_cons, List.map_append] at h2
    obtain ⟨v, v', rfl, e1, e2⟩ := List.map_eq_append_iff.1 h2.symm
    obtain ⟨hne, hw⟩ := h1 us (by simp)
    rw [List.map_cons, List.cons_append, rhoVolLoop, hf, numLine_value hne hw, tokens_numLine hw, floats_ok e1.symm,
      has_false (tag := "VOLUMES") (numLine_tag hw (c := 'V') (by decide) (by decide)),
      has_false (tag := "DENSITY") (numLine_tag hw (c := 'D') (by decide) (by decide))]
    simp only [Bool.true_and, if_true, Bool.not_false, Bool.or_false]
    rw [ih (fun x hx => h1 x (by simp [hx])) e2.symm]
    cases fd <;> simp

/-- a line that holds no values -/
theorem rho_skip {pf : Str → Option K} {fd fv : Bool} {l : Str} (h : (fd || fv) = false ∨ isValueLine l = false) {ds ws : List K} (rest : List Str) :
    rhoVolLoop pf fd fv ds ws (l :: rest) =
      rhoVolLoop pf (!has "VOLUMES" l && (fd || has "DENSITY" l)) (fv || has "VOLUMES" l) ds ws rest := by
  rw [rhoVolLoop]
  have : ((fd || fv) && isValueLine l) = false := by rcases h with h | h <;> simp [h]
  rw [this]
  simp

theorem rhoVol_read {pf : Str → Option K} {E D V : List Str} {ch r6 : Str} {ds vs : List K}
    (hch : ¬ "DENSITY".toList <:+: ch ∧ ¬ "VOLUMES".toList <:+: ch) (hE : ∀ l ∈ E, ¬ "DENSITY".toList <:+: l ∧ ¬ "VOLUMES".toList <:+: l)
    (hD : NumLines pf D ds) (hV : NumLines pf V vs) (h6 : IsRecord r6) :
    rhoVolLoop pf false false [] [] (ch :: (E ++ " DENSITY (gm/cm^3)\n".toList :: (D ++ r6 :: " VOLUMES (cm^3)\n".toList :: V))) = .ok (ds, vs) := by
  have front : ∀ B : List Str, (∀ l ∈ B, ¬ "DENSITY".toList <:+: l ∧ ¬ "VOLUMES".toList <:+: l) → ∀ ls,
      rhoVolLoop pf false false [] [] (B ++ ls) = rhoVolLoop pf false false [] [] ls := by
    intro B
    induction B with
    | nil => intro _ ls; rfl
    | cons l B ih =>
      intro hB ls
      obtain ⟨b1, b2⟩ := hB l (by simp)
      rw [List.cons_append, rho_skip (Or.inl rfl), has_false b1, has_false b2]
      exact ih (fun x hx => hB x (by simp [hx])) ls
  have := front [ch] (by simpa using hch) (E ++ " DENSITY (gm/cm^3)\n".toList :: (D ++ r6 :: " VOLUMES (cm^3)\n".toList :: V))
  rw [List.singleton_append] at this
  rw [this, front E hE, rho_skip (Or.inl rfl)]
  have e1 : has "DENSITY" " DENSITY (gm/cm^3)\n".toList = true := by decide
  have e2 : has "VOLUMES" " DENSITY (gm/cm^3)\n".toList = false := by decide
  have e3 : has "DENSITY" " VOLUMES (cm^3)\n".toList = false := by decide
  have e4 : has "VOLUMES" " VOLUMES (cm^3)\n".toList = true := by decide
  rw [e1, e2]
  simp only [Bool.not_false, Bool.or_true, Bool.and_true, Bool.or_false]
  rw [rho_nums rfl hD, rho_skip (Or.inr (record_not_value h6)),
    has_false (tag := "VOLUMES") (record_tag h6 (c := 'V') (by decide) (by decide)),
    has_false (tag := "DENSITY") (record_tag h6 (c := 'D') (by decide) (by decide))]
  simp only [Bool.not_false, Bool.or_false, Bool.and_true]
  rw [rho_skip (Or.inr (by decide)), e3, e4]
  simp only [Bool.not_true, Bool.false_and, Bool.or_true]
  have := rho_nums (pf := pf) (fd := false) (fv := true) rfl hV (ds := ds) (ws := []) []
  rw [List.append_nil] at this
  simp only [if_true, List.nil_append]
  rw [this]
  simp [rhoVolLoop]

end F4Enix.Eeout
