import Verif.Inp.CellUnionProps
import Mathlib.Data.List.TakeWhile
/-!
# Cell texts: what is refused, where values and words go (C50, C51, C53)
-/
namespace F4Enix.CellText
open F4Enix F4Enix.Inp

/-- the letters that end the geometry are those of the alphabet -/
theorem isAlpha_iff (c : Char) : isAlpha c = true ↔ ('A' ≤ c ∧ c ≤ 'Z') ∨ ('a' ≤ c ∧ c ≤ 'z') := by
  have h : ∀ a b : Char, a ≤ b ↔ a.toNat ≤ b.toNat := fun a b => by
    rw [Char.le_def, UInt32.le_iff_toNat_le]; rfl
  simp only [isAlpha, Bool.or_eq_true, Bool.and_eq_true, decide_eq_true_eq, h]
  rfl

/-- The words put in keep the layout of the card: every row keeps its indentation but the changed one, which begins
in the first column if it is the first row and behind five blanks otherwise (a continuation line for MCNP). -/
theorem insertRows_indent (ins : List Word) (b : Bool) (rows : List Row) (hne : rows ≠ []) :
    ∃ pre r post r', rows = pre ++ r :: post ∧ insertRows ins b rows = pre ++ r' :: post ∧
      r'.indent = (if b = true ∧ pre = [] then 0 else 5) := by
  induction rows generalizing b with
  | nil => exact absurd rfl hne
  | cons r rs ih =>
    rw [insertRows]
    split
    · exact ⟨[], r, rs, _, rfl, rfl, by cases b <;> rfl⟩
    · rename_i hc
      have hrs : rs ≠ [] := by
        rintro rfl
        exact hc (Or.inr rfl)
      obtain ⟨pre, x, post, x', h1, h2, h3⟩ := ih false hrs
      exact ⟨r :: pre, x, post, x', by rw [h1]; rfl, by rw [h2]; rfl, by simpa using h3⟩

/-- The value is put in at one place: behind the last surface or cell number, or, without one, behind the first value;
the others are kept. It is refused exactly for a card without values. -/
theorem insertVal_place (v : ℤ × Kind) (vals : List (ℤ × Kind)) :
    (vals = [] → insertVal v vals = .error .unboundLocal) ∧
    (vals ≠ [] → ∃ a b, vals = a ++ b ∧ insertVal v vals = .ok (a ++ v :: b) ∧ a ≠ [] ∧
      (((∀ x ∈ b, x.2 ≠ .sur ∧ x.2 ≠ .cel) ∧ ∃ x, a.getLast? = some x ∧ (x.2 = .sur ∨ x.2 = .cel)) ∨
       ((∀ x ∈ vals, x.2 ≠ .sur ∧ x.2 ≠ .cel) ∧ a.length = 1))) := by
  have hg : ∀ x : ℤ × Kind, (!isGeo x) = true ↔ x.2 ≠ .sur ∧ x.2 ≠ .cel := by
    intro x; simp [isGeo]
  constructor
  · rintro rfl; rfl
  · intro hne
    unfold insertVal
    have e : vals.reverse = vals.reverse.takeWhile (fun x => !isGeo x) ++ vals.reverse.dropWhile (fun x => !isGeo x) :=
      (List.takeWhile_append_dropWhile ..).symm
    have ht : ∀ x ∈ vals.reverse.takeWhile (fun x => !isGeo x), x.2 ≠ .sur ∧ x.2 ≠ .cel :=
      fun x hx => (hg x).1 (List.mem_takeWhile_imp (p := fun x => !isGeo x) hx)
    have hd := List.head?_dropWhile_not (fun x => !isGeo x) vals.reverse
    generalize vals.reverse.takeWhile (fun x => !isGeo x) = tl at *
    generalize vals.reverse.dropWhile (fun x => !isGeo x) = hd' at *
    have e2 : vals = hd'.reverse ++ tl.reverse := by
      rw [← List.reverse_append, ← e, List.reverse_reverse]
    have hemp : vals.isEmpty = false := by simpa using hne
    simp only [hemp, Bool.false_eq_true, if_false]
    cases hd' with
    | nil =>
      simp only [List.isEmpty_nil, if_true]
      refine ⟨vals.take 1, vals.drop 1, (List.take_append_drop 1 vals).symm, rfl, ?_, Or.inr ⟨?_, ?_⟩⟩
      · simp [hne]
      · intro x hx
        rw [e2] at hx
        exact ht x (by simpa using hx)
      · cases vals with
        | nil => exact absurd rfl hne
        | cons a l => simp
    | cons y ys =>
      simp only [List.isEmpty_cons, Bool.false_eq_true, if_false]
      refine ⟨(y :: ys).reverse, tl.reverse, e2, rfl, by simp, Or.inl ⟨?_, y, by simp, ?_⟩⟩
      · intro x hx; exact ht x (List.mem_reverse.1 hx)
      · simp only [List.head?_cons] at hd
        have := hd
        simpa only [isGeo, Bool.not_eq_false', decide_eq_true_eq] using this

/-- the width of the hole of an added surface is that of its digits: the number is written without blanks around -/
theorem surfaceWord_width (mode : Mode) (s : ℤ) :
    ∃ p, surfaceWord mode s = p ++ [.hole (natStr s.natAbs).length] := by
  unfold surfaceWord
  split
  · rename_i h
    exact ⟨_, by rw [intStr_nonneg h]⟩
  · rename_i h
    refine ⟨lit mode.symbol ++ [.ch '-'], ?_⟩
    rw [intStr_neg (by omega), List.length_cons, Nat.add_sub_cancel, List.append_assoc]
    rfl

theorem getCells_missing {d : Dict Str Card} {ks : List Str} (h : ∃ k ∈ ks, Dict.get? d k = none) :
    getCells d ks = .error .keyError := by
  induction ks with
  | nil => simp at h
  | cons k ks ih =>
    rw [getCells]
    cases hk : Dict.get? d k with
    | none => rfl
    | some c =>
      obtain ⟨x, hx, hn⟩ := h
      rcases List.mem_cons.1 hx with rfl | hx
      · rw [hk] at hn; cases hn
      · simp only [ih ⟨x, hx, hn⟩]

/-- the union of cells one of which is not there, or of none, is refused with `KeyError`, `IndexError` and changes nothing -/
theorem cellsUnion_refused (geom : Card → List Str) (reread : Card → Card) (d : Dict Str Card) (num : Option ℤ) :
    (∀ ks, (∃ k ∈ ks, Dict.get? d k = none) → cellsUnion geom reread d ks num = (d, some .keyError)) ∧
    cellsUnion geom reread d [] num = (d, some .indexError) := by
  constructor
  · intro ks h
    unfold cellsUnion
    rw [getCells_missing h]
  · rfl

/-- without a number for the new cell, the first value of the first card is taken; a card without one is refused -/
theorem unionNum_spec (num : Option ℤ) (c : Card) :
    unionNum num c = match num, c.vals with
      | some n, _ => .ok n
      | none, v :: _ => .ok v.1
      | none, [] => .error .indexError := by
  unfold unionNum
  cases num with
  | some n => rfl
  | none => cases c.vals <;> rfl

/-- a cell to be hashed that is not there is a `KeyError`; the cells before it keep their new texts -/
theorem hash_missing {h : ℤ} {d d' : Dict Str Card} {ns ms : List ℤ} {n : ℤ} (hn : hashInner h d ns = (d', none))
    (hm : Dict.get? d' (intStr n) = none) : hashInner h d (ns ++ n :: ms) = (d', some .keyError) := by
  induction ns generalizing d with
  | nil =>
    simp only [hashInner, Prod.mk.injEq, and_true] at hn
    subst hn
    rw [List.nil_append, hashInner, hm]
  | cons x ns ih =>
    rw [hashInner] at hn
    rw [List.cons_append, hashInner]
    cases hx : Dict.get? d (intStr x) with
    | none => rw [hx] at hn; simp at hn
    | some c =>
      rw [hx] at hn
      simp only at hn ⊢
      cases hc : hashCell c h none with
      | error e => rw [hc] at hn; simp at hn
      | ok c' =>
        rw [hc] at hn
        exact ih hn

example : hashInner 5 [("1".toList, ⟨1, [⟨0, [lit "1".toList, lit "0".toList, lit "-3".toList]⟩], [(1, .cel), (0, .mat), (3, .sur)]⟩)] [1, 2] =
    ([("1".toList, ⟨1, [⟨0, [lit "1".toList, lit "0".toList, lit ['('], lit "-3".toList, lit [')'], [.ch '#', .hole 0]]⟩],
      [(1, .cel), (0, .mat), (3, .sur), (5, .cel)]⟩)], some .keyError) := by decide +kernel

example : insertVal (7, .u) [(1, .mat), (4, .mat)] = .ok [(1, .mat), (7, .u), (4, .mat)] := by decide

end F4Enix.CellText
