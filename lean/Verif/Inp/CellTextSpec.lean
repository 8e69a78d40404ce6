import Verif.Inp.CellText
import Verif.Inp.CellGeo
/-!
# Specification: what a cell card says

A cell card says: its number, the rest of its header (material number, and density unless void),
its geometry, its parameters (`imp:n=1 u=3 …`). `Shows` reads these four things off a card.
-/
namespace F4Enix.CellText
open F4Enix F4Enix.Inp F4Enix.CellGeo

/-- is the piece a format hole? (specification) -/
def isHole : Piece → Bool
  | .hole _ => true
  | .ch _ => false

/-- number of format holes of a list of words (specification) -/
def holes (ws : List Word) : Nat := (ws.map (fun w => w.countP isHole)).sum

/-- How the template and the values of a card are divided: first word, rest of the header, geometry,
parameters. The header is on the first line; header and geometry have no letters; the first
parameter word has one. (specification) -/
structure Shape (c : Card) (w0 : Nat) (H G P : List Word) (num : ℤ)
    (vh vg vp : List (ℤ × Kind)) : Prop where
  words : c.words = [.hole w0] :: H ++ G ++ P
  head : ∃ r rs, c.rows = r :: rs ∧ ([.hole w0] :: H) <+: r.words
  size : H.length = if c.mat = some 0 then 1 else 2
  plain : ∀ w ∈ H ++ G, hasAlpha w = false
  params : P = [] ∨ ∃ p ps, P = p :: ps ∧ hasAlpha p = true
  name : c.name = num
  vals : c.vals = (num, .cel) :: vh ++ vg ++ vp
  mat : ∃ v ∈ vh, v.2 = Kind.mat
  geoNe : vg ≠ []
  geo : ∀ v ∈ vg, v.2 = Kind.sur ∨ v.2 = Kind.cel
  other : ∀ v ∈ vp, v.2 ≠ Kind.sur ∧ v.2 ≠ Kind.cel
  holesH : holes H = vh.length
  holesG : holes G = vg.length
  holesP : holes P = vp.length

/-- **The card says**: number `num`, header words `hd`, geometry text `geo`, parameter words `ps`. (specification) -/
def Shows (c : Card) (num : ℤ) (hd : List Str) (geo : Str) (ps : List Str) : Prop :=
  ∃ w0 H G P vh vg vp, Shape c w0 H G P num vh vg vp ∧
    render H (vh.map Prod.fst) = some (hd, []) ∧
    (∃ gs, render G (vg.map Prod.fst) = some (gs, []) ∧ geo = unwords gs) ∧
    render P (vp.map Prod.fst) = some (ps, [])

/-- The region selected by a signed surface number. (specification) -/
def sideOf {P : Type} (w : World P) (s : ℤ) : Region P := w.side (decide (s < 0)) s.natAbs

end F4Enix.CellText
