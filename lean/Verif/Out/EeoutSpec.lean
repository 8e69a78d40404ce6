import Verif.Out.Eeout
/-!
# The layout of an eeout file (specification for C124-C127)

Written from MCNP's files, without reference to the reader.
-/
namespace F4Enix.Eeout
open F4Enix

variable {K : Type}

/-- a number as it is written: `d.dddddE±dd`, possibly behind a minus sign (specification) -/
structure IsNum (w : Str) : Prop where
  form : ∃ (neg : Bool) (d g : Char) (ds es : Str),
    w = (if neg then ['-'] else []) ++ d :: '.' :: (ds ++ 'E' :: g :: es) ∧ isDigit d = true ∧
    ds.length = 5 ∧ (∀ c ∈ ds, isDigit c = true) ∧ (g = '+' ∨ g = '-') ∧ es.length = 2 ∧ (∀ c ∈ es, isDigit c = true)

/-- a line of numbers in columns of 13 (specification) -/
def numLine (ws : List Str) : Str := fields (ws.map (fun w => (13, w))) ++ ['\n']

/-- a line of whole numbers in columns of the given width (specification) -/
def intLine (width : ℕ) (ns : List ℕ) : Str := fields (ns.map (fun n => (width, natStr n))) ++ ['\n']

/-- lines with the numbers `vs`, any number of them on each line (specification) -/
def NumLines (pf : Str → Option K) (ls : List Str) (vs : List K) : Prop :=
  ∃ wss : List (List Str), ls = wss.map numLine ∧ (∀ ws ∈ wss, ws ≠ [] ∧ ∀ w ∈ ws, IsNum w) ∧
    wss.flatten.map pf = vs.map some

/-- lines with the whole numbers `ns` (specification) -/
def IntLines (width : ℕ) (ls : List Str) (ns : List ℕ) : Prop :=
  ∃ nss : List (List ℕ), ls = nss.map (intLine width) ∧
    (∀ ms ∈ nss, ms ≠ [] ∧ ∀ n ∈ ms, (natStr n).length < width) ∧ nss.flatten = ns

/-- the line of six whole numbers before each section (specification) -/
def IsRecord (l : Str) : Prop :=
  ∃ ns : List ℕ, ns.length = 6 ∧ (∀ n ∈ ns, (natStr n).length ≤ 12) ∧ l = intLine 15 ns

/-- a line of the head with a number, as ` NUMBER OF NODES    :                 2424` (specification) -/
def IsInfo (l : Str) (name : Str) (n : ℕ) : Prop :=
  ∃ a b : ℕ, l = ' ' :: name ++ List.replicate a ' ' ++ ':' :: List.replicate b ' ' ++ natStr n ++ ['\n'] ∧
    (∀ c ∈ name, isInfoChar c = true) ∧ strip name = name ∧ name ≠ []

/-- an edit: particle, number, type and the blocks of values and errors (without the first entry, which belongs to no
element) (specification) -/
structure Edit (K : Type) where
  particle : ℕ
  number : ℕ
  type : Str
  blocks : List (Which × List K)

/-- the name under which the results of an edit are found (specification) -/
def Edit.name (e : Edit K) : Str :=
  "Tally".toList ++ natStr e.number ++ "_par".toList ++ natStr e.particle ++ '_' :: e.type

/-- a line without a tag of the edits (specification) -/
def Filler (l : Str) : Prop :=
  ¬ "DATA OUTPUT PARTICLE".toList <:+: l ∧ ¬ "DATA SETS RESULT TIME BIN".toList <:+: l ∧
  ¬ "DATA SETS REL ERROR TIME BIN".toList <:+: l ∧ ¬ "CENTROIDS X".toList <:+: l

/-- the line before a block (specification) -/
def Trigger (l : Str) : Which → Prop
  | .values => "DATA SETS RESULT TIME BIN".toList <:+: l ∧ ¬ "DATA OUTPUT PARTICLE".toList <:+: l ∧ ¬ "CENTROIDS X".toList <:+: l
  | .errors => "DATA SETS REL ERROR TIME BIN".toList <:+: l ∧ ¬ "RESULT".toList <:+: l ∧ ¬ "DATA OUTPUT PARTICLE".toList <:+: l ∧
      ¬ "CENTROIDS X".toList <:+: l

/-- the first line of an edit (specification) -/
def editHead (particle number : ℕ) (type : Str) : Str :=
  " DATA OUTPUT PARTICLE : ".toList ++ (natStr particle ++ (" ; EDIT LIST : ".toList ++ (natStr number ++
    (" ; TYPE : ".toList ++ (type ++ ['\n'])))))

/-- the lines of an edit behind its head: blocks, and other lines between them (specification) -/
inductive Body (pf : Str → Option K) : List Str → List (Which × List K) → Prop
  | nil : Body pf [] []
  | filler {l : Str} {ls : List Str} {bs : List (Which × List K)} (h : Filler l) (hr : Body pf ls bs) : Body pf (l :: ls) bs
  | block {tr e : Str} {vl ls : List Str} {w : Which} {v : K} {vs : List K} {bs : List (Which × List K)}
      (ht : Trigger tr w) (hv : NumLines pf vl (v :: vs)) (he : IsRecord e) (hr : Body pf ls bs) :
      Body pf (tr :: (vl ++ e :: ls)) ((w, vs) :: bs)

/-- the lines of all the edits (specification) -/
inductive EditLines (pf : Str → Option K) : List Str → List (Edit K) → Prop
  | nil : EditLines pf [] []
  | cons {ls ls' : List Str} {e : Edit K} {es : List (Edit K)} (ht : e.type ≠ [] ∧ ∀ c ∈ e.type, isWordChar c = true)
      (hn : ¬ "DATA SETS RESULT TIME BIN".toList <:+: editHead e.particle e.number e.type ∧
        ¬ "DATA SETS REL ERROR TIME BIN".toList <:+: editHead e.particle e.number e.type ∧
        ¬ "CENTROIDS X".toList <:+: editHead e.particle e.number e.type)
      (hb : Body pf ls e.blocks) (hr : EditLines pf ls' es) :
      EditLines pf (editHead e.particle e.number e.type :: (ls ++ ls')) (e :: es)

/-- the last block of a kind (specification) -/
def lastOf (w : Which) (bs : List (Which × List K)) : Option (List K) :=
  ((bs.filter (fun b => decide (b.1 = w))).getLast?).map Prod.snd

/-- what a file says (specification) -/
structure Data (K : Type) where
  materials : List Str
  particles : List ℕ
  points : List (K × K × K)
  /-- the nodes of the elements, counted from 1 -/
  elements : List (List ℕ)
  /-- the material of the elements, counted from 1 -/
  elemMats : List ℕ
  edits : List (Edit K)
  density : List K
  volume : List K

/-- the parts of the text (specification) -/
structure Text where
  head : List Str
  info : List Str
  a : List Str
  particles : Str
  b : List Str
  materials : List Str
  c : List Str
  xs : List Str
  r1 : Str
  ys : List Str
  r2 : Str
  zs : List Str
  r3 : Str
  types : List Str
  mats : List Str
  r4 : Str
  connHead : Str
  conn : List Str
  r5 : Str
  neighHead : Str
  d : List Str
  edits : List Str
  centHead : Str
  e : List Str
  density : List Str
  r6 : Str
  volume : List Str

/-- the lines before the coordinates (specification) -/
def Text.front (t : Text) : List Str :=
  t.head ++ (t.info ++ (t.a ++ " PARTICLE LIST\n".toList :: t.particles :: (t.b ++ " MATERIALS\n".toList :: (t.materials ++ t.c))))

/-- the file (specification) -/
def Text.lines (t : Text) : List Str :=
  t.front ++ " NODES X (cm)\n".toList :: (t.xs ++ t.r1 :: " NODES Y (cm)\n".toList :: (t.ys ++ t.r2 :: " NODES Z (cm)\n".toList ::
    (t.zs ++ t.r3 :: " ELEMENT TYPE\n".toList :: (t.types ++ " ELEMENT MATERIAL\n".toList :: (t.mats ++ t.r4 :: t.connHead ::
      (t.conn ++ t.r5 :: t.neighHead :: (t.d ++ (t.edits ++ t.centHead :: (t.e ++ " DENSITY (gm/cm^3)\n".toList ::
        (t.density ++ t.r6 :: " VOLUMES (cm^3)\n".toList :: t.volume))))))))))

/-- the lines of numbers of the head: the first one is the number of particles, the last one that of edits (specification) -/
def InfoLines (ls : List Str) (d : List (Str × ℕ)) : Prop :=
  List.Forall₂ (fun l x => IsInfo l x.1 x.2) ls d ∧ (d.map Prod.fst).Nodup ∧
  (∃ l r, ls = l :: r ∧ "NUMBER OF PARTICLES".toList <:+: l) ∧
  (∃ l r, ls = r ++ [l] ∧ "NUMBER OF EDITS".toList <:+: l ∧ ∀ y ∈ r, ¬ "NUMBER OF EDITS".toList <:+: y)

/-- the text has this layout and says this; `n` nodes per element: 4 or 10 (specification) -/
structure Layout (pf : Str → Option K) (t : Text) (m : Data K) (n : ℕ) (nums : List (Str × ℕ)) : Prop where
  head : ∀ l ∈ t.head, ¬ "NUMBER OF PARTICLES".toList <:+: l ∧ ¬ "NUMBER OF EDITS".toList <:+: l
  info : InfoLines t.info nums
  nMat : ("NUMBER OF MATERIALS".toList, m.materials.length) ∈ nums
  nPart : ("NUMBER OF PARTICLES".toList, m.particles.length) ∈ nums
  nNodes : ("NUMBER OF NODES".toList, m.points.length) ∈ nums
  nTets1 : ("NUMBER OF 1st TETS".toList, if n = 4 then m.elements.length else 0) ∈ nums
  nTets2 : ("NUMBER OF 2nd TETS".toList, if n = 10 then m.elements.length else 0) ∈ nums
  nodes : n = 4 ∨ n = 10
  some : m.elements ≠ []
  particlesOnce : ∀ l ∈ t.head ++ (t.info ++ t.a), ¬ "PARTICLE LIST".toList <:+: l
  particles : ∃ w, t.particles = intLine w m.particles ∧ ∀ p ∈ m.particles, (natStr p).length < w
  materialsOnce : ∀ l ∈ t.head ++ (t.info ++ (t.a ++ (" PARTICLE LIST\n".toList :: t.particles :: t.b))), ¬ "MATERIALS".toList <+: lstrip l
  materials : List.Forall₂ (fun l x => ∃ k, l = x ++ List.replicate k ' ' ++ ['\n'] ∧ x ≠ [] ∧ '\n' ∉ x ∧ strip x = x) t.materials m.materials
  front : ∀ l ∈ t.front, ¬ "NODES X".toList <:+: l ∧ ¬ "NODES Y".toList <:+: l ∧ ¬ "NODES Z".toList <:+: l ∧ ¬ " ELEMENT TYPE".toList <+: l
  xs : NumLines pf t.xs (m.points.map Prod.fst)
  ys : NumLines pf t.ys (m.points.map (fun p => p.2.1))
  zs : NumLines pf t.zs (m.points.map (fun p => p.2.2))
  records : IsRecord t.r1 ∧ IsRecord t.r2 ∧ IsRecord t.r3 ∧ IsRecord t.r4 ∧ IsRecord t.r5 ∧ IsRecord t.r6
  types : ∀ l ∈ t.types, ¬ "CONNECTIVITY DATA".toList <:+: l ∧ ¬ "ELEMENT MATERIAL".toList <:+: l
  mats : IntLines 8 t.mats m.elemMats
  connHead : "CONNECTIVITY DATA".toList <:+: t.connHead ∧ ¬ "NODE ORDERED".toList <:+: t.connHead ∧ ¬ "NEAREST NEIGHBOR DATA".toList <:+: t.connHead
  conn : IntLines 12 t.conn m.elements.flatten
  neighHead : "NEAREST NEIGHBOR DATA".toList <:+: t.neighHead ∧ ¬ "CONNECTIVITY DATA".toList <:+: t.neighHead ∧ Filler t.neighHead
  d : ∀ l ∈ t.d, Filler l
  edits : EditLines pf t.edits m.edits
  centHead : "CENTROIDS X".toList <:+: t.centHead ∧ ¬ "DATA OUTPUT PARTICLE".toList <:+: t.centHead ∧
    ¬ "DENSITY".toList <:+: t.centHead ∧ ¬ "VOLUMES".toList <:+: t.centHead
  e : ∀ l ∈ t.e, ¬ "DENSITY".toList <:+: l ∧ ¬ "VOLUMES".toList <:+: l
  density : NumLines pf t.density m.density
  volume : NumLines pf t.volume m.volume
  elements : ∀ x ∈ m.elements, x.length = n
  names : (m.edits.map Edit.name).Nodup
  blocks : ∀ x ∈ m.edits, (∃ b ∈ x.blocks, b.1 = .values) ∧ (∃ b ∈ x.blocks, b.1 = .errors)
  sizes : m.elemMats.length = m.elements.length ∧ m.density.length = m.elements.length ∧ m.volume.length = m.elements.length ∧
    ∀ x ∈ m.edits, ∀ b ∈ x.blocks, b.2.length = m.elements.length

end F4Enix.Eeout
