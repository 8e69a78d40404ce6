import Verif.Mat.Model
/-!
# Specification vocabulary for materials

Independent of the way the code computes: amounts are sums over the zaids of a list.
-/
namespace F4Enix.Mat
open F4Enix

/-- Total fraction of a list of zaids. (specification) -/
def total (zs : List Zaid) : ℚ := (zs.map Zaid.fraction).sum

/-- Total fraction of the zaids with a given full name (e.g. `1001.31c`). (specification) -/
def amount (name : Str) (zs : List Zaid) : ℚ :=
  total (zs.filter (fun z => decide (z.name = name)))

/-- Total fraction of the zaids of a given element. (specification) -/
def elementAmount (el : Str) (zs : List Zaid) : ℚ :=
  total (zs.filter (fun z => decide (z.element = el)))

/-- A zaid as it is read from an MCNP text: the isotope is the last three characters of the number
(all of it if it is shorter) and there is no dot inside the parts. (specification) -/
structure Canon (z : Zaid) : Prop where
  elementDot : '.' ∉ z.element
  isotopeDot : '.' ∉ z.isotope
  libraryDot : ∀ l, z.library = some l → '.' ∉ l
  isotopeLen : z.isotope.length = 3 ∨ (z.element = [] ∧ z.isotope.length < 3)

/-- first occurrences, in order (specification) -/
def firstOccurrences (l : List Str) : List Str := l.reverse.dedup.reverse

end F4Enix.Mat

namespace F4Enix.Mat
open F4Enix

/-- A sane isotope table and sane library names: one row per isotope, named `ZAAA`, with positive
abundance and mass; no dots in library names. The table shipped with F4Enix is one
(`Verif.Mat.Isotopes`). (specification) -/
structure TableOk (lm : LibMan) : Prop where
  idxNodup : (lm.isos.map Iso.idx).Nodup
  idxForm : ∀ r ∈ lm.isos, ∃ a : Str, a.length = 3 ∧ '.' ∉ a ∧ r.idx = natStr r.z ++ a
  pos : ∀ r ∈ lm.isos, 0 < r.ab ∧ 0 < r.mass
  libsDot : ∀ l ∈ lm.libs, '.' ∉ l

/-- The rows of the isotopes of element number `n`. (specification) -/
def LibMan.isotopesOf (lm : LibMan) (n : ℕ) : List Iso := lm.isos.filter (fun r => decide (r.z = n))

/-- Sum of the natural abundances of the isotopes of element number `n`. (specification) -/
def LibMan.abundance (lm : LibMan) (n : ℕ) : ℚ := ((lm.isotopesOf n).map Iso.ab).sum

/-- The zaid belongs to element number `n`, which the isotope table knows. (specification) -/
def LibMan.IsElement (lm : LibMan) (z : Zaid) (n : ℕ) : Prop :=
  z.element = natStr n ∧ lm.isotopesOf n ≠ []

/-- The zaid survives a translation: it belongs to a dosimetry library, or `convertZaid` finds
something for it in the library it is assigned to. (specification) -/
def kept (nl : NewLib) (lm : LibMan) (z : Zaid) : Bool :=
  lm.isDosimetry z ||
  match newTag nl z with
  | .error _ => false
  | .ok tag =>
    match lm.convert z.num tag with
    | .error _ => false
    | .ok _ => true

end F4Enix.Mat
