import Verif.Base.Text
import Mathlib.Algebra.BigOperators.Group.List.Basic
import Mathlib.Data.Rat.Defs
/-!
# Model of `src/f4enix/material_library.py`

`MaterialComposition` and the shipped compositions (generated from the file, exact decimal numbers).
-/
namespace F4Enix.Mat
open F4Enix

/-- a composition (material_library.py:8-68) -/
structure Composition where
  name : Str
  elem : List Str
  perc : List ℚ
  deriving DecidableEq, Repr

/-- the constructor (material_library.py:9-50); strings are read as numbers before -/
def mkComposition (name : Str) (comp : List (Str × ℚ)) (fraction : Bool) : Composition :=
  ⟨name, comp.map Prod.fst, comp.map (fun p => if fraction then p.2 * 100 else p.2)⟩

/-- `__eq__` (material_library.py:58-68) between compositions -/
def compositionEq (a b : Composition) : Bool := decide (a.name = b.name) && decide (a.perc = b.perc) && decide (a.elem = b.elem)

/-- material_library.py:72-72 -/
def silver : Composition := mkComposition "Pure Silver".toList [
  ("Ag".toList, 100)] false

/-- material_library.py:73-107 -/
def tungsten : Composition := mkComposition "W with impurities".toList [
  ("C".toList, 3 / 1000), ("N".toList, 1 / 1000), ("O".toList, 3 / 1000), ("MG".toList, 1 / 2000), ("AL".toList, 3 / 2000),
  ("SI".toList, 1 / 500), ("P".toList, 1 / 200), ("S".toList, 1 / 2000), ("TI".toList, 1 / 1000), ("CR".toList, 1 / 1000),
  ("MN".toList, 1 / 2000), ("FE".toList, 3 / 1000), ("ZN".toList, 1 / 2000), ("ZR".toList, 1 / 1000), ("MO".toList, 1 / 100),
  ("AG".toList, 1 / 2000), ("CD".toList, 1 / 1000), ("W".toList, 199913 / 2000), ("PB".toList, 1 / 1000), ("NI".toList, 3 / 1000),
  ("CU".toList, 1 / 1000), ("NB".toList, 1 / 1000), ("CO".toList, 1 / 1000), ("TA".toList, 1 / 1000), ("CA".toList, 1 / 1000),
  ("H".toList, 1 / 2000), ("K".toList, 1 / 1000), ("NA".toList, 1 / 1000), ("AS".toList, 1 / 2000), ("BA".toList, 1 / 1000)] false

/-- material_library.py:108-108 -/
def lead : Composition := mkComposition "Pure Lead".toList [
  ("Pb".toList, 100)] false

/-- material_library.py:109-122 -/
def al6061 : Composition := mkComposition "Al-6061".toList [
  ("MG".toList, 1), ("AL".toList, 486 / 5), ("SI".toList, 3 / 5), ("TI".toList, 11 / 125), ("CR".toList, 39 / 200), ("MN".toList, 11 / 125),
  ("FE".toList, 409 / 1000), ("ZN".toList, 73 / 500), ("CU".toList, 11 / 40)] false

/-- material_library.py:123-140 -/
def albrz : Composition := mkComposition "Al-Brz".toList [
  ("AL".toList, 39 / 4), ("SI".toList, 1 / 5), ("MN".toList, 1), ("FE".toList, 4), ("ZN".toList, 1 / 50), ("CD".toList, 1 / 50),
  ("SN".toList, 1 / 10), ("PB".toList, 1 / 50), ("NI".toList, 5), ("CU".toList, 7973 / 100), ("NB".toList, 1 / 10), ("CO".toList, 1 / 20),
  ("TA".toList, 1 / 100)] false

/-- material_library.py:141-190 -/
def bhc : Composition := mkComposition "Borated Heavy Concrete".toList [
  ("B".toList, 41823 / 100000), ("C".toList, 44503 / 100000), ("N".toList, 989 / 20000), ("O".toList, 1594681 / 50000),
  ("MG".toList, 6799 / 12500), ("AL".toList, 49447 / 100000), ("SI".toList, 27567 / 12500), ("P".toList, 20273 / 100000),
  ("S".toList, 4203 / 50000), ("TI".toList, 17307 / 100000), ("CR".toList, 119 / 100000), ("MN".toList, 161 / 6250),
  ("FE".toList, 5581631 / 100000), ("ZN".toList, 99 / 100000), ("ZR".toList, 59 / 100000), ("CO".toList, 519 / 100000),
  ("TA".toList, 1 / 5000), ("CA".toList, 329073 / 50000), ("NA".toList, 44503 / 100000), ("K".toList, 11867 / 100000),
  ("CL".toList, 989 / 50000), ("H".toList, 30163 / 100000), ("BA".toList, 163 / 50000), ("CE".toList, 47 / 12500), ("CS".toList, 3 / 20000),
  ("DY".toList, 1 / 10000), ("EU".toList, 1 / 10000), ("GA".toList, 747 / 100000), ("HF".toList, 1 / 10000), ("LA".toList, 267 / 100000),
  ("LU".toList, 69 / 50000), ("ND".toList, 99 / 100000), ("PR".toList, 351 / 50000), ("RB".toList, 37 / 50000), ("SB".toList, 3 / 10000),
  ("SC".toList, 1 / 10000), ("SE".toList, 1 / 4000), ("SM".toList, 1 / 2500), ("SR".toList, 463 / 12500), ("TB".toList, 7 / 20000),
  ("TH".toList, 49 / 100000), ("U".toList, 59 / 100000), ("V".toList, 2633 / 25000), ("Y".toList, 59 / 100000), ("YB".toList, 1 / 10000)] false

/-- material_library.py:191-245 -/
def concrete : Composition := mkComposition "Concrete".toList [
  ("B".toList, 187 / 25000), ("C".toList, 14717 / 2500), ("N".toList, 4989 / 100000), ("O".toList, 4909 / 100), ("MG".toList, 25817 / 50000),
  ("AL".toList, 3093 / 2000), ("SI".toList, 3897 / 250), ("P".toList, 449 / 20000), ("S".toList, 38913 / 100000),
  ("TI".toList, 7483 / 100000), ("CR".toList, 43 / 25000), ("MN".toList, 437 / 100000), ("FE".toList, 93291 / 100000),
  ("ZN".toList, 167 / 50000), ("ZR".toList, 127 / 100000), ("CU".toList, 87 / 100000), ("CO".toList, 1 / 4000), ("TA".toList, 1 / 4000),
  ("H".toList, 18209 / 50000), ("LI".toList, 9 / 10000), ("NA".toList, 15091 / 50000), ("CL".toList, 1247 / 100000),
  ("K".toList, 10539 / 25000), ("CA".toList, 4939 / 200), ("SC".toList, 1 / 5000), ("V".toList, 21 / 10000), ("GA".toList, 277 / 100000),
  ("GE".toList, 1 / 2500), ("SE".toList, 1 / 5000), ("RB".toList, 267 / 50000), ("SR".toList, 5163 / 100000), ("Y".toList, 11 / 10000),
  ("SB".toList, 1 / 5000), ("CS".toList, 3 / 10000), ("BA".toList, 91 / 12500), ("LA".toList, 51 / 50000), ("CE".toList, 81 / 50000),
  ("PR".toList, 191 / 50000), ("ND".toList, 17 / 10000), ("SM".toList, 1 / 5000), ("EU".toList, 3 / 10000), ("GD".toList, 1 / 2500),
  ("TB".toList, 31 / 50000), ("DY".toList, 7 / 50000), ("ER".toList, 1 / 2500), ("YB".toList, 1 / 10000), ("LU".toList, 1 / 20000),
  ("HF".toList, 1 / 5000), ("TH".toList, 13 / 10000), ("U".toList, 499 / 100000)] false

/-- material_library.py:246-272 -/
def cucrzr : Composition := mkComposition "Copper Cromium Zirconium (CuCrZr)".toList [
  ("B".toList, 1 / 1000), ("O".toList, 4 / 125), ("MG".toList, 1 / 25), ("AL".toList, 3 / 100), ("SI".toList, 1 / 25), ("P".toList, 7 / 500),
  ("S".toList, 1 / 250), ("CR".toList, 3 / 40), ("MN".toList, 1 / 500), ("FE".toList, 1 / 50), ("ZN".toList, 1 / 100),
  ("ZR".toList, 11 / 100), ("SN".toList, 1 / 100), ("PB".toList, 1 / 100), ("BI".toList, 3 / 1000), ("NI".toList, 3 / 50),
  ("CU".toList, 9887 / 100), ("NB".toList, 1 / 10), ("CO".toList, 1 / 20), ("TA".toList, 1 / 100), ("AS".toList, 1 / 100),
  ("SB".toList, 11 / 1000)] false

/-- material_library.py:273-301 -/
def eurofer97 : Composition := mkComposition "Eurofer-97".toList [
  ("B".toList, 1 / 500), ("C".toList, 3 / 25), ("N".toList, 9 / 200), ("O".toList, 1 / 100), ("AL".toList, 1 / 100), ("SI".toList, 1 / 20),
  ("P".toList, 1 / 200), ("S".toList, 1 / 200), ("TI".toList, 1 / 50), ("CR".toList, 9), ("MN".toList, 3 / 5), ("FE".toList, 44299 / 500),
  ("ZR".toList, 1 / 800), ("MO".toList, 1 / 200), ("SN".toList, 1 / 800), ("W".toList, 11 / 10), ("NI".toList, 1 / 100),
  ("CU".toList, 1 / 100), ("NB".toList, 1 / 200), ("CO".toList, 1 / 100), ("TA".toList, 7 / 50), ("V".toList, 1 / 4), ("SB".toList, 1 / 800),
  ("AS".toList, 1 / 800)] false

/-- material_library.py:302-322 -/
def inconel718 : Composition := mkComposition "Inconel-718".toList [
  ("B".toList, 1 / 250), ("C".toList, 1 / 20), ("AL".toList, 1 / 2), ("SI".toList, 7 / 20), ("P".toList, 3 / 200), ("S".toList, 3 / 200),
  ("TI".toList, 9 / 10), ("CR".toList, 19), ("MN".toList, 7 / 20), ("FE".toList, 8853 / 500), ("MO".toList, 61 / 20), ("NI".toList, 105 / 2),
  ("CU".toList, 3 / 10), ("NB".toList, 103 / 20), ("CO".toList, 1 / 10), ("TA".toList, 1 / 100)] false

/-- material_library.py:323-323 -/
def nb3sn : Composition := mkComposition "Nb3Sn".toList [
  ("SN".toList, 29), ("NB".toList, 71)] false

/-- material_library.py:324-324 -/
def nbti : Composition := mkComposition "NbTi".toList [
  ("TI".toList, 93 / 2), ("NB".toList, 107 / 2)] false

/-- material_library.py:325-344 -/
def ss660 : Composition := mkComposition "SS660".toList [
  ("B".toList, 1 / 100), ("C".toList, 11 / 200), ("AL".toList, 7 / 20), ("SI".toList, 1), ("P".toList, 1 / 40), ("S".toList, 3 / 200),
  ("TI".toList, 21 / 10), ("CR".toList, 59 / 4), ("MN".toList, 3 / 2), ("FE".toList, 10679 / 200), ("MO".toList, 5 / 4),
  ("NI".toList, 51 / 2), ("CO".toList, 1 / 20), ("TA".toList, 1 / 100), ("V".toList, 1 / 2)] false

/-- material_library.py:345-365 -/
def ss316lnig : Composition := mkComposition "SS316L(N)-IG".toList [
  ("B".toList, 1 / 500), ("C".toList, 3 / 100), ("N".toList, 7 / 100), ("SI".toList, 1 / 2), ("P".toList, 1 / 40), ("S".toList, 1 / 100),
  ("TI".toList, 1 / 10), ("CR".toList, 35 / 2), ("MN".toList, 9 / 5), ("FE".toList, 64843 / 1000), ("MO".toList, 5 / 2),
  ("NI".toList, 49 / 4), ("CU".toList, 3 / 10), ("NB".toList, 1 / 100), ("CO".toList, 1 / 20), ("TA".toList, 1 / 100)] false

/-- material_library.py:366-384 -/
def microtherm : Composition := mkComposition "Microtherm".toList [
  ("O".toList, 2071 / 50), ("Na".toList, 1 / 10), ("Mg".toList, 41 / 100), ("Al".toList, 56 / 25), ("Si".toList, 2949 / 100),
  ("P".toList, 1 / 100), ("S".toList, 1 / 50), ("Cl".toList, 1 / 100), ("Ca".toList, 183 / 100), ("Ti".toList, 591 / 25),
  ("V".toList, 7 / 100), ("Cr".toList, 1 / 25), ("Fe".toList, 1 / 5), ("Zr".toList, 3 / 20)] false

/-- material_library.py:385-398 -/
def titanium5 : Composition := mkComposition "Titanium Alloy, Grade 5".toList [
  ("H".toList, 11 / 100000), ("C".toList, 57 / 100000), ("N".toList, 21 / 100000), ("O".toList, 141 / 100000), ("Al".toList, 49 / 80),
  ("Ti".toList, 89363 / 100000), ("V".toList, 1 / 25), ("Fe".toList, 283 / 100000)] true

/-- material_library.py:399-432 -/
def beryllium : Composition := mkComposition "Beryllium".toList [
  ("Be".toList, 124 / 125), ("O".toList, 369 / 100000), ("Al".toList, 3 / 5000), ("C".toList, 989 / 1000000), ("Fe".toList, 1 / 1250),
  ("Mg".toList, 3 / 5000), ("Si".toList, 3 / 5000), ("Ni".toList, 53 / 500000), ("Mn".toList, 3 / 200000), ("Cu".toList, 31 / 1000000),
  ("Ti".toList, 3 / 50000), ("Co".toList, 3 / 500000), ("Pb".toList, 197 / 10000000), ("Ca".toList, 1 / 50000), ("W".toList, 999 / 10000000),
  ("Mo".toList, 1 / 50000), ("Cr".toList, 37 / 1000000), ("N".toList, 57 / 500000), ("Zr".toList, 43 / 1000000), ("B".toList, 1 / 500000),
  ("Li".toList, 3 / 1000000), ("Na".toList, 3 / 200000), ("S".toList, 1 / 100000), ("F".toList, 1 / 200000), ("Cl".toList, 1 / 100000),
  ("P".toList, 23 / 50000000), ("Nb".toList, 3 / 25000000), ("Ta".toList, 97 / 10000000)] true

/-- `AVAILABLE_MATERIALS` (material_library.py:434-452) -/
def availableMaterials : List Composition := [silver, tungsten, lead, al6061, albrz, bhc, concrete, cucrzr, eurofer97, inconel718, nb3sn, nbti, ss660, ss316lnig, microtherm, titanium5, beryllium]

end F4Enix.Mat
