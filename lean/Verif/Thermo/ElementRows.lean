import Verif.Support.Tables

/-!
Atoms in the end-member formulas of the tables of solids, read by the program's own formula parser. Written by tools/gen/genelements.py.
-/

namespace Magma.Thermo.Elements

open Magma.Support.Formula Magma.Support.Tables

/-- Number of atoms of element `e` that the program reads from the formula `f` (melts_support.c 305-315). -/
def atomsIn (f : String) (e : ℕ) : ℚ := elemRow f.toList e

/-- Value of a list of atoms. -/
def ev (l : List (ℕ × ℚ)) (e : ℕ) : ℚ := (l.map fun p => if p.1 = e then p.2 else 0).sum

theorem atomsIn_eq (s : String) (f : List Item) (l : List (ℕ × ℚ)) (h : rowOk (s, f) = true) (ha : atomsOf f = l) (e : ℕ) :
    atomsIn s e = ev l e := by
  unfold atomsIn ev
  rw [(row_count (s, f) h).1, count_atoms, ha]

@[simp] theorem row0 (e : ℕ) : atomsIn "Al2O3" e = ev [(13, 2), (8, 3)] e :=
  atomsIn_eq _ [.atom ⟨13, ['2']⟩, .atom ⟨8, ['3']⟩] _ (by decide +kernel) (by decide +kernel) e

@[simp] theorem row1 (e : ℕ) : atomsIn "CO2" e = ev [(6, 1), (8, 2)] e :=
  atomsIn_eq _ [.atom ⟨6, []⟩, .atom ⟨8, ['2']⟩] _ (by decide +kernel) (by decide +kernel) e

@[simp] theorem row2 (e : ℕ) : atomsIn "Ca2Al2SiO7" e = ev [(20, 2), (13, 2), (14, 1), (8, 7)] e :=
  atomsIn_eq _ [.atom ⟨20, ['2']⟩, .atom ⟨13, ['2']⟩, .atom ⟨14, []⟩, .atom ⟨8, ['7']⟩] _ (by decide +kernel) (by decide +kernel) e

@[simp] theorem row3 (e : ℕ) : atomsIn "Ca2FeSi2O7" e = ev [(20, 2), (26, 1), (14, 2), (8, 7)] e :=
  atomsIn_eq _ [.atom ⟨20, ['2']⟩, .atom ⟨26, []⟩, .atom ⟨14, ['2']⟩, .atom ⟨8, ['7']⟩] _ (by decide +kernel) (by decide +kernel) e

@[simp] theorem row4 (e : ℕ) : atomsIn "Ca2Mg5Si8O22(OH)2" e = ev [(20, 2), (12, 5), (14, 8), (8, 22), (8, 2), (1, 2)] e :=
  atomsIn_eq _ [.atom ⟨20, ['2']⟩, .atom ⟨12, ['5']⟩, .atom ⟨14, ['8']⟩, .atom ⟨8, ['2', '2']⟩, .group [⟨8, []⟩, ⟨1, []⟩] ['2']] _ (by decide +kernel) (by decide +kernel) e

@[simp] theorem row5 (e : ℕ) : atomsIn "Ca2MgSi2O7" e = ev [(20, 2), (12, 1), (14, 2), (8, 7)] e :=
  atomsIn_eq _ [.atom ⟨20, ['2']⟩, .atom ⟨12, []⟩, .atom ⟨14, ['2']⟩, .atom ⟨8, ['7']⟩] _ (by decide +kernel) (by decide +kernel) e

@[simp] theorem row6 (e : ℕ) : atomsIn "Ca3Al2Si3O12" e = ev [(20, 3), (13, 2), (14, 3), (8, 12)] e :=
  atomsIn_eq _ [.atom ⟨20, ['3']⟩, .atom ⟨13, ['2']⟩, .atom ⟨14, ['3']⟩, .atom ⟨8, ['1', '2']⟩] _ (by decide +kernel) (by decide +kernel) e

@[simp] theorem row7 (e : ℕ) : atomsIn "CaAl2Si2O8" e = ev [(20, 1), (13, 2), (14, 2), (8, 8)] e :=
  atomsIn_eq _ [.atom ⟨20, []⟩, .atom ⟨13, ['2']⟩, .atom ⟨14, ['2']⟩, .atom ⟨8, ['8']⟩] _ (by decide +kernel) (by decide +kernel) e

@[simp] theorem row8 (e : ℕ) : atomsIn "CaFeAlSiO6" e = ev [(20, 1), (26, 1), (13, 1), (14, 1), (8, 6)] e :=
  atomsIn_eq _ [.atom ⟨20, []⟩, .atom ⟨26, []⟩, .atom ⟨13, []⟩, .atom ⟨14, []⟩, .atom ⟨8, ['6']⟩] _ (by decide +kernel) (by decide +kernel) e

@[simp] theorem row9 (e : ℕ) : atomsIn "CaFeSi2O6" e = ev [(20, 1), (26, 1), (14, 2), (8, 6)] e :=
  atomsIn_eq _ [.atom ⟨20, []⟩, .atom ⟨26, []⟩, .atom ⟨14, ['2']⟩, .atom ⟨8, ['6']⟩] _ (by decide +kernel) (by decide +kernel) e

@[simp] theorem row10 (e : ℕ) : atomsIn "CaMgSi2O6" e = ev [(20, 1), (12, 1), (14, 2), (8, 6)] e :=
  atomsIn_eq _ [.atom ⟨20, []⟩, .atom ⟨12, []⟩, .atom ⟨14, ['2']⟩, .atom ⟨8, ['6']⟩] _ (by decide +kernel) (by decide +kernel) e

@[simp] theorem row11 (e : ℕ) : atomsIn "CaMgSiO4" e = ev [(20, 1), (12, 1), (14, 1), (8, 4)] e :=
  atomsIn_eq _ [.atom ⟨20, []⟩, .atom ⟨12, []⟩, .atom ⟨14, []⟩, .atom ⟨8, ['4']⟩] _ (by decide +kernel) (by decide +kernel) e

@[simp] theorem row12 (e : ℕ) : atomsIn "CaNa2Al4Si4O16" e = ev [(20, 1), (11, 2), (13, 4), (14, 4), (8, 16)] e :=
  atomsIn_eq _ [.atom ⟨20, []⟩, .atom ⟨11, ['2']⟩, .atom ⟨13, ['4']⟩, .atom ⟨14, ['4']⟩, .atom ⟨8, ['1', '6']⟩] _ (by decide +kernel) (by decide +kernel) e

@[simp] theorem row13 (e : ℕ) : atomsIn "CaTi0.5Mg0.5AlSiO6" e = ev [(20, 1), (22, (5 / 10)), (12, (5 / 10)), (13, 1), (14, 1), (8, 6)] e :=
  atomsIn_eq _ [.atom ⟨20, []⟩, .atom ⟨22, ['0', '.', '5']⟩, .atom ⟨12, ['0', '.', '5']⟩, .atom ⟨13, []⟩, .atom ⟨14, []⟩, .atom ⟨8, ['6']⟩] _ (by decide +kernel) (by decide +kernel) e

@[simp] theorem row14 (e : ℕ) : atomsIn "CaTi0.5Mg0.5FeSiO6" e = ev [(20, 1), (22, (5 / 10)), (12, (5 / 10)), (26, 1), (14, 1), (8, 6)] e :=
  atomsIn_eq _ [.atom ⟨20, []⟩, .atom ⟨22, ['0', '.', '5']⟩, .atom ⟨12, ['0', '.', '5']⟩, .atom ⟨26, []⟩, .atom ⟨14, []⟩, .atom ⟨8, ['6']⟩] _ (by decide +kernel) (by decide +kernel) e

@[simp] theorem row15 (e : ℕ) : atomsIn "Co2SiO4" e = ev [(27, 2), (14, 1), (8, 4)] e :=
  atomsIn_eq _ [.atom ⟨27, ['2']⟩, .atom ⟨14, []⟩, .atom ⟨8, ['4']⟩] _ (by decide +kernel) (by decide +kernel) e

@[simp] theorem row16 (e : ℕ) : atomsIn "Fe" e = ev [(26, 1)] e :=
  atomsIn_eq _ [.atom ⟨26, []⟩] _ (by decide +kernel) (by decide +kernel) e

@[simp] theorem row17 (e : ℕ) : atomsIn "Fe2O3" e = ev [(26, 2), (8, 3)] e :=
  atomsIn_eq _ [.atom ⟨26, ['2']⟩, .atom ⟨8, ['3']⟩] _ (by decide +kernel) (by decide +kernel) e

@[simp] theorem row18 (e : ℕ) : atomsIn "Fe2SiO4" e = ev [(26, 2), (14, 1), (8, 4)] e :=
  atomsIn_eq _ [.atom ⟨26, ['2']⟩, .atom ⟨14, []⟩, .atom ⟨8, ['4']⟩] _ (by decide +kernel) (by decide +kernel) e

@[simp] theorem row19 (e : ℕ) : atomsIn "Fe2TiO4" e = ev [(26, 2), (22, 1), (8, 4)] e :=
  atomsIn_eq _ [.atom ⟨26, ['2']⟩, .atom ⟨22, []⟩, .atom ⟨8, ['4']⟩] _ (by decide +kernel) (by decide +kernel) e

@[simp] theorem row20 (e : ℕ) : atomsIn "Fe2TiO5" e = ev [(26, 2), (22, 1), (8, 5)] e :=
  atomsIn_eq _ [.atom ⟨26, ['2']⟩, .atom ⟨22, []⟩, .atom ⟨8, ['5']⟩] _ (by decide +kernel) (by decide +kernel) e

@[simp] theorem row21 (e : ℕ) : atomsIn "Fe3Al2Si3O12" e = ev [(26, 3), (13, 2), (14, 3), (8, 12)] e :=
  atomsIn_eq _ [.atom ⟨26, ['3']⟩, .atom ⟨13, ['2']⟩, .atom ⟨14, ['3']⟩, .atom ⟨8, ['1', '2']⟩] _ (by decide +kernel) (by decide +kernel) e

@[simp] theorem row22 (e : ℕ) : atomsIn "Fe3O4" e = ev [(26, 3), (8, 4)] e :=
  atomsIn_eq _ [.atom ⟨26, ['3']⟩, .atom ⟨8, ['4']⟩] _ (by decide +kernel) (by decide +kernel) e

@[simp] theorem row23 (e : ℕ) : atomsIn "Fe7Si8O22(OH)2" e = ev [(26, 7), (14, 8), (8, 22), (8, 2), (1, 2)] e :=
  atomsIn_eq _ [.atom ⟨26, ['7']⟩, .atom ⟨14, ['8']⟩, .atom ⟨8, ['2', '2']⟩, .group [⟨8, []⟩, ⟨1, []⟩] ['2']] _ (by decide +kernel) (by decide +kernel) e

@[simp] theorem row24 (e : ℕ) : atomsIn "FeAl2O4" e = ev [(26, 1), (13, 2), (8, 4)] e :=
  atomsIn_eq _ [.atom ⟨26, []⟩, .atom ⟨13, ['2']⟩, .atom ⟨8, ['4']⟩] _ (by decide +kernel) (by decide +kernel) e

@[simp] theorem row25 (e : ℕ) : atomsIn "FeCr2O4" e = ev [(26, 1), (24, 2), (8, 4)] e :=
  atomsIn_eq _ [.atom ⟨26, []⟩, .atom ⟨24, ['2']⟩, .atom ⟨8, ['4']⟩] _ (by decide +kernel) (by decide +kernel) e

@[simp] theorem row26 (e : ℕ) : atomsIn "FeTi2O5" e = ev [(26, 1), (22, 2), (8, 5)] e :=
  atomsIn_eq _ [.atom ⟨26, []⟩, .atom ⟨22, ['2']⟩, .atom ⟨8, ['5']⟩] _ (by decide +kernel) (by decide +kernel) e

@[simp] theorem row27 (e : ℕ) : atomsIn "FeTiO3" e = ev [(26, 1), (22, 1), (8, 3)] e :=
  atomsIn_eq _ [.atom ⟨26, []⟩, .atom ⟨22, []⟩, .atom ⟨8, ['3']⟩] _ (by decide +kernel) (by decide +kernel) e

@[simp] theorem row28 (e : ℕ) : atomsIn "H2O" e = ev [(1, 2), (8, 1)] e :=
  atomsIn_eq _ [.atom ⟨1, ['2']⟩, .atom ⟨8, []⟩] _ (by decide +kernel) (by decide +kernel) e

@[simp] theorem row29 (e : ℕ) : atomsIn "K4Al4Si4O16" e = ev [(19, 4), (13, 4), (14, 4), (8, 16)] e :=
  atomsIn_eq _ [.atom ⟨19, ['4']⟩, .atom ⟨13, ['4']⟩, .atom ⟨14, ['4']⟩, .atom ⟨8, ['1', '6']⟩] _ (by decide +kernel) (by decide +kernel) e

@[simp] theorem row30 (e : ℕ) : atomsIn "KAlSi2O6" e = ev [(19, 1), (13, 1), (14, 2), (8, 6)] e :=
  atomsIn_eq _ [.atom ⟨19, []⟩, .atom ⟨13, []⟩, .atom ⟨14, ['2']⟩, .atom ⟨8, ['6']⟩] _ (by decide +kernel) (by decide +kernel) e

@[simp] theorem row31 (e : ℕ) : atomsIn "KAlSi3O8" e = ev [(19, 1), (13, 1), (14, 3), (8, 8)] e :=
  atomsIn_eq _ [.atom ⟨19, []⟩, .atom ⟨13, []⟩, .atom ⟨14, ['3']⟩, .atom ⟨8, ['8']⟩] _ (by decide +kernel) (by decide +kernel) e

@[simp] theorem row32 (e : ℕ) : atomsIn "KFe3Si3AlO10(OH)2" e = ev [(19, 1), (26, 3), (14, 3), (13, 1), (8, 10), (8, 2), (1, 2)] e :=
  atomsIn_eq _ [.atom ⟨19, []⟩, .atom ⟨26, ['3']⟩, .atom ⟨14, ['3']⟩, .atom ⟨13, []⟩, .atom ⟨8, ['1', '0']⟩, .group [⟨8, []⟩, ⟨1, []⟩] ['2']] _ (by decide +kernel) (by decide +kernel) e

@[simp] theorem row33 (e : ℕ) : atomsIn "KMg3Si3AlO10(OH)2" e = ev [(19, 1), (12, 3), (14, 3), (13, 1), (8, 10), (8, 2), (1, 2)] e :=
  atomsIn_eq _ [.atom ⟨19, []⟩, .atom ⟨12, ['3']⟩, .atom ⟨14, ['3']⟩, .atom ⟨13, []⟩, .atom ⟨8, ['1', '0']⟩, .group [⟨8, []⟩, ⟨1, []⟩] ['2']] _ (by decide +kernel) (by decide +kernel) e

@[simp] theorem row34 (e : ℕ) : atomsIn "Mg2Si2O6" e = ev [(12, 2), (14, 2), (8, 6)] e :=
  atomsIn_eq _ [.atom ⟨12, ['2']⟩, .atom ⟨14, ['2']⟩, .atom ⟨8, ['6']⟩] _ (by decide +kernel) (by decide +kernel) e

@[simp] theorem row35 (e : ℕ) : atomsIn "Mg2SiO4" e = ev [(12, 2), (14, 1), (8, 4)] e :=
  atomsIn_eq _ [.atom ⟨12, ['2']⟩, .atom ⟨14, []⟩, .atom ⟨8, ['4']⟩] _ (by decide +kernel) (by decide +kernel) e

@[simp] theorem row36 (e : ℕ) : atomsIn "Mg3Al2Si3O12" e = ev [(12, 3), (13, 2), (14, 3), (8, 12)] e :=
  atomsIn_eq _ [.atom ⟨12, ['3']⟩, .atom ⟨13, ['2']⟩, .atom ⟨14, ['3']⟩, .atom ⟨8, ['1', '2']⟩] _ (by decide +kernel) (by decide +kernel) e

@[simp] theorem row37 (e : ℕ) : atomsIn "Mg7Si8O22(OH)2" e = ev [(12, 7), (14, 8), (8, 22), (8, 2), (1, 2)] e :=
  atomsIn_eq _ [.atom ⟨12, ['7']⟩, .atom ⟨14, ['8']⟩, .atom ⟨8, ['2', '2']⟩, .group [⟨8, []⟩, ⟨1, []⟩] ['2']] _ (by decide +kernel) (by decide +kernel) e

@[simp] theorem row38 (e : ℕ) : atomsIn "MgAl2O4" e = ev [(12, 1), (13, 2), (8, 4)] e :=
  atomsIn_eq _ [.atom ⟨12, []⟩, .atom ⟨13, ['2']⟩, .atom ⟨8, ['4']⟩] _ (by decide +kernel) (by decide +kernel) e

@[simp] theorem row39 (e : ℕ) : atomsIn "MgTi2O5" e = ev [(12, 1), (22, 2), (8, 5)] e :=
  atomsIn_eq _ [.atom ⟨12, []⟩, .atom ⟨22, ['2']⟩, .atom ⟨8, ['5']⟩] _ (by decide +kernel) (by decide +kernel) e

@[simp] theorem row40 (e : ℕ) : atomsIn "MgTiO3" e = ev [(12, 1), (22, 1), (8, 3)] e :=
  atomsIn_eq _ [.atom ⟨12, []⟩, .atom ⟨22, []⟩, .atom ⟨8, ['3']⟩] _ (by decide +kernel) (by decide +kernel) e

@[simp] theorem row41 (e : ℕ) : atomsIn "Mn2SiO4" e = ev [(25, 2), (14, 1), (8, 4)] e :=
  atomsIn_eq _ [.atom ⟨25, ['2']⟩, .atom ⟨14, []⟩, .atom ⟨8, ['4']⟩] _ (by decide +kernel) (by decide +kernel) e

@[simp] theorem row42 (e : ℕ) : atomsIn "MnTiO3" e = ev [(25, 1), (22, 1), (8, 3)] e :=
  atomsIn_eq _ [.atom ⟨25, []⟩, .atom ⟨22, []⟩, .atom ⟨8, ['3']⟩] _ (by decide +kernel) (by decide +kernel) e

@[simp] theorem row43 (e : ℕ) : atomsIn "Na2Si3O7" e = ev [(11, 2), (14, 3), (8, 7)] e :=
  atomsIn_eq _ [.atom ⟨11, ['2']⟩, .atom ⟨14, ['3']⟩, .atom ⟨8, ['7']⟩] _ (by decide +kernel) (by decide +kernel) e

@[simp] theorem row44 (e : ℕ) : atomsIn "Na3Al3Si5O16" e = ev [(11, 3), (13, 3), (14, 5), (8, 16)] e :=
  atomsIn_eq _ [.atom ⟨11, ['3']⟩, .atom ⟨13, ['3']⟩, .atom ⟨14, ['5']⟩, .atom ⟨8, ['1', '6']⟩] _ (by decide +kernel) (by decide +kernel) e

@[simp] theorem row45 (e : ℕ) : atomsIn "Na4Al4Si4O16" e = ev [(11, 4), (13, 4), (14, 4), (8, 16)] e :=
  atomsIn_eq _ [.atom ⟨11, ['4']⟩, .atom ⟨13, ['4']⟩, .atom ⟨14, ['4']⟩, .atom ⟨8, ['1', '6']⟩] _ (by decide +kernel) (by decide +kernel) e

@[simp] theorem row46 (e : ℕ) : atomsIn "NaAlSi2O5(OH)2" e = ev [(11, 1), (13, 1), (14, 2), (8, 5), (8, 2), (1, 2)] e :=
  atomsIn_eq _ [.atom ⟨11, []⟩, .atom ⟨13, []⟩, .atom ⟨14, ['2']⟩, .atom ⟨8, ['5']⟩, .group [⟨8, []⟩, ⟨1, []⟩] ['2']] _ (by decide +kernel) (by decide +kernel) e

@[simp] theorem row47 (e : ℕ) : atomsIn "NaAlSi2O6" e = ev [(11, 1), (13, 1), (14, 2), (8, 6)] e :=
  atomsIn_eq _ [.atom ⟨11, []⟩, .atom ⟨13, []⟩, .atom ⟨14, ['2']⟩, .atom ⟨8, ['6']⟩] _ (by decide +kernel) (by decide +kernel) e

@[simp] theorem row48 (e : ℕ) : atomsIn "NaAlSi3O8" e = ev [(11, 1), (13, 1), (14, 3), (8, 8)] e :=
  atomsIn_eq _ [.atom ⟨11, []⟩, .atom ⟨13, []⟩, .atom ⟨14, ['3']⟩, .atom ⟨8, ['8']⟩] _ (by decide +kernel) (by decide +kernel) e

@[simp] theorem row49 (e : ℕ) : atomsIn "NaCa2Fe4AlAl2Si6O22(OH)2" e = ev [(11, 1), (20, 2), (26, 4), (13, 1), (13, 2), (14, 6), (8, 22), (8, 2), (1, 2)] e :=
  atomsIn_eq _ [.atom ⟨11, []⟩, .atom ⟨20, ['2']⟩, .atom ⟨26, ['4']⟩, .atom ⟨13, []⟩, .atom ⟨13, ['2']⟩, .atom ⟨14, ['6']⟩, .atom ⟨8, ['2', '2']⟩, .group [⟨8, []⟩, ⟨1, []⟩] ['2']] _ (by decide +kernel) (by decide +kernel) e

@[simp] theorem row50 (e : ℕ) : atomsIn "NaCa2Mg4AlAl2Si6O22(OH)2" e = ev [(11, 1), (20, 2), (12, 4), (13, 1), (13, 2), (14, 6), (8, 22), (8, 2), (1, 2)] e :=
  atomsIn_eq _ [.atom ⟨11, []⟩, .atom ⟨20, ['2']⟩, .atom ⟨12, ['4']⟩, .atom ⟨13, []⟩, .atom ⟨13, ['2']⟩, .atom ⟨14, ['6']⟩, .atom ⟨8, ['2', '2']⟩, .group [⟨8, []⟩, ⟨1, []⟩] ['2']] _ (by decide +kernel) (by decide +kernel) e

@[simp] theorem row51 (e : ℕ) : atomsIn "NaCa2Mg4FeAl2Si6O22(OH)2" e = ev [(11, 1), (20, 2), (12, 4), (26, 1), (13, 2), (14, 6), (8, 22), (8, 2), (1, 2)] e :=
  atomsIn_eq _ [.atom ⟨11, []⟩, .atom ⟨20, ['2']⟩, .atom ⟨12, ['4']⟩, .atom ⟨26, []⟩, .atom ⟨13, ['2']⟩, .atom ⟨14, ['6']⟩, .atom ⟨8, ['2', '2']⟩, .group [⟨8, []⟩, ⟨1, []⟩] ['2']] _ (by decide +kernel) (by decide +kernel) e

@[simp] theorem row52 (e : ℕ) : atomsIn "Ni" e = ev [(28, 1)] e :=
  atomsIn_eq _ [.atom ⟨28, []⟩] _ (by decide +kernel) (by decide +kernel) e

@[simp] theorem row53 (e : ℕ) : atomsIn "Ni2SiO4" e = ev [(28, 2), (14, 1), (8, 4)] e :=
  atomsIn_eq _ [.atom ⟨28, ['2']⟩, .atom ⟨14, []⟩, .atom ⟨8, ['4']⟩] _ (by decide +kernel) (by decide +kernel) e

end Magma.Thermo.Elements
