import Verif.Support.Formula
import Mathlib.Data.Rat.Defs
import Mathlib.Data.List.GetD

/-!
The table of elements, /repo/sources/melts_support.c 140-250, and the formulas of the tables of oxides and liquid components
(/repo/includes/liq_struct_data.h) and solids (/repo/includes/sol_struct_data.h), each once, taken apart into elements and
numbers. Written by tools/gen/genformula.py.
-/

namespace Magma.Support.Formula

/-- `elements[]`, melts_support.c 140-249: symbol and atomic weight. -/
def rows : List (List Char × ℚ) := [
  (['!'], 0),
  (['H'], 10079 / 10000),
  (['H', 'e'], 20013 / 5000),
  (['L', 'i'], 347 / 50),
  (['B', 'e'], 450609 / 50000),
  (['B'], 1081 / 100),
  (['C'], 12011 / 1000),
  (['N'], 140067 / 10000),
  (['O'], 79997 / 5000),
  (['F'], 18998403 / 1000000),
  (['N', 'e'], 20179 / 1000),
  (['N', 'a'], 2298977 / 100000),
  (['M', 'g'], 4861 / 200),
  (['A', 'l'], 1349077 / 50000),
  (['S', 'i'], 56171 / 2000),
  (['P'], 96793 / 3125),
  (['S'], 1603 / 50),
  (['C', 'l'], 35453 / 1000),
  (['A', 'r'], 9987 / 250),
  (['K'], 19551 / 500),
  (['C', 'a'], 1002 / 25),
  (['S', 'c'], 449559 / 10000),
  (['T', 'i'], 479 / 10),
  (['V'], 101883 / 2000),
  (['C', 'r'], 12999 / 250),
  (['M', 'n'], 27469 / 500),
  (['F', 'e'], 55847 / 1000),
  (['C', 'o'], 147333 / 2500),
  (['N', 'i'], 5871 / 100),
  (['C', 'u'], 31773 / 500),
  (['Z', 'n'], 3269 / 50),
  (['G', 'a'], 13947 / 200),
  (['G', 'e'], 7259 / 100),
  (['A', 's'], 46826 / 625),
  (['S', 'e'], 1974 / 25),
  (['B', 'r'], 9988 / 125),
  (['K', 'r'], 419 / 5),
  (['R', 'b'], 427339 / 5000),
  (['S', 'r'], 4381 / 50),
  (['Y'], 889059 / 10000),
  (['Z', 'r'], 4561 / 50),
  (['N', 'b'], 116133 / 1250),
  (['M', 'o'], 4797 / 50),
  (['T', 'c'], 494531 / 5000),
  (['R', 'u'], 10107 / 100),
  (['R', 'h'], 205811 / 2000),
  (['P', 'd'], 532 / 5),
  (['A', 'g'], 26967 / 250),
  (['C', 'd'], 11241 / 100),
  (['I', 'n'], 5741 / 50),
  (['S', 'n'], 11869 / 100),
  (['S', 'b'], 487 / 4),
  (['T', 'e'], 638 / 5),
  (['I'], 253809 / 2000),
  (['X', 'e'], 1313 / 10),
  (['C', 's'], 664527 / 5000),
  (['B', 'a'], 13733 / 100),
  (['L', 'a'], 277811 / 2000),
  (['C', 'e'], 3503 / 25),
  (['P', 'r'], 1409077 / 10000),
  (['N', 'd'], 3606 / 25),
  (['P', 'm'], 145),
  (['S', 'm'], 752 / 5),
  (['E', 'u'], 3799 / 25),
  (['G', 'd'], 629 / 4),
  (['T', 'b'], 794627 / 5000),
  (['D', 'y'], 325 / 2),
  (['H', 'o'], 206163 / 1250),
  (['E', 'r'], 8363 / 50),
  (['T', 'm'], 844671 / 5000),
  (['Y', 'b'], 4326 / 25),
  (['L', 'u'], 174967 / 1000),
  (['H', 'f'], 17849 / 100),
  (['T', 'a'], 1809479 / 10000),
  (['W'], 3677 / 20),
  (['R', 'e'], 186207 / 1000),
  (['O', 's'], 951 / 5),
  (['I', 'r'], 9611 / 50),
  (['P', 't'], 19509 / 100),
  (['A', 'u'], 393933 / 2000),
  (['H', 'g'], 20059 / 100),
  (['T', 'l'], 20437 / 100),
  (['P', 'b'], 1036 / 5),
  (['B', 'i'], 522451 / 2500),
  (['P', 'o'], 209),
  (['A', 't'], 210),
  (['R', 'n'], 222),
  (['F', 'r'], 223),
  (['R', 'a'], 1130127 / 5000),
  (['A', 'c'], 227),
  (['T', 'h'], 2320381 / 10000),
  (['P', 'a'], 2310359 / 10000),
  (['U'], 238029 / 1000),
  (['N', 'p'], 1185241 / 5000),
  (['P', 'u'], 244),
  (['A', 'm'], 243),
  (['C', 'm'], 247),
  (['B', 'k'], 247),
  (['C', 'f'], 251),
  (['E', 's'], 254),
  (['F', 'm'], 257),
  (['M', 'd'], 258),
  (['N', 'o'], 259),
  (['L', 'w'], 260),
  (['R', 'f'], 260),
  (['H', 'a'], 260),
  (['Z', 'Z'], 263)]

/-- `elements`, `ne`, melts_support.c 140-250. -/
def elements : Elements ℚ where
  ne := rows.length
  sym j := (rows.getD j ([], 0)).1
  wt j := (rows.getD j ([], 0)).2

/-- Formulas of the tables with their parts, 1 of 2. -/
def formulas0 : List (String × List Item) := [
  ("SiO2", [.atom ⟨14, []⟩, .atom ⟨8, ['2']⟩]),
  ("TiO2", [.atom ⟨22, []⟩, .atom ⟨8, ['2']⟩]),
  ("Al2O3", [.atom ⟨13, ['2']⟩, .atom ⟨8, ['3']⟩]),
  ("Fe2O3", [.atom ⟨26, ['2']⟩, .atom ⟨8, ['3']⟩]),
  ("Cr2O3", [.atom ⟨24, ['2']⟩, .atom ⟨8, ['3']⟩]),
  ("FeO", [.atom ⟨26, []⟩, .atom ⟨8, []⟩]),
  ("MnO", [.atom ⟨25, []⟩, .atom ⟨8, []⟩]),
  ("MgO", [.atom ⟨12, []⟩, .atom ⟨8, []⟩]),
  ("NiO", [.atom ⟨28, []⟩, .atom ⟨8, []⟩]),
  ("CoO", [.atom ⟨27, []⟩, .atom ⟨8, []⟩]),
  ("CaO", [.atom ⟨20, []⟩, .atom ⟨8, []⟩]),
  ("Na2O", [.atom ⟨11, ['2']⟩, .atom ⟨8, []⟩]),
  ("K2O", [.atom ⟨19, ['2']⟩, .atom ⟨8, []⟩]),
  ("P2O5", [.atom ⟨15, ['2']⟩, .atom ⟨8, ['5']⟩]),
  ("H2O", [.atom ⟨1, ['2']⟩, .atom ⟨8, []⟩]),
  ("CO2", [.atom ⟨6, []⟩, .atom ⟨8, ['2']⟩]),
  ("SO3", [.atom ⟨16, []⟩, .atom ⟨8, ['3']⟩]),
  ("Cl2O-1", [.atom ⟨17, ['2']⟩, .atom ⟨8, ['-', '1']⟩]),
  ("F2O-1", [.atom ⟨9, ['2']⟩, .atom ⟨8, ['-', '1']⟩]),
  ("MgCr2O4", [.atom ⟨12, []⟩, .atom ⟨24, ['2']⟩, .atom ⟨8, ['4']⟩]),
  ("Fe2SiO4", [.atom ⟨26, ['2']⟩, .atom ⟨14, []⟩, .atom ⟨8, ['4']⟩]),
  ("MnSi0.5O2", [.atom ⟨25, []⟩, .atom ⟨14, ['0', '.', '5']⟩, .atom ⟨8, ['2']⟩]),
  ("Mg2SiO4", [.atom ⟨12, ['2']⟩, .atom ⟨14, []⟩, .atom ⟨8, ['4']⟩]),
  ("NiSi0.5O2", [.atom ⟨28, []⟩, .atom ⟨14, ['0', '.', '5']⟩, .atom ⟨8, ['2']⟩]),
  ("CoSi0.5O2", [.atom ⟨27, []⟩, .atom ⟨14, ['0', '.', '5']⟩, .atom ⟨8, ['2']⟩]),
  ("CaSiO3", [.atom ⟨20, []⟩, .atom ⟨14, []⟩, .atom ⟨8, ['3']⟩]),
  ("Na2SiO3", [.atom ⟨11, ['2']⟩, .atom ⟨14, []⟩, .atom ⟨8, ['3']⟩]),
  ("KAlSiO4", [.atom ⟨19, []⟩, .atom ⟨13, []⟩, .atom ⟨14, []⟩, .atom ⟨8, ['4']⟩]),
  ("Ca3(PO4)2", [.atom ⟨20, ['3']⟩, .group [⟨15, []⟩, ⟨8, ['4']⟩] ['2']]),
  ("CaCO3", [.atom ⟨20, []⟩, .atom ⟨6, []⟩, .atom ⟨8, ['3']⟩]),
  ("Si4O8", [.atom ⟨14, ['4']⟩, .atom ⟨8, ['8']⟩]),
  ("Al4O6", [.atom ⟨13, ['4']⟩, .atom ⟨8, ['6']⟩]),
  ("Ca2Si2O6", [.atom ⟨20, ['2']⟩, .atom ⟨14, ['2']⟩, .atom ⟨8, ['6']⟩]),
  ("NaSi0.5O1.5", [.atom ⟨11, []⟩, .atom ⟨14, ['0', '.', '5']⟩, .atom ⟨8, ['1', '.', '5']⟩]),
  ("Mn2SiO4", [.atom ⟨25, ['2']⟩, .atom ⟨14, []⟩, .atom ⟨8, ['4']⟩]),
  ("Co2SiO4", [.atom ⟨27, ['2']⟩, .atom ⟨14, []⟩, .atom ⟨8, ['4']⟩]),
  ("Ni2SiO4", [.atom ⟨28, ['2']⟩, .atom ⟨14, []⟩, .atom ⟨8, ['4']⟩]),
  ("CaMgSiO4", [.atom ⟨20, []⟩, .atom ⟨12, []⟩, .atom ⟨14, []⟩, .atom ⟨8, ['4']⟩]),
  ("CaTiSiO5", [.atom ⟨20, []⟩, .atom ⟨22, []⟩, .atom ⟨14, []⟩, .atom ⟨8, ['5']⟩]),
  ("Fe3Al2Si3O12", [.atom ⟨26, ['3']⟩, .atom ⟨13, ['2']⟩, .atom ⟨14, ['3']⟩, .atom ⟨8, ['1', '2']⟩]),
  ("Ca3Al2Si3O12", [.atom ⟨20, ['3']⟩, .atom ⟨13, ['2']⟩, .atom ⟨14, ['3']⟩, .atom ⟨8, ['1', '2']⟩]),
  ("Mg3Al2Si3O12", [.atom ⟨12, ['3']⟩, .atom ⟨13, ['2']⟩, .atom ⟨14, ['3']⟩, .atom ⟨8, ['1', '2']⟩]),
  ("Ca2MgSi2O7", [.atom ⟨20, ['2']⟩, .atom ⟨12, []⟩, .atom ⟨14, ['2']⟩, .atom ⟨8, ['7']⟩]),
  ("Ca2Al2SiO7", [.atom ⟨20, ['2']⟩, .atom ⟨13, ['2']⟩, .atom ⟨14, []⟩, .atom ⟨8, ['7']⟩]),
  ("Ca2FeSi2O7", [.atom ⟨20, ['2']⟩, .atom ⟨26, []⟩, .atom ⟨14, ['2']⟩, .atom ⟨8, ['7']⟩]),
  ("Na2Si3O7", [.atom ⟨11, ['2']⟩, .atom ⟨14, ['3']⟩, .atom ⟨8, ['7']⟩]),
  ("CaMgSi2O6", [.atom ⟨20, []⟩, .atom ⟨12, []⟩, .atom ⟨14, ['2']⟩, .atom ⟨8, ['6']⟩]),
  ("Mg2Si2O6", [.atom ⟨12, ['2']⟩, .atom ⟨14, ['2']⟩, .atom ⟨8, ['6']⟩]),
  ("CaFeSi2O6", [.atom ⟨20, []⟩, .atom ⟨26, []⟩, .atom ⟨14, ['2']⟩, .atom ⟨8, ['6']⟩]),
  ("CaTi0.5Mg0.5AlSiO6", [.atom ⟨20, []⟩, .atom ⟨22, ['0', '.', '5']⟩, .atom ⟨12, ['0', '.', '5']⟩, .atom ⟨13, []⟩, .atom ⟨14, []⟩, .atom ⟨8, ['6']⟩]),
  ("CaTi0.5Mg0.5FeSiO6", [.atom ⟨20, []⟩, .atom ⟨22, ['0', '.', '5']⟩, .atom ⟨12, ['0', '.', '5']⟩, .atom ⟨26, []⟩, .atom ⟨14, []⟩, .atom ⟨8, ['6']⟩]),
  ("CaFeAlSiO6", [.atom ⟨20, []⟩, .atom ⟨26, []⟩, .atom ⟨13, []⟩, .atom ⟨14, []⟩, .atom ⟨8, ['6']⟩]),
  ("NaAlSi2O6", [.atom ⟨11, []⟩, .atom ⟨13, []⟩, .atom ⟨14, ['2']⟩, .atom ⟨8, ['6']⟩]),
  ("NaFeSi2O6", [.atom ⟨11, []⟩, .atom ⟨26, []⟩, .atom ⟨14, ['2']⟩, .atom ⟨8, ['6']⟩]),
  ("Na2Fe5TiSi6O20", [.atom ⟨11, ['2']⟩, .atom ⟨26, ['5']⟩, .atom ⟨22, []⟩, .atom ⟨14, ['6']⟩, .atom ⟨8, ['2', '0']⟩]),
  ("Mg7Si8O22(OH)2", [.atom ⟨12, ['7']⟩, .atom ⟨14, ['8']⟩, .atom ⟨8, ['2', '2']⟩, .group [⟨8, []⟩, ⟨1, []⟩] ['2']]),
  ("Fe7Si8O22(OH)2", [.atom ⟨26, ['7']⟩, .atom ⟨14, ['8']⟩, .atom ⟨8, ['2', '2']⟩, .group [⟨8, []⟩, ⟨1, []⟩] ['2']]),
  ("Ca2Mg5Si8O22(OH)2", [.atom ⟨20, ['2']⟩, .atom ⟨12, ['5']⟩, .atom ⟨14, ['8']⟩, .atom ⟨8, ['2', '2']⟩, .group [⟨8, []⟩, ⟨1, []⟩] ['2']]),
  ("NaCa2Mg4AlAl2Si6O22(OH)2", [.atom ⟨11, []⟩, .atom ⟨20, ['2']⟩, .atom ⟨12, ['4']⟩, .atom ⟨13, []⟩, .atom ⟨13, ['2']⟩, .atom ⟨14, ['6']⟩, .atom ⟨8, ['2', '2']⟩, .group [⟨8, []⟩, ⟨1, []⟩] ['2']]),
  ("NaCa2Fe4AlAl2Si6O22(OH)2", [.atom ⟨11, []⟩, .atom ⟨20, ['2']⟩, .atom ⟨26, ['4']⟩, .atom ⟨13, []⟩, .atom ⟨13, ['2']⟩, .atom ⟨14, ['6']⟩, .atom ⟨8, ['2', '2']⟩, .group [⟨8, []⟩, ⟨1, []⟩] ['2']])]

/-- Formulas of the tables with their parts, 2 of 2. -/
def formulas1 : List (String × List Item) := [
  ("NaCa2Mg4FeAl2Si6O22(OH)2", [.atom ⟨11, []⟩, .atom ⟨20, ['2']⟩, .atom ⟨12, ['4']⟩, .atom ⟨26, []⟩, .atom ⟨13, ['2']⟩, .atom ⟨14, ['6']⟩, .atom ⟨8, ['2', '2']⟩, .group [⟨8, []⟩, ⟨1, []⟩] ['2']]),
  ("KFe3Si3AlO10(OH)2", [.atom ⟨19, []⟩, .atom ⟨26, ['3']⟩, .atom ⟨14, ['3']⟩, .atom ⟨13, []⟩, .atom ⟨8, ['1', '0']⟩, .group [⟨8, []⟩, ⟨1, []⟩] ['2']]),
  ("KMg3Si3AlO10(OH)2", [.atom ⟨19, []⟩, .atom ⟨12, ['3']⟩, .atom ⟨14, ['3']⟩, .atom ⟨13, []⟩, .atom ⟨8, ['1', '0']⟩, .group [⟨8, []⟩, ⟨1, []⟩] ['2']]),
  ("KAl2Si3AlO10(OH)2", [.atom ⟨19, []⟩, .atom ⟨13, ['2']⟩, .atom ⟨14, ['3']⟩, .atom ⟨13, []⟩, .atom ⟨8, ['1', '0']⟩, .group [⟨8, []⟩, ⟨1, []⟩] ['2']]),
  ("NaAlSi3O8", [.atom ⟨11, []⟩, .atom ⟨13, []⟩, .atom ⟨14, ['3']⟩, .atom ⟨8, ['8']⟩]),
  ("CaAl2Si2O8", [.atom ⟨20, []⟩, .atom ⟨13, ['2']⟩, .atom ⟨14, ['2']⟩, .atom ⟨8, ['8']⟩]),
  ("KAlSi3O8", [.atom ⟨19, []⟩, .atom ⟨13, []⟩, .atom ⟨14, ['3']⟩, .atom ⟨8, ['8']⟩]),
  ("Na4Al4Si4O16", [.atom ⟨11, ['4']⟩, .atom ⟨13, ['4']⟩, .atom ⟨14, ['4']⟩, .atom ⟨8, ['1', '6']⟩]),
  ("K4Al4Si4O16", [.atom ⟨19, ['4']⟩, .atom ⟨13, ['4']⟩, .atom ⟨14, ['4']⟩, .atom ⟨8, ['1', '6']⟩]),
  ("Na3Al3Si5O16", [.atom ⟨11, ['3']⟩, .atom ⟨13, ['3']⟩, .atom ⟨14, ['5']⟩, .atom ⟨8, ['1', '6']⟩]),
  ("CaNa2Al4Si4O16", [.atom ⟨20, []⟩, .atom ⟨11, ['2']⟩, .atom ⟨13, ['4']⟩, .atom ⟨14, ['4']⟩, .atom ⟨8, ['1', '6']⟩]),
  ("KAlSi2O6", [.atom ⟨19, []⟩, .atom ⟨13, []⟩, .atom ⟨14, ['2']⟩, .atom ⟨8, ['6']⟩]),
  ("NaAlSi2O5(OH)2", [.atom ⟨11, []⟩, .atom ⟨13, []⟩, .atom ⟨14, ['2']⟩, .atom ⟨8, ['5']⟩, .group [⟨8, []⟩, ⟨1, []⟩] ['2']]),
  ("Al2SiO5", [.atom ⟨13, ['2']⟩, .atom ⟨14, []⟩, .atom ⟨8, ['5']⟩]),
  ("CaTiO3", [.atom ⟨20, []⟩, .atom ⟨22, []⟩, .atom ⟨8, ['3']⟩]),
  ("FeCr2O4", [.atom ⟨26, []⟩, .atom ⟨24, ['2']⟩, .atom ⟨8, ['4']⟩]),
  ("FeAl2O4", [.atom ⟨26, []⟩, .atom ⟨13, ['2']⟩, .atom ⟨8, ['4']⟩]),
  ("Fe3O4", [.atom ⟨26, ['3']⟩, .atom ⟨8, ['4']⟩]),
  ("MgAl2O4", [.atom ⟨12, []⟩, .atom ⟨13, ['2']⟩, .atom ⟨8, ['4']⟩]),
  ("Fe2TiO4", [.atom ⟨26, ['2']⟩, .atom ⟨22, []⟩, .atom ⟨8, ['4']⟩]),
  ("MgTiO3", [.atom ⟨12, []⟩, .atom ⟨22, []⟩, .atom ⟨8, ['3']⟩]),
  ("FeTiO3", [.atom ⟨26, []⟩, .atom ⟨22, []⟩, .atom ⟨8, ['3']⟩]),
  ("MnTiO3", [.atom ⟨25, []⟩, .atom ⟨22, []⟩, .atom ⟨8, ['3']⟩]),
  ("Fe2TiO5", [.atom ⟨26, ['2']⟩, .atom ⟨22, []⟩, .atom ⟨8, ['5']⟩]),
  ("FeTi2O5", [.atom ⟨26, []⟩, .atom ⟨22, ['2']⟩, .atom ⟨8, ['5']⟩]),
  ("MgTi2O5", [.atom ⟨12, []⟩, .atom ⟨22, ['2']⟩, .atom ⟨8, ['5']⟩]),
  ("Ca5(PO4)3OH", [.atom ⟨20, ['5']⟩, .group [⟨15, []⟩, ⟨8, ['4']⟩] ['3'], .atom ⟨8, []⟩, .atom ⟨1, []⟩]),
  ("Fe", [.atom ⟨26, []⟩]),
  ("Ni", [.atom ⟨28, []⟩]),
  ("MgCO3", [.atom ⟨12, []⟩, .atom ⟨6, []⟩, .atom ⟨8, ['3']⟩]),
  ("FeCO3", [.atom ⟨26, []⟩, .atom ⟨6, []⟩, .atom ⟨8, ['3']⟩]),
  ("CaMg(CO3)2", [.atom ⟨20, []⟩, .atom ⟨12, []⟩, .group [⟨6, []⟩, ⟨8, ['3']⟩] ['2']]),
  ("Ca5Si2O8CO3", [.atom ⟨20, ['5']⟩, .atom ⟨14, ['2']⟩, .atom ⟨8, ['8']⟩, .atom ⟨6, []⟩, .atom ⟨8, ['3']⟩]),
  ("Ca5Si2O7(CO3)2", [.atom ⟨20, ['5']⟩, .atom ⟨14, ['2']⟩, .atom ⟨8, ['7']⟩, .group [⟨6, []⟩, ⟨8, ['3']⟩] ['2']]),
  ("C", [.atom ⟨6, []⟩])]

/-- The formulas of liq_struct_data.h and sol_struct_data.h. -/
def formulas : List (String × List Item) := formulas0 ++ formulas1

end Magma.Support.Formula
