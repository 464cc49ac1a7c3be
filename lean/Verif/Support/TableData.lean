import Verif.Support.Formula

/-!
The tables of /repo in order, as they are initialised before `InitComputeDataStruct` runs. Written by tools/gen/gentables.py.
-/

namespace Magma.Support.Tables

open Magma.Support.Formula

/-- `bulkSystem[]`, liq_struct_data.h 174-196: labels of the first `nc` rows. -/
def oxides : List (String × List Item) := [
  ("SiO2", [.atom ⟨14, []⟩, .atom ⟨8, ['2']⟩]),
  ("TiO2", [.atom ⟨22, []⟩, .atom ⟨8, ['2']⟩]),
  ("Al2O3", [.atom ⟨13, ['2']⟩, .atom ⟨8, ['3']⟩]),
  ("Fe2O3", [.atom ⟨26, ['2']⟩, .atom ⟨8, ['3']⟩]),
  ("Cr2O3", [.atom ⟨24, ['2']⟩, .atom ⟨8, ['3']⟩]),
  ("FeO", [.atom ⟨26, []⟩, .atom ⟨8, []⟩]),
  ("MnO", [.atom ⟨25, []⟩, .atom ⟨8, []⟩]),
  ("MgO", [.atom ⟨12, []⟩, .atom ⟨8, []⟩]),
  ("NiO", [.atom ⟨28, []⟩, .atom ⟨8, []⟩]),
  ("CoO", [.atom ⟨27, []⟩, .atom ⟨8, []⟩]),
  ("CaO", [.atom ⟨20, []⟩, .atom ⟨8, []⟩]),
  ("Na2O", [.atom ⟨11, ['2']⟩, .atom ⟨8, []⟩]),
  ("K2O", [.atom ⟨19, ['2']⟩, .atom ⟨8, []⟩]),
  ("P2O5", [.atom ⟨15, ['2']⟩, .atom ⟨8, ['5']⟩]),
  ("H2O", [.atom ⟨1, ['2']⟩, .atom ⟨8, []⟩]),
  ("CO2", [.atom ⟨6, []⟩, .atom ⟨8, ['2']⟩]),
  ("SO3", [.atom ⟨16, []⟩, .atom ⟨8, ['3']⟩]),
  ("Cl2O-1", [.atom ⟨17, ['2']⟩, .atom ⟨8, ['-', '1']⟩]),
  ("F2O-1", [.atom ⟨9, ['2']⟩, .atom ⟨8, ['-', '1']⟩])]

/-- `meltsLiquid[]`, liq_struct_data.h 525-833 (and the first `nlc` rows of `meltsFluidLiquid[]`, 835-1159): labels. -/
def meltsLiquid : List (String × List Item) := [
  ("SiO2", [.atom ⟨14, []⟩, .atom ⟨8, ['2']⟩]),
  ("TiO2", [.atom ⟨22, []⟩, .atom ⟨8, ['2']⟩]),
  ("Al2O3", [.atom ⟨13, ['2']⟩, .atom ⟨8, ['3']⟩]),
  ("Fe2O3", [.atom ⟨26, ['2']⟩, .atom ⟨8, ['3']⟩]),
  ("MgCr2O4", [.atom ⟨12, []⟩, .atom ⟨24, ['2']⟩, .atom ⟨8, ['4']⟩]),
  ("Fe2SiO4", [.atom ⟨26, ['2']⟩, .atom ⟨14, []⟩, .atom ⟨8, ['4']⟩]),
  ("MnSi0.5O2", [.atom ⟨25, []⟩, .atom ⟨14, ['0', '.', '5']⟩, .atom ⟨8, ['2']⟩]),
  ("Mg2SiO4", [.atom ⟨12, ['2']⟩, .atom ⟨14, []⟩, .atom ⟨8, ['4']⟩]),
  ("NiSi0.5O2", [.atom ⟨28, []⟩, .atom ⟨14, ['0', '.', '5']⟩, .atom ⟨8, ['2']⟩]),
  ("CoSi0.5O2", [.atom ⟨27, []⟩, .atom ⟨14, ['0', '.', '5']⟩, .atom ⟨8, ['2']⟩]),
  ("CaSiO3", [.atom ⟨20, []⟩, .atom ⟨14, []⟩, .atom ⟨8, ['3']⟩]),
  ("Na2SiO3", [.atom ⟨11, ['2']⟩, .atom ⟨14, []⟩, .atom ⟨8, ['3']⟩]),
  ("KAlSiO4", [.atom ⟨19, []⟩, .atom ⟨13, []⟩, .atom ⟨14, []⟩, .atom ⟨8, ['4']⟩]),
  ("Ca3(PO4)2", [.atom ⟨20, ['3']⟩, .group [⟨15, []⟩, ⟨8, ['4']⟩] ['2']]),
  ("CO2", [.atom ⟨6, []⟩, .atom ⟨8, ['2']⟩]),
  ("SO3", [.atom ⟨16, []⟩, .atom ⟨8, ['3']⟩]),
  ("Cl2O-1", [.atom ⟨17, ['2']⟩, .atom ⟨8, ['-', '1']⟩]),
  ("F2O-1", [.atom ⟨9, ['2']⟩, .atom ⟨8, ['-', '1']⟩]),
  ("H2O", [.atom ⟨1, ['2']⟩, .atom ⟨8, []⟩])]

/-- `pMeltsLiquid[]`, liq_struct_data.h 1221-1541: labels. -/
def pMeltsLiquid : List (String × List Item) := [
  ("Si4O8", [.atom ⟨14, ['4']⟩, .atom ⟨8, ['8']⟩]),
  ("TiO2", [.atom ⟨22, []⟩, .atom ⟨8, ['2']⟩]),
  ("Al4O6", [.atom ⟨13, ['4']⟩, .atom ⟨8, ['6']⟩]),
  ("Fe2O3", [.atom ⟨26, ['2']⟩, .atom ⟨8, ['3']⟩]),
  ("MgCr2O4", [.atom ⟨12, []⟩, .atom ⟨24, ['2']⟩, .atom ⟨8, ['4']⟩]),
  ("Fe2SiO4", [.atom ⟨26, ['2']⟩, .atom ⟨14, []⟩, .atom ⟨8, ['4']⟩]),
  ("MnSi0.5O2", [.atom ⟨25, []⟩, .atom ⟨14, ['0', '.', '5']⟩, .atom ⟨8, ['2']⟩]),
  ("Mg2SiO4", [.atom ⟨12, ['2']⟩, .atom ⟨14, []⟩, .atom ⟨8, ['4']⟩]),
  ("NiSi0.5O2", [.atom ⟨28, []⟩, .atom ⟨14, ['0', '.', '5']⟩, .atom ⟨8, ['2']⟩]),
  ("CoSi0.5O2", [.atom ⟨27, []⟩, .atom ⟨14, ['0', '.', '5']⟩, .atom ⟨8, ['2']⟩]),
  ("Ca2Si2O6", [.atom ⟨20, ['2']⟩, .atom ⟨14, ['2']⟩, .atom ⟨8, ['6']⟩]),
  ("NaSi0.5O1.5", [.atom ⟨11, []⟩, .atom ⟨14, ['0', '.', '5']⟩, .atom ⟨8, ['1', '.', '5']⟩]),
  ("KAlSiO4", [.atom ⟨19, []⟩, .atom ⟨13, []⟩, .atom ⟨14, []⟩, .atom ⟨8, ['4']⟩]),
  ("Ca3(PO4)2", [.atom ⟨20, ['3']⟩, .group [⟨15, []⟩, ⟨8, ['4']⟩] ['2']]),
  ("CO2", [.atom ⟨6, []⟩, .atom ⟨8, ['2']⟩]),
  ("SO3", [.atom ⟨16, []⟩, .atom ⟨8, ['3']⟩]),
  ("Cl2O-1", [.atom ⟨17, ['2']⟩, .atom ⟨8, ['-', '1']⟩]),
  ("F2O-1", [.atom ⟨9, ['2']⟩, .atom ⟨8, ['-', '1']⟩]),
  ("H2O", [.atom ⟨1, ['2']⟩, .atom ⟨8, []⟩])]

/-- `meltsFluidLiquid[]`, liq_struct_data.h 835-1159: the rows after the first `nlc`, which are species, not components. -/
def fluidSpecies : List (String × List Item) := [
  ("CaCO3", [.atom ⟨20, []⟩, .atom ⟨6, []⟩, .atom ⟨8, ['3']⟩])]

/-- `meltsSolids[]`, sol_struct_data.h 2361-3718: is the row a PHASE, its formula. -/
def meltsSolids : List (Bool × String × List Item) := [
  (true, "", []),
  (false, "Mn2SiO4", [.atom ⟨25, ['2']⟩, .atom ⟨14, []⟩, .atom ⟨8, ['4']⟩]),
  (false, "Fe2SiO4", [.atom ⟨26, ['2']⟩, .atom ⟨14, []⟩, .atom ⟨8, ['4']⟩]),
  (false, "Co2SiO4", [.atom ⟨27, ['2']⟩, .atom ⟨14, []⟩, .atom ⟨8, ['4']⟩]),
  (false, "Ni2SiO4", [.atom ⟨28, ['2']⟩, .atom ⟨14, []⟩, .atom ⟨8, ['4']⟩]),
  (false, "CaMgSiO4", [.atom ⟨20, []⟩, .atom ⟨12, []⟩, .atom ⟨14, []⟩, .atom ⟨8, ['4']⟩]),
  (false, "Mg2SiO4", [.atom ⟨12, ['2']⟩, .atom ⟨14, []⟩, .atom ⟨8, ['4']⟩]),
  (true, "Fe2SiO4", [.atom ⟨26, ['2']⟩, .atom ⟨14, []⟩, .atom ⟨8, ['4']⟩]),
  (true, "CaTiSiO5", [.atom ⟨20, []⟩, .atom ⟨22, []⟩, .atom ⟨14, []⟩, .atom ⟨8, ['5']⟩]),
  (true, "", []),
  (false, "Fe3Al2Si3O12", [.atom ⟨26, ['3']⟩, .atom ⟨13, ['2']⟩, .atom ⟨14, ['3']⟩, .atom ⟨8, ['1', '2']⟩]),
  (false, "Ca3Al2Si3O12", [.atom ⟨20, ['3']⟩, .atom ⟨13, ['2']⟩, .atom ⟨14, ['3']⟩, .atom ⟨8, ['1', '2']⟩]),
  (false, "Mg3Al2Si3O12", [.atom ⟨12, ['3']⟩, .atom ⟨13, ['2']⟩, .atom ⟨14, ['3']⟩, .atom ⟨8, ['1', '2']⟩]),
  (true, "", []),
  (false, "Ca2MgSi2O7", [.atom ⟨20, ['2']⟩, .atom ⟨12, []⟩, .atom ⟨14, ['2']⟩, .atom ⟨8, ['7']⟩]),
  (false, "Ca2Al2SiO7", [.atom ⟨20, ['2']⟩, .atom ⟨13, ['2']⟩, .atom ⟨14, []⟩, .atom ⟨8, ['7']⟩]),
  (false, "Ca2FeSi2O7", [.atom ⟨20, ['2']⟩, .atom ⟨26, []⟩, .atom ⟨14, ['2']⟩, .atom ⟨8, ['7']⟩]),
  (false, "Na2Si3O7", [.atom ⟨11, ['2']⟩, .atom ⟨14, ['3']⟩, .atom ⟨8, ['7']⟩]),
  (true, "", []),
  (false, "CaMgSi2O6", [.atom ⟨20, []⟩, .atom ⟨12, []⟩, .atom ⟨14, ['2']⟩, .atom ⟨8, ['6']⟩]),
  (false, "Mg2Si2O6", [.atom ⟨12, ['2']⟩, .atom ⟨14, ['2']⟩, .atom ⟨8, ['6']⟩]),
  (false, "CaFeSi2O6", [.atom ⟨20, []⟩, .atom ⟨26, []⟩, .atom ⟨14, ['2']⟩, .atom ⟨8, ['6']⟩]),
  (false, "CaTi0.5Mg0.5AlSiO6", [.atom ⟨20, []⟩, .atom ⟨22, ['0', '.', '5']⟩, .atom ⟨12, ['0', '.', '5']⟩, .atom ⟨13, []⟩, .atom ⟨14, []⟩, .atom ⟨8, ['6']⟩]),
  (false, "CaTi0.5Mg0.5FeSiO6", [.atom ⟨20, []⟩, .atom ⟨22, ['0', '.', '5']⟩, .atom ⟨12, ['0', '.', '5']⟩, .atom ⟨26, []⟩, .atom ⟨14, []⟩, .atom ⟨8, ['6']⟩]),
  (false, "CaFeAlSiO6", [.atom ⟨20, []⟩, .atom ⟨26, []⟩, .atom ⟨13, []⟩, .atom ⟨14, []⟩, .atom ⟨8, ['6']⟩]),
  (false, "NaAlSi2O6", [.atom ⟨11, []⟩, .atom ⟨13, []⟩, .atom ⟨14, ['2']⟩, .atom ⟨8, ['6']⟩]),
  (true, "", []),
  (false, "CaMgSi2O6", [.atom ⟨20, []⟩, .atom ⟨12, []⟩, .atom ⟨14, ['2']⟩, .atom ⟨8, ['6']⟩]),
  (false, "Mg2Si2O6", [.atom ⟨12, ['2']⟩, .atom ⟨14, ['2']⟩, .atom ⟨8, ['6']⟩]),
  (false, "CaFeSi2O6", [.atom ⟨20, []⟩, .atom ⟨26, []⟩, .atom ⟨14, ['2']⟩, .atom ⟨8, ['6']⟩]),
  (false, "CaTi0.5Mg0.5AlSiO6", [.atom ⟨20, []⟩, .atom ⟨22, ['0', '.', '5']⟩, .atom ⟨12, ['0', '.', '5']⟩, .atom ⟨13, []⟩, .atom ⟨14, []⟩, .atom ⟨8, ['6']⟩]),
  (false, "CaTi0.5Mg0.5FeSiO6", [.atom ⟨20, []⟩, .atom ⟨22, ['0', '.', '5']⟩, .atom ⟨12, ['0', '.', '5']⟩, .atom ⟨26, []⟩, .atom ⟨14, []⟩, .atom ⟨8, ['6']⟩]),
  (false, "CaFeAlSiO6", [.atom ⟨20, []⟩, .atom ⟨26, []⟩, .atom ⟨13, []⟩, .atom ⟨14, []⟩, .atom ⟨8, ['6']⟩]),
  (false, "NaAlSi2O6", [.atom ⟨11, []⟩, .atom ⟨13, []⟩, .atom ⟨14, ['2']⟩, .atom ⟨8, ['6']⟩]),
  (true, "NaFeSi2O6", [.atom ⟨11, []⟩, .atom ⟨26, []⟩, .atom ⟨14, ['2']⟩, .atom ⟨8, ['6']⟩]),
  (true, "Na2Fe5TiSi6O20", [.atom ⟨11, ['2']⟩, .atom ⟨26, ['5']⟩, .atom ⟨22, []⟩, .atom ⟨14, ['6']⟩, .atom ⟨8, ['2', '0']⟩]),
  (true, "", []),
  (false, "Mg7Si8O22(OH)2", [.atom ⟨12, ['7']⟩, .atom ⟨14, ['8']⟩, .atom ⟨8, ['2', '2']⟩, .group [⟨8, []⟩, ⟨1, []⟩] ['2']]),
  (false, "Fe7Si8O22(OH)2", [.atom ⟨26, ['7']⟩, .atom ⟨14, ['8']⟩, .atom ⟨8, ['2', '2']⟩, .group [⟨8, []⟩, ⟨1, []⟩] ['2']]),
  (true, "", []),
  (false, "Mg7Si8O22(OH)2", [.atom ⟨12, ['7']⟩, .atom ⟨14, ['8']⟩, .atom ⟨8, ['2', '2']⟩, .group [⟨8, []⟩, ⟨1, []⟩] ['2']]),
  (false, "Fe7Si8O22(OH)2", [.atom ⟨26, ['7']⟩, .atom ⟨14, ['8']⟩, .atom ⟨8, ['2', '2']⟩, .group [⟨8, []⟩, ⟨1, []⟩] ['2']]),
  (false, "Ca2Mg5Si8O22(OH)2", [.atom ⟨20, ['2']⟩, .atom ⟨12, ['5']⟩, .atom ⟨14, ['8']⟩, .atom ⟨8, ['2', '2']⟩, .group [⟨8, []⟩, ⟨1, []⟩] ['2']]),
  (true, "", []),
  (false, "NaCa2Mg4AlAl2Si6O22(OH)2", [.atom ⟨11, []⟩, .atom ⟨20, ['2']⟩, .atom ⟨12, ['4']⟩, .atom ⟨13, []⟩, .atom ⟨13, ['2']⟩, .atom ⟨14, ['6']⟩, .atom ⟨8, ['2', '2']⟩, .group [⟨8, []⟩, ⟨1, []⟩] ['2']]),
  (false, "NaCa2Fe4AlAl2Si6O22(OH)2", [.atom ⟨11, []⟩, .atom ⟨20, ['2']⟩, .atom ⟨26, ['4']⟩, .atom ⟨13, []⟩, .atom ⟨13, ['2']⟩, .atom ⟨14, ['6']⟩, .atom ⟨8, ['2', '2']⟩, .group [⟨8, []⟩, ⟨1, []⟩] ['2']]),
  (false, "NaCa2Mg4FeAl2Si6O22(OH)2", [.atom ⟨11, []⟩, .atom ⟨20, ['2']⟩, .atom ⟨12, ['4']⟩, .atom ⟨26, []⟩, .atom ⟨13, ['2']⟩, .atom ⟨14, ['6']⟩, .atom ⟨8, ['2', '2']⟩, .group [⟨8, []⟩, ⟨1, []⟩] ['2']]),
  (true, "", []),
  (false, "KFe3Si3AlO10(OH)2", [.atom ⟨19, []⟩, .atom ⟨26, ['3']⟩, .atom ⟨14, ['3']⟩, .atom ⟨13, []⟩, .atom ⟨8, ['1', '0']⟩, .group [⟨8, []⟩, ⟨1, []⟩] ['2']]),
  (false, "KMg3Si3AlO10(OH)2", [.atom ⟨19, []⟩, .atom ⟨12, ['3']⟩, .atom ⟨14, ['3']⟩, .atom ⟨13, []⟩, .atom ⟨8, ['1', '0']⟩, .group [⟨8, []⟩, ⟨1, []⟩] ['2']]),
  (true, "KAl2Si3AlO10(OH)2", [.atom ⟨19, []⟩, .atom ⟨13, ['2']⟩, .atom ⟨14, ['3']⟩, .atom ⟨13, []⟩, .atom ⟨8, ['1', '0']⟩, .group [⟨8, []⟩, ⟨1, []⟩] ['2']]),
  (true, "", []),
  (false, "NaAlSi3O8", [.atom ⟨11, []⟩, .atom ⟨13, []⟩, .atom ⟨14, ['3']⟩, .atom ⟨8, ['8']⟩]),
  (false, "CaAl2Si2O8", [.atom ⟨20, []⟩, .atom ⟨13, ['2']⟩, .atom ⟨14, ['2']⟩, .atom ⟨8, ['8']⟩]),
  (false, "KAlSi3O8", [.atom ⟨19, []⟩, .atom ⟨13, []⟩, .atom ⟨14, ['3']⟩, .atom ⟨8, ['8']⟩]),
  (true, "SiO2", [.atom ⟨14, []⟩, .atom ⟨8, ['2']⟩]),
  (true, "SiO2", [.atom ⟨14, []⟩, .atom ⟨8, ['2']⟩]),
  (true, "SiO2", [.atom ⟨14, []⟩, .atom ⟨8, ['2']⟩]),
  (true, "", []),
  (false, "Na4Al4Si4O16", [.atom ⟨11, ['4']⟩, .atom ⟨13, ['4']⟩, .atom ⟨14, ['4']⟩, .atom ⟨8, ['1', '6']⟩]),
  (false, "K4Al4Si4O16", [.atom ⟨19, ['4']⟩, .atom ⟨13, ['4']⟩, .atom ⟨14, ['4']⟩, .atom ⟨8, ['1', '6']⟩]),
  (false, "Na3Al3Si5O16", [.atom ⟨11, ['3']⟩, .atom ⟨13, ['3']⟩, .atom ⟨14, ['5']⟩, .atom ⟨8, ['1', '6']⟩]),
  (false, "CaNa2Al4Si4O16", [.atom ⟨20, []⟩, .atom ⟨11, ['2']⟩, .atom ⟨13, ['4']⟩, .atom ⟨14, ['4']⟩, .atom ⟨8, ['1', '6']⟩]),
  (true, "", []),
  (false, "Na4Al4Si4O16", [.atom ⟨11, ['4']⟩, .atom ⟨13, ['4']⟩, .atom ⟨14, ['4']⟩, .atom ⟨8, ['1', '6']⟩]),
  (false, "K4Al4Si4O16", [.atom ⟨19, ['4']⟩, .atom ⟨13, ['4']⟩, .atom ⟨14, ['4']⟩, .atom ⟨8, ['1', '6']⟩]),
  (false, "Na3Al3Si5O16", [.atom ⟨11, ['3']⟩, .atom ⟨13, ['3']⟩, .atom ⟨14, ['5']⟩, .atom ⟨8, ['1', '6']⟩]),
  (false, "CaNa2Al4Si4O16", [.atom ⟨20, []⟩, .atom ⟨11, ['2']⟩, .atom ⟨13, ['4']⟩, .atom ⟨14, ['4']⟩, .atom ⟨8, ['1', '6']⟩]),
  (true, "", []),
  (false, "KAlSi2O6", [.atom ⟨19, []⟩, .atom ⟨13, []⟩, .atom ⟨14, ['2']⟩, .atom ⟨8, ['6']⟩]),
  (false, "NaAlSi2O5(OH)2", [.atom ⟨11, []⟩, .atom ⟨13, []⟩, .atom ⟨14, ['2']⟩, .atom ⟨8, ['5']⟩, .group [⟨8, []⟩, ⟨1, []⟩] ['2']]),
  (false, "NaAlSi2O6", [.atom ⟨11, []⟩, .atom ⟨13, []⟩, .atom ⟨14, ['2']⟩, .atom ⟨8, ['6']⟩]),
  (true, "Al2O3", [.atom ⟨13, ['2']⟩, .atom ⟨8, ['3']⟩]),
  (true, "Al2SiO5", [.atom ⟨13, ['2']⟩, .atom ⟨14, []⟩, .atom ⟨8, ['5']⟩]),
  (true, "TiO2", [.atom ⟨22, []⟩, .atom ⟨8, ['2']⟩]),
  (true, "CaTiO3", [.atom ⟨20, []⟩, .atom ⟨22, []⟩, .atom ⟨8, ['3']⟩]),
  (true, "", []),
  (false, "FeCr2O4", [.atom ⟨26, []⟩, .atom ⟨24, ['2']⟩, .atom ⟨8, ['4']⟩]),
  (false, "FeAl2O4", [.atom ⟨26, []⟩, .atom ⟨13, ['2']⟩, .atom ⟨8, ['4']⟩]),
  (false, "Fe3O4", [.atom ⟨26, ['3']⟩, .atom ⟨8, ['4']⟩]),
  (false, "MgAl2O4", [.atom ⟨12, []⟩, .atom ⟨13, ['2']⟩, .atom ⟨8, ['4']⟩]),
  (false, "Fe2TiO4", [.atom ⟨26, ['2']⟩, .atom ⟨22, []⟩, .atom ⟨8, ['4']⟩]),
  (true, "", []),
  (false, "MgTiO3", [.atom ⟨12, []⟩, .atom ⟨22, []⟩, .atom ⟨8, ['3']⟩]),
  (false, "Fe2O3", [.atom ⟨26, ['2']⟩, .atom ⟨8, ['3']⟩]),
  (false, "FeTiO3", [.atom ⟨26, []⟩, .atom ⟨22, []⟩, .atom ⟨8, ['3']⟩]),
  (false, "MnTiO3", [.atom ⟨25, []⟩, .atom ⟨22, []⟩, .atom ⟨8, ['3']⟩]),
  (false, "Al2O3", [.atom ⟨13, ['2']⟩, .atom ⟨8, ['3']⟩]),
  (true, "", []),
  (false, "Fe2TiO5", [.atom ⟨26, ['2']⟩, .atom ⟨22, []⟩, .atom ⟨8, ['5']⟩]),
  (false, "FeTi2O5", [.atom ⟨26, []⟩, .atom ⟨22, ['2']⟩, .atom ⟨8, ['5']⟩]),
  (false, "MgTi2O5", [.atom ⟨12, []⟩, .atom ⟨22, ['2']⟩, .atom ⟨8, ['5']⟩]),
  (true, "Ca3(PO4)2", [.atom ⟨20, ['3']⟩, .group [⟨15, []⟩, ⟨8, ['4']⟩] ['2']]),
  (true, "Ca5(PO4)3OH", [.atom ⟨20, ['5']⟩, .group [⟨15, []⟩, ⟨8, ['4']⟩] ['3'], .atom ⟨8, []⟩, .atom ⟨1, []⟩]),
  (true, "H2O", [.atom ⟨1, ['2']⟩, .atom ⟨8, []⟩]),
  (true, "", []),
  (false, "Fe", [.atom ⟨26, []⟩]),
  (false, "Ni", [.atom ⟨28, []⟩]),
  (true, "", []),
  (false, "Fe", [.atom ⟨26, []⟩]),
  (false, "Ni", [.atom ⟨28, []⟩])]

/-- `meltsFluidSolids[]`, sol_struct_data.h 3720-5202. -/
def meltsFluidSolids : List (Bool × String × List Item) := [
  (true, "", []),
  (false, "Mn2SiO4", [.atom ⟨25, ['2']⟩, .atom ⟨14, []⟩, .atom ⟨8, ['4']⟩]),
  (false, "Fe2SiO4", [.atom ⟨26, ['2']⟩, .atom ⟨14, []⟩, .atom ⟨8, ['4']⟩]),
  (false, "Co2SiO4", [.atom ⟨27, ['2']⟩, .atom ⟨14, []⟩, .atom ⟨8, ['4']⟩]),
  (false, "Ni2SiO4", [.atom ⟨28, ['2']⟩, .atom ⟨14, []⟩, .atom ⟨8, ['4']⟩]),
  (false, "CaMgSiO4", [.atom ⟨20, []⟩, .atom ⟨12, []⟩, .atom ⟨14, []⟩, .atom ⟨8, ['4']⟩]),
  (false, "Mg2SiO4", [.atom ⟨12, ['2']⟩, .atom ⟨14, []⟩, .atom ⟨8, ['4']⟩]),
  (true, "Fe2SiO4", [.atom ⟨26, ['2']⟩, .atom ⟨14, []⟩, .atom ⟨8, ['4']⟩]),
  (true, "CaTiSiO5", [.atom ⟨20, []⟩, .atom ⟨22, []⟩, .atom ⟨14, []⟩, .atom ⟨8, ['5']⟩]),
  (true, "", []),
  (false, "Fe3Al2Si3O12", [.atom ⟨26, ['3']⟩, .atom ⟨13, ['2']⟩, .atom ⟨14, ['3']⟩, .atom ⟨8, ['1', '2']⟩]),
  (false, "Ca3Al2Si3O12", [.atom ⟨20, ['3']⟩, .atom ⟨13, ['2']⟩, .atom ⟨14, ['3']⟩, .atom ⟨8, ['1', '2']⟩]),
  (false, "Mg3Al2Si3O12", [.atom ⟨12, ['3']⟩, .atom ⟨13, ['2']⟩, .atom ⟨14, ['3']⟩, .atom ⟨8, ['1', '2']⟩]),
  (true, "", []),
  (false, "Ca2MgSi2O7", [.atom ⟨20, ['2']⟩, .atom ⟨12, []⟩, .atom ⟨14, ['2']⟩, .atom ⟨8, ['7']⟩]),
  (false, "Ca2Al2SiO7", [.atom ⟨20, ['2']⟩, .atom ⟨13, ['2']⟩, .atom ⟨14, []⟩, .atom ⟨8, ['7']⟩]),
  (false, "Ca2FeSi2O7", [.atom ⟨20, ['2']⟩, .atom ⟨26, []⟩, .atom ⟨14, ['2']⟩, .atom ⟨8, ['7']⟩]),
  (false, "Na2Si3O7", [.atom ⟨11, ['2']⟩, .atom ⟨14, ['3']⟩, .atom ⟨8, ['7']⟩]),
  (true, "", []),
  (false, "CaMgSi2O6", [.atom ⟨20, []⟩, .atom ⟨12, []⟩, .atom ⟨14, ['2']⟩, .atom ⟨8, ['6']⟩]),
  (false, "Mg2Si2O6", [.atom ⟨12, ['2']⟩, .atom ⟨14, ['2']⟩, .atom ⟨8, ['6']⟩]),
  (false, "CaFeSi2O6", [.atom ⟨20, []⟩, .atom ⟨26, []⟩, .atom ⟨14, ['2']⟩, .atom ⟨8, ['6']⟩]),
  (false, "CaTi0.5Mg0.5AlSiO6", [.atom ⟨20, []⟩, .atom ⟨22, ['0', '.', '5']⟩, .atom ⟨12, ['0', '.', '5']⟩, .atom ⟨13, []⟩, .atom ⟨14, []⟩, .atom ⟨8, ['6']⟩]),
  (false, "CaTi0.5Mg0.5FeSiO6", [.atom ⟨20, []⟩, .atom ⟨22, ['0', '.', '5']⟩, .atom ⟨12, ['0', '.', '5']⟩, .atom ⟨26, []⟩, .atom ⟨14, []⟩, .atom ⟨8, ['6']⟩]),
  (false, "CaFeAlSiO6", [.atom ⟨20, []⟩, .atom ⟨26, []⟩, .atom ⟨13, []⟩, .atom ⟨14, []⟩, .atom ⟨8, ['6']⟩]),
  (false, "NaAlSi2O6", [.atom ⟨11, []⟩, .atom ⟨13, []⟩, .atom ⟨14, ['2']⟩, .atom ⟨8, ['6']⟩]),
  (true, "", []),
  (false, "CaMgSi2O6", [.atom ⟨20, []⟩, .atom ⟨12, []⟩, .atom ⟨14, ['2']⟩, .atom ⟨8, ['6']⟩]),
  (false, "Mg2Si2O6", [.atom ⟨12, ['2']⟩, .atom ⟨14, ['2']⟩, .atom ⟨8, ['6']⟩]),
  (false, "CaFeSi2O6", [.atom ⟨20, []⟩, .atom ⟨26, []⟩, .atom ⟨14, ['2']⟩, .atom ⟨8, ['6']⟩]),
  (false, "CaTi0.5Mg0.5AlSiO6", [.atom ⟨20, []⟩, .atom ⟨22, ['0', '.', '5']⟩, .atom ⟨12, ['0', '.', '5']⟩, .atom ⟨13, []⟩, .atom ⟨14, []⟩, .atom ⟨8, ['6']⟩]),
  (false, "CaTi0.5Mg0.5FeSiO6", [.atom ⟨20, []⟩, .atom ⟨22, ['0', '.', '5']⟩, .atom ⟨12, ['0', '.', '5']⟩, .atom ⟨26, []⟩, .atom ⟨14, []⟩, .atom ⟨8, ['6']⟩]),
  (false, "CaFeAlSiO6", [.atom ⟨20, []⟩, .atom ⟨26, []⟩, .atom ⟨13, []⟩, .atom ⟨14, []⟩, .atom ⟨8, ['6']⟩]),
  (false, "NaAlSi2O6", [.atom ⟨11, []⟩, .atom ⟨13, []⟩, .atom ⟨14, ['2']⟩, .atom ⟨8, ['6']⟩]),
  (true, "NaFeSi2O6", [.atom ⟨11, []⟩, .atom ⟨26, []⟩, .atom ⟨14, ['2']⟩, .atom ⟨8, ['6']⟩]),
  (true, "Na2Fe5TiSi6O20", [.atom ⟨11, ['2']⟩, .atom ⟨26, ['5']⟩, .atom ⟨22, []⟩, .atom ⟨14, ['6']⟩, .atom ⟨8, ['2', '0']⟩]),
  (true, "", []),
  (false, "Mg7Si8O22(OH)2", [.atom ⟨12, ['7']⟩, .atom ⟨14, ['8']⟩, .atom ⟨8, ['2', '2']⟩, .group [⟨8, []⟩, ⟨1, []⟩] ['2']]),
  (false, "Fe7Si8O22(OH)2", [.atom ⟨26, ['7']⟩, .atom ⟨14, ['8']⟩, .atom ⟨8, ['2', '2']⟩, .group [⟨8, []⟩, ⟨1, []⟩] ['2']]),
  (true, "", []),
  (false, "Mg7Si8O22(OH)2", [.atom ⟨12, ['7']⟩, .atom ⟨14, ['8']⟩, .atom ⟨8, ['2', '2']⟩, .group [⟨8, []⟩, ⟨1, []⟩] ['2']]),
  (false, "Fe7Si8O22(OH)2", [.atom ⟨26, ['7']⟩, .atom ⟨14, ['8']⟩, .atom ⟨8, ['2', '2']⟩, .group [⟨8, []⟩, ⟨1, []⟩] ['2']]),
  (false, "Ca2Mg5Si8O22(OH)2", [.atom ⟨20, ['2']⟩, .atom ⟨12, ['5']⟩, .atom ⟨14, ['8']⟩, .atom ⟨8, ['2', '2']⟩, .group [⟨8, []⟩, ⟨1, []⟩] ['2']]),
  (true, "", []),
  (false, "NaCa2Mg4AlAl2Si6O22(OH)2", [.atom ⟨11, []⟩, .atom ⟨20, ['2']⟩, .atom ⟨12, ['4']⟩, .atom ⟨13, []⟩, .atom ⟨13, ['2']⟩, .atom ⟨14, ['6']⟩, .atom ⟨8, ['2', '2']⟩, .group [⟨8, []⟩, ⟨1, []⟩] ['2']]),
  (false, "NaCa2Fe4AlAl2Si6O22(OH)2", [.atom ⟨11, []⟩, .atom ⟨20, ['2']⟩, .atom ⟨26, ['4']⟩, .atom ⟨13, []⟩, .atom ⟨13, ['2']⟩, .atom ⟨14, ['6']⟩, .atom ⟨8, ['2', '2']⟩, .group [⟨8, []⟩, ⟨1, []⟩] ['2']]),
  (false, "NaCa2Mg4FeAl2Si6O22(OH)2", [.atom ⟨11, []⟩, .atom ⟨20, ['2']⟩, .atom ⟨12, ['4']⟩, .atom ⟨26, []⟩, .atom ⟨13, ['2']⟩, .atom ⟨14, ['6']⟩, .atom ⟨8, ['2', '2']⟩, .group [⟨8, []⟩, ⟨1, []⟩] ['2']]),
  (true, "", []),
  (false, "KFe3Si3AlO10(OH)2", [.atom ⟨19, []⟩, .atom ⟨26, ['3']⟩, .atom ⟨14, ['3']⟩, .atom ⟨13, []⟩, .atom ⟨8, ['1', '0']⟩, .group [⟨8, []⟩, ⟨1, []⟩] ['2']]),
  (false, "KMg3Si3AlO10(OH)2", [.atom ⟨19, []⟩, .atom ⟨12, ['3']⟩, .atom ⟨14, ['3']⟩, .atom ⟨13, []⟩, .atom ⟨8, ['1', '0']⟩, .group [⟨8, []⟩, ⟨1, []⟩] ['2']]),
  (true, "KAl2Si3AlO10(OH)2", [.atom ⟨19, []⟩, .atom ⟨13, ['2']⟩, .atom ⟨14, ['3']⟩, .atom ⟨13, []⟩, .atom ⟨8, ['1', '0']⟩, .group [⟨8, []⟩, ⟨1, []⟩] ['2']]),
  (true, "", []),
  (false, "NaAlSi3O8", [.atom ⟨11, []⟩, .atom ⟨13, []⟩, .atom ⟨14, ['3']⟩, .atom ⟨8, ['8']⟩]),
  (false, "CaAl2Si2O8", [.atom ⟨20, []⟩, .atom ⟨13, ['2']⟩, .atom ⟨14, ['2']⟩, .atom ⟨8, ['8']⟩]),
  (false, "KAlSi3O8", [.atom ⟨19, []⟩, .atom ⟨13, []⟩, .atom ⟨14, ['3']⟩, .atom ⟨8, ['8']⟩]),
  (true, "SiO2", [.atom ⟨14, []⟩, .atom ⟨8, ['2']⟩]),
  (true, "SiO2", [.atom ⟨14, []⟩, .atom ⟨8, ['2']⟩]),
  (true, "SiO2", [.atom ⟨14, []⟩, .atom ⟨8, ['2']⟩]),
  (true, "", []),
  (false, "Na4Al4Si4O16", [.atom ⟨11, ['4']⟩, .atom ⟨13, ['4']⟩, .atom ⟨14, ['4']⟩, .atom ⟨8, ['1', '6']⟩]),
  (false, "K4Al4Si4O16", [.atom ⟨19, ['4']⟩, .atom ⟨13, ['4']⟩, .atom ⟨14, ['4']⟩, .atom ⟨8, ['1', '6']⟩]),
  (false, "Na3Al3Si5O16", [.atom ⟨11, ['3']⟩, .atom ⟨13, ['3']⟩, .atom ⟨14, ['5']⟩, .atom ⟨8, ['1', '6']⟩]),
  (false, "CaNa2Al4Si4O16", [.atom ⟨20, []⟩, .atom ⟨11, ['2']⟩, .atom ⟨13, ['4']⟩, .atom ⟨14, ['4']⟩, .atom ⟨8, ['1', '6']⟩]),
  (true, "", []),
  (false, "Na4Al4Si4O16", [.atom ⟨11, ['4']⟩, .atom ⟨13, ['4']⟩, .atom ⟨14, ['4']⟩, .atom ⟨8, ['1', '6']⟩]),
  (false, "K4Al4Si4O16", [.atom ⟨19, ['4']⟩, .atom ⟨13, ['4']⟩, .atom ⟨14, ['4']⟩, .atom ⟨8, ['1', '6']⟩]),
  (false, "Na3Al3Si5O16", [.atom ⟨11, ['3']⟩, .atom ⟨13, ['3']⟩, .atom ⟨14, ['5']⟩, .atom ⟨8, ['1', '6']⟩]),
  (false, "CaNa2Al4Si4O16", [.atom ⟨20, []⟩, .atom ⟨11, ['2']⟩, .atom ⟨13, ['4']⟩, .atom ⟨14, ['4']⟩, .atom ⟨8, ['1', '6']⟩]),
  (true, "", []),
  (false, "KAlSi2O6", [.atom ⟨19, []⟩, .atom ⟨13, []⟩, .atom ⟨14, ['2']⟩, .atom ⟨8, ['6']⟩]),
  (false, "NaAlSi2O5(OH)2", [.atom ⟨11, []⟩, .atom ⟨13, []⟩, .atom ⟨14, ['2']⟩, .atom ⟨8, ['5']⟩, .group [⟨8, []⟩, ⟨1, []⟩] ['2']]),
  (false, "NaAlSi2O6", [.atom ⟨11, []⟩, .atom ⟨13, []⟩, .atom ⟨14, ['2']⟩, .atom ⟨8, ['6']⟩]),
  (true, "Al2O3", [.atom ⟨13, ['2']⟩, .atom ⟨8, ['3']⟩]),
  (true, "Al2SiO5", [.atom ⟨13, ['2']⟩, .atom ⟨14, []⟩, .atom ⟨8, ['5']⟩]),
  (true, "TiO2", [.atom ⟨22, []⟩, .atom ⟨8, ['2']⟩]),
  (true, "CaTiO3", [.atom ⟨20, []⟩, .atom ⟨22, []⟩, .atom ⟨8, ['3']⟩]),
  (true, "", []),
  (false, "FeCr2O4", [.atom ⟨26, []⟩, .atom ⟨24, ['2']⟩, .atom ⟨8, ['4']⟩]),
  (false, "FeAl2O4", [.atom ⟨26, []⟩, .atom ⟨13, ['2']⟩, .atom ⟨8, ['4']⟩]),
  (false, "Fe3O4", [.atom ⟨26, ['3']⟩, .atom ⟨8, ['4']⟩]),
  (false, "MgAl2O4", [.atom ⟨12, []⟩, .atom ⟨13, ['2']⟩, .atom ⟨8, ['4']⟩]),
  (false, "Fe2TiO4", [.atom ⟨26, ['2']⟩, .atom ⟨22, []⟩, .atom ⟨8, ['4']⟩]),
  (true, "", []),
  (false, "MgTiO3", [.atom ⟨12, []⟩, .atom ⟨22, []⟩, .atom ⟨8, ['3']⟩]),
  (false, "Fe2O3", [.atom ⟨26, ['2']⟩, .atom ⟨8, ['3']⟩]),
  (false, "FeTiO3", [.atom ⟨26, []⟩, .atom ⟨22, []⟩, .atom ⟨8, ['3']⟩]),
  (false, "MnTiO3", [.atom ⟨25, []⟩, .atom ⟨22, []⟩, .atom ⟨8, ['3']⟩]),
  (false, "Al2O3", [.atom ⟨13, ['2']⟩, .atom ⟨8, ['3']⟩]),
  (true, "", []),
  (false, "Fe2TiO5", [.atom ⟨26, ['2']⟩, .atom ⟨22, []⟩, .atom ⟨8, ['5']⟩]),
  (false, "FeTi2O5", [.atom ⟨26, []⟩, .atom ⟨22, ['2']⟩, .atom ⟨8, ['5']⟩]),
  (false, "MgTi2O5", [.atom ⟨12, []⟩, .atom ⟨22, ['2']⟩, .atom ⟨8, ['5']⟩]),
  (true, "Ca3(PO4)2", [.atom ⟨20, ['3']⟩, .group [⟨15, []⟩, ⟨8, ['4']⟩] ['2']]),
  (true, "Ca5(PO4)3OH", [.atom ⟨20, ['5']⟩, .group [⟨15, []⟩, ⟨8, ['4']⟩] ['3'], .atom ⟨8, []⟩, .atom ⟨1, []⟩]),
  (true, "", []),
  (false, "H2O", [.atom ⟨1, ['2']⟩, .atom ⟨8, []⟩]),
  (false, "CO2", [.atom ⟨6, []⟩, .atom ⟨8, ['2']⟩]),
  (true, "", []),
  (false, "Fe", [.atom ⟨26, []⟩]),
  (false, "Ni", [.atom ⟨28, []⟩]),
  (true, "", []),
  (false, "Fe", [.atom ⟨26, []⟩]),
  (false, "Ni", [.atom ⟨28, []⟩]),
  (true, "CaCO3", [.atom ⟨20, []⟩, .atom ⟨6, []⟩, .atom ⟨8, ['3']⟩]),
  (true, "CaCO3", [.atom ⟨20, []⟩, .atom ⟨6, []⟩, .atom ⟨8, ['3']⟩]),
  (true, "MgCO3", [.atom ⟨12, []⟩, .atom ⟨6, []⟩, .atom ⟨8, ['3']⟩]),
  (true, "FeCO3", [.atom ⟨26, []⟩, .atom ⟨6, []⟩, .atom ⟨8, ['3']⟩]),
  (true, "CaMg(CO3)2", [.atom ⟨20, []⟩, .atom ⟨12, []⟩, .group [⟨6, []⟩, ⟨8, ['3']⟩] ['2']]),
  (true, "Ca5Si2O8CO3", [.atom ⟨20, ['5']⟩, .atom ⟨14, ['2']⟩, .atom ⟨8, ['8']⟩, .atom ⟨6, []⟩, .atom ⟨8, ['3']⟩]),
  (true, "Ca5Si2O7(CO3)2", [.atom ⟨20, ['5']⟩, .atom ⟨14, ['2']⟩, .atom ⟨8, ['7']⟩, .group [⟨6, []⟩, ⟨8, ['3']⟩] ['2']]),
  (true, "C", [.atom ⟨6, []⟩]),
  (true, "C", [.atom ⟨6, []⟩])]

/-- `pMeltsSolids[]`, sol_struct_data.h 5204-6466. -/
def pMeltsSolids : List (Bool × String × List Item) := [
  (true, "", []),
  (false, "Mn2SiO4", [.atom ⟨25, ['2']⟩, .atom ⟨14, []⟩, .atom ⟨8, ['4']⟩]),
  (false, "Fe2SiO4", [.atom ⟨26, ['2']⟩, .atom ⟨14, []⟩, .atom ⟨8, ['4']⟩]),
  (false, "Co2SiO4", [.atom ⟨27, ['2']⟩, .atom ⟨14, []⟩, .atom ⟨8, ['4']⟩]),
  (false, "Ni2SiO4", [.atom ⟨28, ['2']⟩, .atom ⟨14, []⟩, .atom ⟨8, ['4']⟩]),
  (false, "CaMgSiO4", [.atom ⟨20, []⟩, .atom ⟨12, []⟩, .atom ⟨14, []⟩, .atom ⟨8, ['4']⟩]),
  (false, "Mg2SiO4", [.atom ⟨12, ['2']⟩, .atom ⟨14, []⟩, .atom ⟨8, ['4']⟩]),
  (true, "CaTiSiO5", [.atom ⟨20, []⟩, .atom ⟨22, []⟩, .atom ⟨14, []⟩, .atom ⟨8, ['5']⟩]),
  (true, "", []),
  (false, "Fe3Al2Si3O12", [.atom ⟨26, ['3']⟩, .atom ⟨13, ['2']⟩, .atom ⟨14, ['3']⟩, .atom ⟨8, ['1', '2']⟩]),
  (false, "Ca3Al2Si3O12", [.atom ⟨20, ['3']⟩, .atom ⟨13, ['2']⟩, .atom ⟨14, ['3']⟩, .atom ⟨8, ['1', '2']⟩]),
  (false, "Mg3Al2Si3O12", [.atom ⟨12, ['3']⟩, .atom ⟨13, ['2']⟩, .atom ⟨14, ['3']⟩, .atom ⟨8, ['1', '2']⟩]),
  (true, "", []),
  (false, "Ca2MgSi2O7", [.atom ⟨20, ['2']⟩, .atom ⟨12, []⟩, .atom ⟨14, ['2']⟩, .atom ⟨8, ['7']⟩]),
  (false, "Ca2Al2SiO7", [.atom ⟨20, ['2']⟩, .atom ⟨13, ['2']⟩, .atom ⟨14, []⟩, .atom ⟨8, ['7']⟩]),
  (false, "Ca2FeSi2O7", [.atom ⟨20, ['2']⟩, .atom ⟨26, []⟩, .atom ⟨14, ['2']⟩, .atom ⟨8, ['7']⟩]),
  (false, "Na2Si3O7", [.atom ⟨11, ['2']⟩, .atom ⟨14, ['3']⟩, .atom ⟨8, ['7']⟩]),
  (true, "", []),
  (false, "CaMgSi2O6", [.atom ⟨20, []⟩, .atom ⟨12, []⟩, .atom ⟨14, ['2']⟩, .atom ⟨8, ['6']⟩]),
  (false, "Mg2Si2O6", [.atom ⟨12, ['2']⟩, .atom ⟨14, ['2']⟩, .atom ⟨8, ['6']⟩]),
  (false, "CaFeSi2O6", [.atom ⟨20, []⟩, .atom ⟨26, []⟩, .atom ⟨14, ['2']⟩, .atom ⟨8, ['6']⟩]),
  (false, "CaTi0.5Mg0.5AlSiO6", [.atom ⟨20, []⟩, .atom ⟨22, ['0', '.', '5']⟩, .atom ⟨12, ['0', '.', '5']⟩, .atom ⟨13, []⟩, .atom ⟨14, []⟩, .atom ⟨8, ['6']⟩]),
  (false, "CaTi0.5Mg0.5FeSiO6", [.atom ⟨20, []⟩, .atom ⟨22, ['0', '.', '5']⟩, .atom ⟨12, ['0', '.', '5']⟩, .atom ⟨26, []⟩, .atom ⟨14, []⟩, .atom ⟨8, ['6']⟩]),
  (false, "CaFeAlSiO6", [.atom ⟨20, []⟩, .atom ⟨26, []⟩, .atom ⟨13, []⟩, .atom ⟨14, []⟩, .atom ⟨8, ['6']⟩]),
  (false, "NaAlSi2O6", [.atom ⟨11, []⟩, .atom ⟨13, []⟩, .atom ⟨14, ['2']⟩, .atom ⟨8, ['6']⟩]),
  (true, "", []),
  (false, "CaMgSi2O6", [.atom ⟨20, []⟩, .atom ⟨12, []⟩, .atom ⟨14, ['2']⟩, .atom ⟨8, ['6']⟩]),
  (false, "Mg2Si2O6", [.atom ⟨12, ['2']⟩, .atom ⟨14, ['2']⟩, .atom ⟨8, ['6']⟩]),
  (false, "CaFeSi2O6", [.atom ⟨20, []⟩, .atom ⟨26, []⟩, .atom ⟨14, ['2']⟩, .atom ⟨8, ['6']⟩]),
  (false, "CaTi0.5Mg0.5AlSiO6", [.atom ⟨20, []⟩, .atom ⟨22, ['0', '.', '5']⟩, .atom ⟨12, ['0', '.', '5']⟩, .atom ⟨13, []⟩, .atom ⟨14, []⟩, .atom ⟨8, ['6']⟩]),
  (false, "CaTi0.5Mg0.5FeSiO6", [.atom ⟨20, []⟩, .atom ⟨22, ['0', '.', '5']⟩, .atom ⟨12, ['0', '.', '5']⟩, .atom ⟨26, []⟩, .atom ⟨14, []⟩, .atom ⟨8, ['6']⟩]),
  (false, "CaFeAlSiO6", [.atom ⟨20, []⟩, .atom ⟨26, []⟩, .atom ⟨13, []⟩, .atom ⟨14, []⟩, .atom ⟨8, ['6']⟩]),
  (false, "NaAlSi2O6", [.atom ⟨11, []⟩, .atom ⟨13, []⟩, .atom ⟨14, ['2']⟩, .atom ⟨8, ['6']⟩]),
  (true, "NaFeSi2O6", [.atom ⟨11, []⟩, .atom ⟨26, []⟩, .atom ⟨14, ['2']⟩, .atom ⟨8, ['6']⟩]),
  (true, "Na2Fe5TiSi6O20", [.atom ⟨11, ['2']⟩, .atom ⟨26, ['5']⟩, .atom ⟨22, []⟩, .atom ⟨14, ['6']⟩, .atom ⟨8, ['2', '0']⟩]),
  (true, "", []),
  (false, "Mg7Si8O22(OH)2", [.atom ⟨12, ['7']⟩, .atom ⟨14, ['8']⟩, .atom ⟨8, ['2', '2']⟩, .group [⟨8, []⟩, ⟨1, []⟩] ['2']]),
  (false, "Fe7Si8O22(OH)2", [.atom ⟨26, ['7']⟩, .atom ⟨14, ['8']⟩, .atom ⟨8, ['2', '2']⟩, .group [⟨8, []⟩, ⟨1, []⟩] ['2']]),
  (true, "", []),
  (false, "Mg7Si8O22(OH)2", [.atom ⟨12, ['7']⟩, .atom ⟨14, ['8']⟩, .atom ⟨8, ['2', '2']⟩, .group [⟨8, []⟩, ⟨1, []⟩] ['2']]),
  (false, "Fe7Si8O22(OH)2", [.atom ⟨26, ['7']⟩, .atom ⟨14, ['8']⟩, .atom ⟨8, ['2', '2']⟩, .group [⟨8, []⟩, ⟨1, []⟩] ['2']]),
  (false, "Ca2Mg5Si8O22(OH)2", [.atom ⟨20, ['2']⟩, .atom ⟨12, ['5']⟩, .atom ⟨14, ['8']⟩, .atom ⟨8, ['2', '2']⟩, .group [⟨8, []⟩, ⟨1, []⟩] ['2']]),
  (true, "", []),
  (false, "NaCa2Mg4AlAl2Si6O22(OH)2", [.atom ⟨11, []⟩, .atom ⟨20, ['2']⟩, .atom ⟨12, ['4']⟩, .atom ⟨13, []⟩, .atom ⟨13, ['2']⟩, .atom ⟨14, ['6']⟩, .atom ⟨8, ['2', '2']⟩, .group [⟨8, []⟩, ⟨1, []⟩] ['2']]),
  (false, "NaCa2Fe4AlAl2Si6O22(OH)2", [.atom ⟨11, []⟩, .atom ⟨20, ['2']⟩, .atom ⟨26, ['4']⟩, .atom ⟨13, []⟩, .atom ⟨13, ['2']⟩, .atom ⟨14, ['6']⟩, .atom ⟨8, ['2', '2']⟩, .group [⟨8, []⟩, ⟨1, []⟩] ['2']]),
  (false, "NaCa2Mg4FeAl2Si6O22(OH)2", [.atom ⟨11, []⟩, .atom ⟨20, ['2']⟩, .atom ⟨12, ['4']⟩, .atom ⟨26, []⟩, .atom ⟨13, ['2']⟩, .atom ⟨14, ['6']⟩, .atom ⟨8, ['2', '2']⟩, .group [⟨8, []⟩, ⟨1, []⟩] ['2']]),
  (true, "", []),
  (false, "KFe3Si3AlO10(OH)2", [.atom ⟨19, []⟩, .atom ⟨26, ['3']⟩, .atom ⟨14, ['3']⟩, .atom ⟨13, []⟩, .atom ⟨8, ['1', '0']⟩, .group [⟨8, []⟩, ⟨1, []⟩] ['2']]),
  (false, "KMg3Si3AlO10(OH)2", [.atom ⟨19, []⟩, .atom ⟨12, ['3']⟩, .atom ⟨14, ['3']⟩, .atom ⟨13, []⟩, .atom ⟨8, ['1', '0']⟩, .group [⟨8, []⟩, ⟨1, []⟩] ['2']]),
  (true, "KAl2Si3AlO10(OH)2", [.atom ⟨19, []⟩, .atom ⟨13, ['2']⟩, .atom ⟨14, ['3']⟩, .atom ⟨13, []⟩, .atom ⟨8, ['1', '0']⟩, .group [⟨8, []⟩, ⟨1, []⟩] ['2']]),
  (true, "", []),
  (false, "NaAlSi3O8", [.atom ⟨11, []⟩, .atom ⟨13, []⟩, .atom ⟨14, ['3']⟩, .atom ⟨8, ['8']⟩]),
  (false, "CaAl2Si2O8", [.atom ⟨20, []⟩, .atom ⟨13, ['2']⟩, .atom ⟨14, ['2']⟩, .atom ⟨8, ['8']⟩]),
  (false, "KAlSi3O8", [.atom ⟨19, []⟩, .atom ⟨13, []⟩, .atom ⟨14, ['3']⟩, .atom ⟨8, ['8']⟩]),
  (true, "SiO2", [.atom ⟨14, []⟩, .atom ⟨8, ['2']⟩]),
  (true, "SiO2", [.atom ⟨14, []⟩, .atom ⟨8, ['2']⟩]),
  (true, "SiO2", [.atom ⟨14, []⟩, .atom ⟨8, ['2']⟩]),
  (true, "", []),
  (false, "Na4Al4Si4O16", [.atom ⟨11, ['4']⟩, .atom ⟨13, ['4']⟩, .atom ⟨14, ['4']⟩, .atom ⟨8, ['1', '6']⟩]),
  (false, "K4Al4Si4O16", [.atom ⟨19, ['4']⟩, .atom ⟨13, ['4']⟩, .atom ⟨14, ['4']⟩, .atom ⟨8, ['1', '6']⟩]),
  (false, "Na3Al3Si5O16", [.atom ⟨11, ['3']⟩, .atom ⟨13, ['3']⟩, .atom ⟨14, ['5']⟩, .atom ⟨8, ['1', '6']⟩]),
  (false, "CaNa2Al4Si4O16", [.atom ⟨20, []⟩, .atom ⟨11, ['2']⟩, .atom ⟨13, ['4']⟩, .atom ⟨14, ['4']⟩, .atom ⟨8, ['1', '6']⟩]),
  (true, "", []),
  (false, "Na4Al4Si4O16", [.atom ⟨11, ['4']⟩, .atom ⟨13, ['4']⟩, .atom ⟨14, ['4']⟩, .atom ⟨8, ['1', '6']⟩]),
  (false, "K4Al4Si4O16", [.atom ⟨19, ['4']⟩, .atom ⟨13, ['4']⟩, .atom ⟨14, ['4']⟩, .atom ⟨8, ['1', '6']⟩]),
  (false, "Na3Al3Si5O16", [.atom ⟨11, ['3']⟩, .atom ⟨13, ['3']⟩, .atom ⟨14, ['5']⟩, .atom ⟨8, ['1', '6']⟩]),
  (false, "CaNa2Al4Si4O16", [.atom ⟨20, []⟩, .atom ⟨11, ['2']⟩, .atom ⟨13, ['4']⟩, .atom ⟨14, ['4']⟩, .atom ⟨8, ['1', '6']⟩]),
  (true, "", []),
  (false, "KAlSi2O6", [.atom ⟨19, []⟩, .atom ⟨13, []⟩, .atom ⟨14, ['2']⟩, .atom ⟨8, ['6']⟩]),
  (false, "NaAlSi2O5(OH)2", [.atom ⟨11, []⟩, .atom ⟨13, []⟩, .atom ⟨14, ['2']⟩, .atom ⟨8, ['5']⟩, .group [⟨8, []⟩, ⟨1, []⟩] ['2']]),
  (false, "NaAlSi2O6", [.atom ⟨11, []⟩, .atom ⟨13, []⟩, .atom ⟨14, ['2']⟩, .atom ⟨8, ['6']⟩]),
  (true, "Al2O3", [.atom ⟨13, ['2']⟩, .atom ⟨8, ['3']⟩]),
  (true, "TiO2", [.atom ⟨22, []⟩, .atom ⟨8, ['2']⟩]),
  (true, "CaTiO3", [.atom ⟨20, []⟩, .atom ⟨22, []⟩, .atom ⟨8, ['3']⟩]),
  (true, "", []),
  (false, "FeCr2O4", [.atom ⟨26, []⟩, .atom ⟨24, ['2']⟩, .atom ⟨8, ['4']⟩]),
  (false, "FeAl2O4", [.atom ⟨26, []⟩, .atom ⟨13, ['2']⟩, .atom ⟨8, ['4']⟩]),
  (false, "Fe3O4", [.atom ⟨26, ['3']⟩, .atom ⟨8, ['4']⟩]),
  (false, "MgAl2O4", [.atom ⟨12, []⟩, .atom ⟨13, ['2']⟩, .atom ⟨8, ['4']⟩]),
  (false, "Fe2TiO4", [.atom ⟨26, ['2']⟩, .atom ⟨22, []⟩, .atom ⟨8, ['4']⟩]),
  (true, "", []),
  (false, "MgTiO3", [.atom ⟨12, []⟩, .atom ⟨22, []⟩, .atom ⟨8, ['3']⟩]),
  (false, "Fe2O3", [.atom ⟨26, ['2']⟩, .atom ⟨8, ['3']⟩]),
  (false, "FeTiO3", [.atom ⟨26, []⟩, .atom ⟨22, []⟩, .atom ⟨8, ['3']⟩]),
  (false, "MnTiO3", [.atom ⟨25, []⟩, .atom ⟨22, []⟩, .atom ⟨8, ['3']⟩]),
  (true, "", []),
  (false, "Fe2TiO5", [.atom ⟨26, ['2']⟩, .atom ⟨22, []⟩, .atom ⟨8, ['5']⟩]),
  (false, "FeTi2O5", [.atom ⟨26, []⟩, .atom ⟨22, ['2']⟩, .atom ⟨8, ['5']⟩]),
  (false, "MgTi2O5", [.atom ⟨12, []⟩, .atom ⟨22, ['2']⟩, .atom ⟨8, ['5']⟩]),
  (true, "Ca3(PO4)2", [.atom ⟨20, ['3']⟩, .group [⟨15, []⟩, ⟨8, ['4']⟩] ['2']]),
  (true, "Ca5(PO4)3OH", [.atom ⟨20, ['5']⟩, .group [⟨15, []⟩, ⟨8, ['4']⟩] ['3'], .atom ⟨8, []⟩, .atom ⟨1, []⟩]),
  (true, "H2O", [.atom ⟨1, ['2']⟩, .atom ⟨8, []⟩]),
  (true, "", []),
  (false, "Fe", [.atom ⟨26, []⟩]),
  (false, "Ni", [.atom ⟨28, []⟩]),
  (true, "", []),
  (false, "Fe", [.atom ⟨26, []⟩]),
  (false, "Ni", [.atom ⟨28, []⟩])]

/-- The elements the oxides consist of, by number. -/
def els : List ℕ := [14, 8, 22, 13, 26, 24, 25, 12, 28, 27, 20, 11, 19, 15, 1, 6, 16, 17, 9]

/-- Row `k`: element `els[k]` as a combination of oxides (position, amount). -/
def oxInv : List (List (ℕ × ℚ)) := [
  [(0, 1), (3, -2), (5, 4)],
  [(3, 1), (5, -2)],
  [(1, 1), (3, -2), (5, 4)],
  [(2, 1 / 2), (3, -3 / 2), (5, 3)],
  [(3, -1), (5, 3)],
  [(3, -3 / 2), (4, 1 / 2), (5, 3)],
  [(3, -1), (5, 2), (6, 1)],
  [(3, -1), (5, 2), (7, 1)],
  [(3, -1), (5, 2), (8, 1)],
  [(3, -1), (5, 2), (9, 1)],
  [(3, -1), (5, 2), (10, 1)],
  [(3, -1 / 2), (5, 1), (11, 1 / 2)],
  [(3, -1 / 2), (5, 1), (12, 1 / 2)],
  [(3, -5 / 2), (5, 5), (13, 1 / 2)],
  [(3, -1 / 2), (5, 1), (14, 1 / 2)],
  [(3, -2), (5, 4), (15, 1)],
  [(3, -3), (5, 6), (16, 1)],
  [(3, 1 / 2), (5, -1), (17, 1 / 2)],
  [(3, 1 / 2), (5, -1), (18, 1 / 2)]]

/-- Row `k`: element `els[k]` as a combination of components of `meltsLiquid`. -/
def meltsInv : List (List (ℕ × ℚ)) := [
  [(0, -1), (3, -2), (5, 2)],
  [(0, 1), (3, 1), (5, -1)],
  [(0, -2), (1, 1), (3, -2), (5, 2)],
  [(0, -3 / 2), (2, 1 / 2), (3, -3 / 2), (5, 3 / 2)],
  [(0, -3 / 2), (3, -1), (5, 3 / 2)],
  [(0, -5 / 4), (3, -3 / 2), (4, 1 / 2), (5, 3 / 2), (7, -1 / 4)],
  [(0, -3 / 2), (3, -1), (5, 1), (6, 1)],
  [(0, -3 / 2), (3, -1), (5, 1), (7, 1 / 2)],
  [(0, -3 / 2), (3, -1), (5, 1), (8, 1)],
  [(0, -3 / 2), (3, -1), (5, 1), (9, 1)],
  [(0, -2), (3, -1), (5, 1), (10, 1)],
  [(0, -1), (3, -1 / 2), (5, 1 / 2), (11, 1 / 2)],
  [(0, -3 / 2), (2, -1 / 2), (3, -1 / 2), (5, 1 / 2), (12, 1)],
  [(0, -1), (3, -5 / 2), (5, 5 / 2), (10, -3 / 2), (13, 1 / 2)],
  [(0, -1 / 2), (3, -1 / 2), (5, 1 / 2), (18, 1 / 2)],
  [(0, -2), (3, -2), (5, 2), (14, 1)],
  [(0, -3), (3, -3), (5, 3), (15, 1)],
  [(0, 1 / 2), (3, 1 / 2), (5, -1 / 2), (16, 1 / 2)],
  [(0, 1 / 2), (3, 1 / 2), (5, -1 / 2), (17, 1 / 2)]]

/-- Row `k`: element `els[k]` as a combination of components of `pMeltsLiquid`. -/
def pMeltsInv : List (List (ℕ × ℚ)) := [
  [(0, -1 / 4), (3, -2), (5, 2)],
  [(0, 1 / 4), (3, 1), (5, -1)],
  [(0, -1 / 2), (1, 1), (3, -2), (5, 2)],
  [(0, -3 / 8), (2, 1 / 4), (3, -3 / 2), (5, 3 / 2)],
  [(0, -3 / 8), (3, -1), (5, 3 / 2)],
  [(0, -5 / 16), (3, -3 / 2), (4, 1 / 2), (5, 3 / 2), (7, -1 / 4)],
  [(0, -3 / 8), (3, -1), (5, 1), (6, 1)],
  [(0, -3 / 8), (3, -1), (5, 1), (7, 1 / 2)],
  [(0, -3 / 8), (3, -1), (5, 1), (8, 1)],
  [(0, -3 / 8), (3, -1), (5, 1), (9, 1)],
  [(0, -1 / 2), (3, -1), (5, 1), (10, 1 / 2)],
  [(0, -1 / 4), (3, -1 / 2), (5, 1 / 2), (11, 1)],
  [(0, -3 / 8), (2, -1 / 4), (3, -1 / 2), (5, 1 / 2), (12, 1)],
  [(0, -1 / 4), (3, -5 / 2), (5, 5 / 2), (10, -3 / 4), (13, 1 / 2)],
  [(0, -1 / 8), (3, -1 / 2), (5, 1 / 2), (18, 1 / 2)],
  [(0, -1 / 2), (3, -2), (5, 2), (14, 1)],
  [(0, -3 / 4), (3, -3), (5, 3), (15, 1)],
  [(0, 1 / 8), (3, 1 / 2), (5, -1 / 2), (16, 1 / 2)],
  [(0, 1 / 8), (3, 1 / 2), (5, -1 / 2), (17, 1 / 2)]]

end Magma.Support.Tables
