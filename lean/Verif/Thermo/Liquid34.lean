import Verif.Thermo.Mixing

/-!
# The silicate liquid of rhyolite-MELTS 1.0 and pMELTS (C65)

`sources/liquid_v34.c` 64-89 and 384-736: activities, chemical potentials and mixing properties, to which
`actLiq`, `gmixLiq`, ... of `liquid.c` (8293, 8702, 8811, 8920, 9104, 9242) pass every call in these two modes.

Simplifications: `double` is the real numbers; the sums the C code accumulates in interleaved order are
written as sums; the warning printed for a negative mole fraction and the abort that follows are left out,
the theorems are about mole fractions that are not negative; the bit masks that select outputs are
replaced by one function for each output.
-/

namespace Magma.Thermo.Liquid34

open Finset Magma.Thermo.Extensive Magma.Thermo.Mixing

noncomputable section

/-! ## The code -/

/-- `Index` (`liquid_v34.c` 64-84), where row and column of an interaction parameter are turned into its
place in the table of parameters; the diagonal, `SMX`, is not in the table and is written as 171. -/
def index : Fin 19 → Fin 19 → ℕ :=
  ![![171, 0, 1, 2, 3, 4, 5, 6, 7, 8, 9, 10, 11, 12, 13, 14, 15, 16, 17],
    ![0, 171, 18, 19, 20, 21, 22, 23, 24, 25, 26, 27, 28, 29, 30, 31, 32, 33, 34],
    ![1, 18, 171, 35, 36, 37, 38, 39, 40, 41, 42, 43, 44, 45, 46, 47, 48, 49, 50],
    ![2, 19, 35, 171, 51, 52, 53, 54, 55, 56, 57, 58, 59, 60, 61, 62, 63, 64, 65],
    ![3, 20, 36, 51, 171, 66, 67, 68, 69, 70, 71, 72, 73, 74, 75, 76, 77, 78, 79],
    ![4, 21, 37, 52, 66, 171, 80, 81, 82, 83, 84, 85, 86, 87, 88, 89, 90, 91, 92],
    ![5, 22, 38, 53, 67, 80, 171, 93, 94, 95, 96, 97, 98, 99, 100, 101, 102, 103, 104],
    ![6, 23, 39, 54, 68, 81, 93, 171, 105, 106, 107, 108, 109, 110, 111, 112, 113, 114, 115],
    ![7, 24, 40, 55, 69, 82, 94, 105, 171, 116, 117, 118, 119, 120, 121, 122, 123, 124, 125],
    ![8, 25, 41, 56, 70, 83, 95, 106, 116, 171, 126, 127, 128, 129, 130, 131, 132, 133, 134],
    ![9, 26, 42, 57, 71, 84, 96, 107, 117, 126, 171, 135, 136, 137, 138, 139, 140, 141, 142],
    ![10, 27, 43, 58, 72, 85, 97, 108, 118, 127, 135, 171, 143, 144, 145, 146, 147, 148, 149],
    ![11, 28, 44, 59, 73, 86, 98, 109, 119, 128, 136, 143, 171, 150, 151, 152, 153, 154, 155],
    ![12, 29, 45, 60, 74, 87, 99, 110, 120, 129, 137, 144, 150, 171, 156, 157, 158, 159, 160],
    ![13, 30, 46, 61, 75, 88, 100, 111, 121, 130, 138, 145, 151, 156, 171, 161, 162, 163, 164],
    ![14, 31, 47, 62, 76, 89, 101, 112, 122, 131, 139, 146, 152, 157, 161, 171, 165, 166, 167],
    ![15, 32, 48, 63, 77, 90, 102, 113, 123, 132, 140, 147, 153, 158, 162, 165, 171, 168, 169],
    ![16, 33, 49, 64, 78, 91, 103, 114, 124, 133, 141, 148, 154, 159, 163, 166, 168, 171, 170],
    ![17, 34, 50, 65, 79, 92, 104, 115, 125, 134, 142, 149, 155, 160, 164, 167, 169, 170, 171]]

/-- A row of `meltsModelParameters` or `pMeltsModelParameters` (`param_struct_data_v34.h` 34, 251). -/
structure Row where
  enthalpy : ℝ
  entropy : ℝ
  volume : ℝ

/-- The table of parameters; `calculationMode` selects which (`liquid_v34.c` 87-89). -/
abbrev Tab := ℕ → Row

variable (T : Tab)

/-- `WH`, `WS`, `WV` (`liquid_v34.c` 87-89). -/
def WH (i j : Fin 19) : ℝ := (T (index i j)).enthalpy
@[inherit_doc WH]
def WS (i j : Fin 19) : ℝ := (T (index i j)).entropy
@[inherit_doc WH]
def WV (i j : Fin 19) : ℝ := (T (index i j)).volume

/-- The expression `WH(i,j)-t*WS(i,j)+(p-1.0)*WV(i,j)`, as in `liquid_v34.c` 399. -/
def WG (t p : ℝ) (i j : Fin 19) : ℝ := WH T i j - t * WS T i j + (p - 1) * WV T i j

/-- Mole fractions of all components from the independent ones (`liquid_v34.c` 394, 494, 562, ...). -/
def frac (r : Fin 18 → ℝ) : Fin 19 → ℝ := Fin.cons (1 - ∑ i, r i) r

/-- Water, component `NA-1`. -/
abbrev w : Fin 19 := Fin.last 18

/-- A quadratic form over pairs `i < j`, as accumulated in `liquid_v34.c` 398-400, 501-502, 567-569, 591, 688-689. -/
def quad (W : Fin 19 → Fin 19 → ℝ) (x : Fin 19 → ℝ) : ℝ := ∑ i, ∑ j ∈ Ioi i, x i * x j * W i j

/-- The linear sums of `liquid_v34.c` 405-406. -/
def lin (W : Fin 19 → Fin 19 → ℝ) (x : Fin 19 → ℝ) (i : Fin 19) : ℝ :=
  ∑ j ∈ Iio i, W i j * x j + ∑ j ∈ Ioi i, W i j * x j

/-- `actLiq_v34`, activities (`liquid_v34.c` 402-411). -/
def act (t p : ℝ) (r : Fin 18 → ℝ) (i : Fin 19) : ℝ :=
  let x := frac r
  let a := -quad (WG T t p) x + lin (WG T t p) x i
  let a := if x i ≠ 0 then x i * Real.exp (a / (R * t)) else 0
  if i ≠ w then (1 - x w) * a else x w * a

/-- `actLiq_v34`, chemical potentials (`liquid_v34.c` 413-429). -/
def mu (t p : ℝ) (r : Fin 18 → ℝ) (i : Fin 19) : ℝ :=
  let x := frac r
  let m := -quad (WG T t p) x + lin (WG T t p) x i
  let m := if x i ≠ 0 then m + R * t * Real.log (x i) else 0
  if i ≠ w then m + R * t * Real.log (1 - x w)
  else if x w ≠ 0 then m + R * t * Real.log (x w) else m

/-- The composition derivative of a quadratic form (`liquid_v34.c` 443-448, 526-531, 615-617, 694-696). -/
def dquad (W : Fin 19 → Fin 19 → ℝ) (r : Fin 18 → ℝ) (i : Fin 18) : ℝ :=
  frac r 0 * W 0 i.succ + ∑ j, if i ≠ j then r j * (W i.succ j.succ - W 0 j.succ) else -(r j * W 0 j.succ)

/-- `actLiq_v34`, derivatives of the activities (`liquid_v34.c` 431-472). -/
def dact (t p : ℝ) (r : Fin 18 → ℝ) (i : Fin 19) (j : Fin 18) : ℝ :=
  let x := frac r
  let W := WG T t p
  let d := if i = 0 then
      let d := -R * t / x 0 + W 0 j.succ - dquad W r j
      if j = Fin.last 17 then d + -R * t / (1 - x w) else d
    else
      let d := if i = j.succ then (if r j ≠ 0 then R * t / r j else 0) else W i j.succ
      let d := d + (-W 0 i - dquad W r j)
      if i ≠ w ∧ j = Fin.last 17 then d + -R * t / (1 - x w)
      else if i = w ∧ j = Fin.last 17 ∧ x w ≠ 0 then d + R * t / x w else d
  d * (act T t p r i / (R * t))

/-- `gmixLiq_v34` (`liquid_v34.c` 499-514). -/
def gmix (t p : ℝ) (r : Fin 18 → ℝ) : ℝ :=
  let x := frac r
  quad (WG T t p) x + (∑ i, if x i ≠ 0 then R * t * x i * Real.log (x i) else 0)
    + if x w ≠ 0 then R * t * (x w * Real.log (x w) + (1 - x w) * Real.log (1 - x w)) else 0

/-- `gmixLiq_v34`, gradient (`liquid_v34.c` 516-535). -/
def dgmix (t p : ℝ) (r : Fin 18 → ℝ) (i : Fin 18) : ℝ :=
  let x := frac r
  let d := (if r i ≠ 0 then R * t * (Real.log (r i) - Real.log (x 0)) else 0) + dquad (WG T t p) r i
  if i = Fin.last 17 then
    d + if x w ≠ 0 then R * t * (Real.log (x w) - Real.log (1 - x w)) else 0
  else d

/-- `gmixLiq_v34`, Hessian (`liquid_v34.c` 537-550). -/
def d2gmix (t p : ℝ) (r : Fin 18 → ℝ) (i j : Fin 18) : ℝ :=
  let x := frac r
  let W := WG T t p
  let d := R * t / x 0 - W 0 i.succ - W 0 j.succ + if i ≠ j then W i.succ j.succ else 0
  let d := if i = j then d + if r i ≠ 0 then R * t / r i else 0 else d
  if i = Fin.last 17 ∧ j = Fin.last 17 then
    d + if x w ≠ 0 then R * t * (1 / x w + 1 / (1 - x w)) else 0
  else d

/-- `hmixLiq_v34` (`liquid_v34.c` 567-569). -/
def hmix (_t p : ℝ) (r : Fin 18 → ℝ) : ℝ := quad (fun i j => WH T i j + (p - 1) * WV T i j) (frac r)

/-- `smixLiq_v34` (`liquid_v34.c` 589-603). -/
def smix (_t _p : ℝ) (r : Fin 18 → ℝ) : ℝ :=
  let x := frac r
  quad (WS T) x + (∑ i, if x i ≠ 0 then -R * x i * Real.log (x i) else 0)
    + if x w ≠ 0 then -R * (x w * Real.log (x w) + (1 - x w) * Real.log (1 - x w)) else 0

/-- `smixLiq_v34`, gradient (`liquid_v34.c` 605-620). -/
def dsmix (_t _p : ℝ) (r : Fin 18 → ℝ) (i : Fin 18) : ℝ :=
  let x := frac r
  let d := (if r i ≠ 0 then R * (Real.log (x 0) - Real.log (r i)) else 0) + dquad (WS T) r i
  if i = Fin.last 17 then
    d + if x w ≠ 0 then -R * (Real.log (x w) - Real.log (1 - x w)) else 0
  else d

/-- `smixLiq_v34`, Hessian (`liquid_v34.c` 622-632). -/
def d2smix (_t _p : ℝ) (r : Fin 18 → ℝ) (i j : Fin 18) : ℝ :=
  let x := frac r
  let d := -R / x 0 - WS T 0 i.succ - WS T 0 j.succ + if i ≠ j then WS T i.succ j.succ else 0
  let d := if i = j then d + if r i ≠ 0 then -R / r i else 0 else d
  if i = Fin.last 17 ∧ j = Fin.last 17 then
    d + if x w ≠ 0 then -R * (1 / x w + 1 / (1 - x w)) else 0
  else d

/-- `cpmixLiq_v34`; all its outputs are zero (`liquid_v34.c` 651-661). -/
def cpmix (_t _p : ℝ) (_r : Fin 18 → ℝ) : ℝ := 0

/-- `vmixLiq_v34` (`liquid_v34.c` 687-690); its derivatives in temperature and pressure are zero (709-735). -/
def vmix (_t _p : ℝ) (r : Fin 18 → ℝ) : ℝ := quad (WV T) (frac r)

/-- `vmixLiq_v34`, gradient (`liquid_v34.c` 692-698). -/
def dvmix (_t _p : ℝ) (r : Fin 18 → ℝ) (i : Fin 18) : ℝ := dquad (WV T) r i

/-- `vmixLiq_v34`, Hessian (`liquid_v34.c` 700-707). -/
def d2vmix (_t _p : ℝ) (_r : Fin 18 → ℝ) (i j : Fin 18) : ℝ :=
  -WV T 0 i.succ - WV T 0 j.succ + if i ≠ j then WV T i.succ j.succ else 0

/-! ## The order of the table of parameters -/

/-- The names in `meltsModelParameters` (`param_struct_data_v34.h` 33-222), without the `W( )` and the padding. -/
def meltsNames : List (String × String) :=
  [("TiO2", "SiO2"), ("Al2O3", "SiO2"), ("Fe2O3", "SiO2"), ("MgCr2O4", "SiO2"), ("Fe2SiO4", "SiO2"),
   ("MnSi0.5O2", "SiO2"), ("Mg2SiO4", "SiO2"), ("NiSi0.5O2", "SiO2"), ("CoSi0.5O2", "SiO2"), ("CaSiO3",
   "SiO2"), ("Na2SiO3", "SiO2"), ("KAlSiO4", "SiO2"), ("Ca3(PO4)2", "SiO2"), ("CO2", "SiO2"), ("S",
   "SiO2"), ("Cl", "SiO2"), ("F", "SiO2"), ("H2O", "SiO2"), ("Al2O3", "TiO2"), ("Fe2O3", "TiO2"),
   ("MgCr2O4", "TiO2"), ("Fe2SiO4", "TiO2"), ("MnSi0.5O2", "TiO2"), ("Mg2SiO4", "TiO2"), ("NiSi0.5O2",
   "TiO2"), ("CoSi0.5O2", "TiO2"), ("CaSiO3", "TiO2"), ("Na2SiO3", "TiO2"), ("KAlSiO4", "TiO2"),
   ("Ca3(PO4)2", "TiO2"), ("CO2", "TiO2"), ("S", "TiO2"), ("Cl", "TiO2"), ("F", "TiO2"), ("H2O",
   "TiO2"), ("Fe2O3", "Al2O3"), ("MgCr2O4", "Al2O3"), ("Fe2SiO4", "Al2O3"), ("MnSi0.5O2", "Al2O3"),
   ("Mg2SiO4", "Al2O3"), ("NiSi0.5O2", "Al2O3"), ("CoSi0.5O2", "Al2O3"), ("CaSiO3", "Al2O3"),
   ("Na2SiO3", "Al2O3"), ("KAlSiO4", "Al2O3"), ("Ca3(PO4)2", "Al2O3"), ("CO2", "Al2O3"), ("S", "Al2O3"),
   ("Cl", "Al2O3"), ("F", "Al2O3"), ("H2O", "Al2O3"), ("MgCr2O4", "Fe2O3"), ("Fe2SiO4", "Fe2O3"),
   ("MnSi0.5O2", "Fe2O3"), ("Mg2SiO4", "Fe2O3"), ("NiSi0.5O2", "Fe2O3"), ("CoSi0.5O2", "Fe2O3"),
   ("CaSiO3", "Fe2O3"), ("Na2SiO3", "Fe2O3"), ("KAlSiO4", "Fe2O3"), ("Ca3(PO4)2", "Fe2O3"), ("CO2",
   "Fe2O3"), ("S", "Fe2O3"), ("Cl", "Fe2O3"), ("F", "Fe2O3"), ("H2O", "Fe2O3"), ("Fe2SiO4", "MgCr2O4"),
   ("MnSi0.5O2", "MgCr2O4"), ("Mg2SiO4", "MgCr2O4"), ("NiSi0.5O2", "MgCr2O4"), ("CoSi0.5O2", "MgCr2O4"),
   ("CaSiO3", "MgCr2O4"), ("Na2SiO3", "MgCr2O4"), ("KAlSiO4", "MgCr2O4"), ("Ca3(PO4)2", "MgCr2O4"),
   ("CO2", "MgCr2O4"), ("S", "MgCr2O4"), ("Cl", "MgCr2O4"), ("F", "MgCr2O4"), ("H2O", "MgCr2O4"),
   ("MnSi0.5O2", "Fe2SiO4"), ("Mg2SiO4", "Fe2SiO4"), ("NiSi0.5O2", "Fe2SiO4"), ("CoSi0.5O2", "Fe2SiO4"),
   ("CaSiO3", "Fe2SiO4"), ("Na2SiO3", "Fe2SiO4"), ("KAlSiO4", "Fe2SiO4"), ("Ca3(PO4)2", "Fe2SiO4"),
   ("CO2", "Fe2SiO4"), ("S", "Fe2SiO4"), ("Cl", "Fe2SiO4"), ("F", "Fe2SiO4"), ("H2O", "Fe2SiO4"),
   ("Mg2SiO4", "MnSi0.5O2"), ("NiSi0.5O2", "MnSi0.5O2"), ("CoSi0.5O2", "MnSi0.5O2"), ("CaSiO3",
   "MnSi0.5O2"), ("Na2SiO3", "MnSi0.5O2"), ("KAlSiO4", "MnSi0.5O2"), ("Ca3(PO4)2", "MnSi0.5O2"), ("CO2",
   "MnSi0.5O2"), ("S", "MnSi0.5O2"), ("Cl", "MnSi0.5O2"), ("F", "MnSi0.5O2"), ("H2O", "MnSi0.5O2"),
   ("NiSi0.5O2", "Mg2SiO4"), ("CoSi0.5O2", "Mg2SiO4"), ("CaSiO3", "Mg2SiO4"), ("Na2SiO3", "Mg2SiO4"),
   ("KAlSiO4", "Mg2SiO4"), ("Ca3(PO4)2", "Mg2SiO4"), ("CO2", "Mg2SiO4"), ("S", "Mg2SiO4"), ("Cl",
   "Mg2SiO4"), ("F", "Mg2SiO4"), ("H2O", "Mg2SiO4"), ("CoSi0.5O2", "NiSi0.5O2"), ("CaSiO3",
   "NiSi0.5O2"), ("Na2SiO3", "NiSi0.5O2"), ("KAlSiO4", "NiSi0.5O2"), ("Ca3(PO4)2", "NiSi0.5O2"), ("CO2",
   "NiSi0.5O2"), ("S", "NiSi0.5O2"), ("Cl", "NiSi0.5O2"), ("F", "NiSi0.5O2"), ("H2O", "NiSi0.5O2"),
   ("CaSiO3", "CoSi0.5O2"), ("Na2SiO3", "CoSi0.5O2"), ("KAlSiO4", "CoSi0.5O2"), ("Ca3(PO4)2",
   "CoSi0.5O2"), ("CO2", "CoSi0.5O2"), ("S", "CoSi0.5O2"), ("Cl", "CoSi0.5O2"), ("F", "CoSi0.5O2"),
   ("H2O", "CoSi0.5O2"), ("Na2SiO3", "CaSiO3"), ("KAlSiO4", "CaSiO3"), ("Ca3(PO4)2", "CaSiO3"), ("CO2",
   "CaSiO3"), ("S", "CaSiO3"), ("Cl", "CaSiO3"), ("F", "CaSiO3"), ("H2O", "CaSiO3"), ("KAlSiO4",
   "Na2SiO3"), ("Ca3(PO4)2", "Na2SiO3"), ("CO2", "Na2SiO3"), ("S", "Na2SiO3"), ("Cl", "Na2SiO3"), ("F",
   "Na2SiO3"), ("H2O", "Na2SiO3"), ("Ca3(PO4)2", "KAlSiO4"), ("CO2", "KAlSiO4"), ("S", "KAlSiO4"),
   ("Cl", "KAlSiO4"), ("F", "KAlSiO4"), ("H2O", "KAlSiO4"), ("CO2", "Ca3(PO4)2"), ("S", "Ca3(PO4)2"),
   ("Cl", "Ca3(PO4)2"), ("F", "Ca3(PO4)2"), ("H2O", "Ca3(PO4)2"), ("S", "CO2"), ("Cl", "CO2"), ("F",
   "CO2"), ("H2O", "CO2"), ("Cl", "S"), ("F", "S"), ("H2O", "S"), ("F", "Cl"), ("H2O", "Cl"), ("H2O",
   "F")]

/-- The names in `pMeltsModelParameters` (`param_struct_data_v34.h` 224-413). -/
def pMeltsNames : List (String × String) :=
  [("TiO2", "Si4O8"), ("Al4O6", "Si4O8"), ("Fe2O3", "Si4O8"), ("MgCr2O4", "Si4O8"), ("Fe2SiO4",
   "Si4O8"), ("MnSi0.5O2", "Si4O8"), ("Mg2SiO4", "Si4O8"), ("NiSi0.5O2", "Si4O8"), ("CoSi0.5O2",
   "Si4O8"), ("Ca2Si2O6", "Si4O8"), ("NaSi0.5O1.", "Si4O8"), ("KAlSiO4", "Si4O8"), ("Ca3(PO4)2",
   "Si4O8"), ("CO2", "Si4O8"), ("SO3", "Si4O8"), ("Cl2O-1", "Si4O8"), ("F2O-1", "Si4O8"), ("H2O",
   "Si4O8"), ("Al4O6", "TiO2"), ("Fe2O3", "TiO2"), ("MgCr2O4", "TiO2"), ("Fe2SiO4", "TiO2"),
   ("MnSi0.5O2", "TiO2"), ("Mg2SiO4", "TiO2"), ("NiSi0.5O2", "TiO2"), ("CoSi0.5O2", "TiO2"),
   ("Ca2Si2O6", "TiO2"), ("NaSi0.5O1.", "TiO2"), ("KAlSiO4", "TiO2"), ("Ca3(PO4)2", "TiO2"), ("CO2",
   "TiO2"), ("SO3", "TiO2"), ("Cl2O-1", "TiO2"), ("F2O-1", "TiO2"), ("H2O", "TiO2"), ("Fe2O3", "Al4O6"),
   ("MgCr2O4", "Al4O6"), ("Fe2SiO4", "Al4O6"), ("MnSi0.5O2", "Al4O6"), ("Mg2SiO4", "Al4O6"),
   ("NiSi0.5O2", "Al4O6"), ("CoSi0.5O2", "Al4O6"), ("Ca2Si2O6", "Al4O6"), ("NaSi0.5O1.", "Al4O6"),
   ("KAlSiO4", "Al4O6"), ("Ca3(PO4)2", "Al4O6"), ("CO2", "Al4O6"), ("SO3", "Al4O6"), ("Cl2O-1",
   "Al4O6"), ("F2O-1", "Al4O6"), ("H2O", "Al4O6"), ("MgCr2O4", "Fe2O3"), ("Fe2SiO4", "Fe2O3"),
   ("MnSi0.5O2", "Fe2O3"), ("Mg2SiO4", "Fe2O3"), ("NiSi0.5O2", "Fe2O3"), ("CoSi0.5O2", "Fe2O3"),
   ("Ca2Si2O6", "Fe2O3"), ("NaSi0.5O1.", "Fe2O3"), ("KAlSiO4", "Fe2O3"), ("Ca3(PO4)2", "Fe2O3"), ("CO2",
   "Fe2O3"), ("SO3", "Fe2O3"), ("Cl2O-1", "Fe2O3"), ("F2O-1", "Fe2O3"), ("H2O", "Fe2O3"), ("Fe2SiO4",
   "MgCr2O4"), ("MnSi0.5O2", "MgCr2O4"), ("Mg2SiO4", "MgCr2O4"), ("NiSi0.5O2", "MgCr2O4"), ("CoSi0.5O2",
   "MgCr2O4"), ("Ca2Si2O6", "MgCr2O4"), ("NaSi0.5O1.", "MgCr2O4"), ("KAlSiO4", "MgCr2O4"), ("Ca3(PO4)2",
   "MgCr2O4"), ("CO2", "MgCr2O4"), ("SO3", "MgCr2O4"), ("Cl2O-1", "MgCr2O4"), ("F2O-1", "MgCr2O4"),
   ("H2O", "MgCr2O4"), ("MnSi0.5O2", "Fe2SiO4"), ("Mg2SiO4", "Fe2SiO4"), ("NiSi0.5O2", "Fe2SiO4"),
   ("CoSi0.5O2", "Fe2SiO4"), ("Ca2Si2O6", "Fe2SiO4"), ("NaSi0.5O1.", "Fe2SiO4"), ("KAlSiO4", "Fe2SiO4"),
   ("Ca3(PO4)2", "Fe2SiO4"), ("CO2", "Fe2SiO4"), ("SO3", "Fe2SiO4"), ("Cl2O-1", "Fe2SiO4"), ("F2O-1",
   "Fe2SiO4"), ("H2O", "Fe2SiO4"), ("Mg2SiO4", "MnSi0.5O2"), ("NiSi0.5O2", "MnSi0.5O2"), ("CoSi0.5O2",
   "MnSi0.5O2"), ("Ca2Si2O6", "MnSi0.5O2"), ("NaSi0.5O1.", "MnSi0.5O2"), ("KAlSiO4", "MnSi0.5O2"),
   ("Ca3(PO4)2", "MnSi0.5O2"), ("CO2", "MnSi0.5O2"), ("SO3", "MnSi0.5O2"), ("Cl2O-1", "MnSi0.5O2"),
   ("F2O-1", "MnSi0.5O2"), ("H2O", "MnSi0.5O2"), ("NiSi0.5O2", "Mg2SiO4"), ("CoSi0.5O2", "Mg2SiO4"),
   ("Ca2Si2O6", "Mg2SiO4"), ("NaSi0.5O1.", "Mg2SiO4"), ("KAlSiO4", "Mg2SiO4"), ("Ca3(PO4)2", "Mg2SiO4"),
   ("CO2", "Mg2SiO4"), ("SO3", "Mg2SiO4"), ("Cl2O-1", "Mg2SiO4"), ("F2O-1", "Mg2SiO4"), ("H2O",
   "Mg2SiO4"), ("CoSi0.5O2", "NiSi0.5O2"), ("Ca2Si2O6", "NiSi0.5O2"), ("NaSi0.5O1.", "NiSi0.5O2"),
   ("KAlSiO4", "NiSi0.5O2"), ("Ca3(PO4)2", "NiSi0.5O2"), ("CO2", "NiSi0.5O2"), ("SO3", "NiSi0.5O2"),
   ("Cl2O-1", "NiSi0.5O2"), ("F2O-1", "NiSi0.5O2"), ("H2O", "NiSi0.5O2"), ("Ca2Si2O6", "CoSi0.5O2"),
   ("NaSi0.5O1.", "CoSi0.5O2"), ("KAlSiO4", "CoSi0.5O2"), ("Ca3(PO4)2", "CoSi0.5O2"), ("CO2",
   "CoSi0.5O2"), ("SO3", "CoSi0.5O2"), ("Cl2O-1", "CoSi0.5O2"), ("F2O-1", "CoSi0.5O2"), ("H2O",
   "CoSi0.5O2"), ("NaSi0.5O1.", "Ca2Si2O6"), ("KAlSiO4", "Ca2Si2O6"), ("Ca3(PO4)2", "Ca2Si2O6"), ("CO2",
   "Ca2Si2O6"), ("SO3", "Ca2Si2O6"), ("Cl2O-1", "Ca2Si2O6"), ("F2O-1", "Ca2Si2O6"), ("H2O", "Ca2Si2O6"),
   ("KAlSiO4", "NaSi0.5O1."), ("Ca3(PO4)2", "NaSi0.5O1."), ("CO2", "NaSi0.5O1."), ("SO3", "NaSi0.5O1."),
   ("Cl2O-1", "NaSi0.5O1."), ("F2O-1", "NaSi0.5O1."), ("H2O", "NaSi0.5O1."), ("Ca3(PO4)2", "KAlSiO4"),
   ("CO2", "KAlSiO4"), ("SO3", "KAlSiO4"), ("Cl2O-1", "KAlSiO4"), ("F2O-1", "KAlSiO4"), ("H2O",
   "KAlSiO4"), ("CO2", "Ca3(PO4)2"), ("SO3", "Ca3(PO4)2"), ("Cl2O-1", "Ca3(PO4)2"), ("F2O-1",
   "Ca3(PO4)2"), ("H2O", "Ca3(PO4)2"), ("SO3", "CO2"), ("Cl2O-1", "CO2"), ("F2O-1", "CO2"), ("H2O",
   "CO2"), ("Cl2O-1", "SO3"), ("F2O-1", "SO3"), ("H2O", "SO3"), ("F2O-1", "Cl2O-1"), ("H2O", "Cl2O-1"),
   ("H2O", "F2O-1")]

/-- The components of the liquid (`liq_struct_data.h`, `meltsLiquid` 525-830), with the names of sulfur,
chlorine and fluorine that the table of parameters uses. -/
def meltsLabels : List String :=
  ["SiO2", "TiO2", "Al2O3", "Fe2O3", "MgCr2O4", "Fe2SiO4", "MnSi0.5O2", "Mg2SiO4", "NiSi0.5O2",
   "CoSi0.5O2", "CaSiO3", "Na2SiO3", "KAlSiO4", "Ca3(PO4)2", "CO2", "S", "Cl", "F", "H2O"]

/-- The components of the liquid of pMELTS (`liq_struct_data.h`, `pMeltsLiquid` 1221-1538); the table of
parameters cuts NaSi0.5O1.5 off after ten characters. -/
def pMeltsLabels : List String :=
  ["Si4O8", "TiO2", "Al4O6", "Fe2O3", "MgCr2O4", "Fe2SiO4", "MnSi0.5O2", "Mg2SiO4", "NiSi0.5O2",
   "CoSi0.5O2", "Ca2Si2O6", "NaSi0.5O1.", "KAlSiO4", "Ca3(PO4)2", "CO2", "SO3", "Cl2O-1", "F2O-1", "H2O"]


/-! ## Lemmas -/

theorem index_symm (i j : Fin 19) : index i j = index j i := by
  revert i j; decide

theorem WG_symm (t p : ℝ) (i j : Fin 19) : WG T t p i j = WG T t p j i := by
  simp only [WG, WH, WS, WV, index_symm i j]

variable {W : Fin 19 → Fin 19 → ℝ}

theorem sum_swap (f : Fin 19 → Fin 19 → ℝ) : ∑ i, ∑ j ∈ Ioi i, f i j = ∑ j, ∑ i ∈ Iio j, f i j := by
  refine sum_comm' ?_
  simp

/-- The polarised form of `quad`. -/
theorem polar (hW : ∀ i j, W i j = W j i) (c x : Fin 19 → ℝ) :
    ∑ i, ∑ j ∈ Ioi i, (c i * x j + x i * c j) * W i j = ∑ i, c i * lin W x i := by
  simp only [add_mul, sum_add_distrib, lin, mul_add]
  rw [add_comm]
  congr 1
  · rw [sum_swap]
    refine sum_congr rfl fun i _ => ?_
    rw [mul_sum]
    refine sum_congr rfl fun j _ => ?_
    rw [hW j i]; ring
  · refine sum_congr rfl fun i _ => ?_
    rw [mul_sum]
    refine sum_congr rfl fun j _ => ?_
    ring

theorem euler_quad (hW : ∀ i j, W i j = W j i) (x : Fin 19 → ℝ) :
    ∑ i, x i * lin W x i = 2 * quad W x := by
  rw [← polar hW, quad, mul_sum]
  refine sum_congr rfl fun i _ => ?_
  rw [mul_sum]
  refine sum_congr rfl fun j _ => ?_
  ring

theorem quad_deriv (hW : ∀ i j, W i j = W j i) {x : ℝ → Fin 19 → ℝ} {c : Fin 19 → ℝ} {y : ℝ}
    (hx : ∀ i, HasDerivAt (fun h => x h i) (c i) y) :
    HasDerivAt (fun h => quad W (x h)) (∑ i, c i * lin W (x y) i) y := by
  rw [← polar hW]
  unfold quad
  refine HasDerivAt.fun_sum fun i _ => HasDerivAt.fun_sum fun j _ => ?_
  exact ((hx i).mul (hx j)).mul_const _

/-- How the mole fractions change with an independent one. -/
def dir (j : Fin 18) : Fin 19 → ℝ := Fin.cons (-1) fun i => if i = j then 1 else 0

theorem frac_deriv (r : Fin 18 → ℝ) (j : Fin 18) (i : Fin 19) :
    HasDerivAt (fun h => frac (bump r j h) i) (dir j i) 0 := by
  have hb : ∀ k, HasDerivAt (fun h => bump r j h k) (if k = j then 1 else 0) 0 := by
    intro k
    unfold bump
    split_ifs
    · exact (hasDerivAt_id' (0 : ℝ)).const_add (r k)
    · exact hasDerivAt_const _ _
  refine Fin.cases ?_ (fun k => ?_) i
  · simp only [frac, dir, Fin.cons_zero]
    refine ((HasDerivAt.fun_sum fun k _ => hb k).const_sub 1).congr_deriv ?_
    simp
  · simpa only [frac, dir, Fin.cons_succ] using hb k

theorem sum_dir (j : Fin 18) (f : Fin 19 → ℝ) : ∑ i, dir j i * f i = f j.succ - f 0 := by
  rw [Fin.sum_univ_succ]
  simp [dir]
  ring

theorem lin_eq (W : Fin 19 → Fin 19 → ℝ) (x : Fin 19 → ℝ) (i : Fin 19) :
    lin W x i = ∑ j, if i = j then 0 else W i j * x j := by
  have h : ∀ j, (if i = j then 0 else W i j * x j) =
      (if j < i then W i j * x j else 0) + (if i < j then W i j * x j else 0) := by
    intro j
    rcases lt_trichotomy i j with h | h | h
    · simp [h, h.ne, h.not_gt]
    · simp [h]
    · simp [h, h.ne', h.not_gt]
  simp only [h, sum_add_distrib, lin, ← sum_filter]
  congr 2 <;> ext j <;> simp

theorem dquad_eq (hW : ∀ i j, W i j = W j i) (r : Fin 18 → ℝ) (i : Fin 18) :
    dquad W r i = lin W (frac r) i.succ - lin W (frac r) 0 := by
  rw [lin_eq, lin_eq, Fin.sum_univ_succ, Fin.sum_univ_succ (f := fun j => if (0 : Fin 19) = j then _ else _)]
  simp only [dquad, frac, Fin.cons_zero, Fin.cons_succ, if_true, Fin.succ_inj, (Fin.succ_ne_zero _).symm,
    Fin.succ_ne_zero, if_false, zero_add]
  rw [add_sub_assoc, ← sum_sub_distrib, hW i.succ 0, mul_comm]
  congr 1
  refine sum_congr rfl fun j _ => ?_
  by_cases h : i = j <;> simp only [h, ne_eq, not_true, not_false_iff, if_true, if_false] <;> ring

theorem lin_deriv {x : ℝ → Fin 19 → ℝ} {c : Fin 19 → ℝ} {y : ℝ}
    (hx : ∀ i, HasDerivAt (fun h => x h i) (c i) y) (i : Fin 19) :
    HasDerivAt (fun h => lin W (x h) i) (lin W c i) y := by
  unfold lin
  exact (HasDerivAt.fun_sum fun j _ => (hx j).const_mul _).add
    (HasDerivAt.fun_sum fun j _ => (hx j).const_mul _)

theorem lin_dir (i : Fin 19) (j : Fin 18) :
    lin W (dir j) i = (if i = j.succ then 0 else W i j.succ) - if i = 0 then 0 else W i 0 := by
  rw [lin_eq]
  have : ∀ k, (if i = k then 0 else W i k * dir j k) = dir j k * if i = k then 0 else W i k := by
    intro k; split_ifs <;> ring
  simp only [this, sum_dir]

theorem sum_frac (r : Fin 18 → ℝ) : ∑ i, frac r i = 1 := by
  rw [Fin.sum_univ_succ]; simp [frac]

/-- The ideal part of the Gibbs energy, in units of `R T`. -/
def ideal (x : Fin 19 → ℝ) : ℝ :=
  ∑ i, x i * Real.log (x i) + (x w * Real.log (x w) + (1 - x w) * Real.log (1 - x w))

theorem gmix_eq (t p : ℝ) (r : Fin 18 → ℝ) :
    gmix T t p r = quad (WG T t p) (frac r) + R * t * ideal (frac r) := by
  have h1 : ∀ i, (if frac r i ≠ 0 then R * t * frac r i * Real.log (frac r i) else 0) =
      R * t * (frac r i * Real.log (frac r i)) := by
    intro i; split_ifs with h
    · ring
    · rw [not_not.1 h]; ring
  have h2 : (if frac r w ≠ 0 then
      R * t * (frac r w * Real.log (frac r w) + (1 - frac r w) * Real.log (1 - frac r w)) else 0) =
      R * t * (frac r w * Real.log (frac r w) + (1 - frac r w) * Real.log (1 - frac r w)) := by
    split_ifs with h
    · rfl
    · rw [not_not.1 h]; simp
  simp only [gmix, h1, h2, ideal, ← mul_sum]
  ring

theorem smix_eq (t p : ℝ) (r : Fin 18 → ℝ) :
    smix T t p r = quad (WS T) (frac r) - R * ideal (frac r) := by
  have h1 : ∀ i, (if frac r i ≠ 0 then -R * frac r i * Real.log (frac r i) else 0) =
      -R * (frac r i * Real.log (frac r i)) := by
    intro i; split_ifs with h
    · ring
    · rw [not_not.1 h]; ring
  have h2 : (if frac r w ≠ 0 then
      -R * (frac r w * Real.log (frac r w) + (1 - frac r w) * Real.log (1 - frac r w)) else 0) =
      -R * (frac r w * Real.log (frac r w) + (1 - frac r w) * Real.log (1 - frac r w)) := by
    split_ifs with h
    · rfl
    · rw [not_not.1 h]; simp
  simp only [smix, h1, h2, ideal, ← mul_sum]
  ring

/-- Absent components may stay absent. -/
theorem ideal_deriv {x : ℝ → Fin 19 → ℝ} {c : Fin 19 → ℝ} {y : ℝ}
    (hx : ∀ i, HasDerivAt (fun h => x h i) (c i) y)
    (h0 : ∀ i, x y i ≠ 0 ∨ (∀ h, x h i = 0) ∧ c i = 0) (hw : 1 - x y w ≠ 0) :
    HasDerivAt (fun h => ideal (x h)) (∑ i, c i * (Real.log (x y i) + 1)
      + c w * (Real.log (x y w) - Real.log (1 - x y w))) y := by
  have hl : ∀ i, HasDerivAt (fun h => x h i * Real.log (x h i)) (c i * (Real.log (x y i) + 1)) y := by
    intro i
    rcases h0 i with h | ⟨h, hc⟩
    · refine ((hx i).mul ((hx i).log h)).congr_deriv ?_
      field_simp
    · simp only [h, hc, zero_mul]
      exact hasDerivAt_const _ _
  have h1 : HasDerivAt (fun h => (1 - x h w) * Real.log (1 - x h w))
      (-c w * (Real.log (1 - x y w) + 1)) y := by
    refine (((hx w).const_sub 1).mul (((hx w).const_sub 1).log hw)).congr_deriv ?_
    field_simp
    ring
  unfold ideal
  refine ((HasDerivAt.fun_sum fun i _ => hl i).add ((hl w).add h1)).congr_deriv ?_
  ring

theorem dir_w (j : Fin 18) : dir j w = if j = Fin.last 17 then 1 else 0 := by
  have : w = (Fin.last 17).succ := rfl
  rw [this, dir, Fin.cons_succ]
  simp only [eq_comm]

theorem frac_bump_absent {r : Fin 18 → ℝ} {j : Fin 18} (h0 : frac r 0 ≠ 0) (hj : r j ≠ 0) (i : Fin 19) :
    frac (bump r j 0) i ≠ 0 ∨ (∀ h, frac (bump r j h) i = 0) ∧ dir j i = 0 := by
  rw [bump_zero]
  refine Fin.cases (Or.inl h0) (fun k => ?_) i
  by_cases hk : r k = 0
  · right
    have : k ≠ j := fun e => hj (e ▸ hk)
    simp [frac, bump, dir, hk, this]
  · left
    simpa [frac] using hk

theorem frac_w (r : Fin 18 → ℝ) : frac r w = r (Fin.last 17) := rfl

/-- The gradient of the ideal part. -/
theorem ideal_partial {r : Fin 18 → ℝ} {j : Fin 18} (h0 : frac r 0 ≠ 0) (hj : r j ≠ 0)
    (hw : 1 - frac r w ≠ 0) : HasDerivAt (fun h => ideal (frac (bump r j h)))
      (Real.log (r j) - Real.log (frac r 0)
        + if j = Fin.last 17 then Real.log (frac r w) - Real.log (1 - frac r w) else 0) 0 := by
  refine (ideal_deriv (frac_deriv r j) (frac_bump_absent h0 hj) (by rwa [bump_zero])).congr_deriv ?_
  rw [sum_dir, dir_w, bump_zero]
  simp only [frac, Fin.cons_succ]
  split_ifs <;> ring

theorem quad_partial (hW : ∀ i j, W i j = W j i) (r : Fin 18 → ℝ) (j : Fin 18) :
    HasDerivAt (fun h => quad W (frac (bump r j h))) (dquad W r j) 0 := by
  refine (quad_deriv hW (frac_deriv r j)).congr_deriv ?_
  rw [sum_dir, bump_zero, dquad_eq hW]

theorem dquad_partial (hW : ∀ i j, W i j = W j i) (r : Fin 18 → ℝ) (i j : Fin 18) :
    HasDerivAt (fun h => dquad W (bump r j h) i)
      (-W 0 i.succ - W 0 j.succ + if i ≠ j then W i.succ j.succ else 0) 0 := by
  simp only [dquad_eq hW]
  refine ((lin_deriv (frac_deriv r j) i.succ).sub (lin_deriv (frac_deriv r j) 0)).congr_deriv ?_
  rw [lin_dir, lin_dir, hW i.succ 0]
  by_cases h : i = j
  · simp [h, Fin.succ_ne_zero, (Fin.succ_ne_zero _).symm]
  · simp [h, Fin.succ_ne_zero, (Fin.succ_ne_zero _).symm]
    ring

theorem r_bump (r : Fin 18 → ℝ) (i j : Fin 18) :
    HasDerivAt (fun h => bump r j h i) (if i = j then 1 else 0) 0 := by
  have := frac_deriv r j i.succ
  simpa only [frac, dir, Fin.cons_succ] using this

theorem quad_lin (a b : ℝ) (V W : Fin 19 → Fin 19 → ℝ) (x : Fin 19 → ℝ) :
    quad (fun i j => a * V i j + b * W i j) x = a * quad V x + b * quad W x := by
  simp only [quad, mul_sum, ← sum_add_distrib]
  refine sum_congr rfl fun i _ => sum_congr rfl fun j _ => ?_
  ring

theorem quad_WG (t p : ℝ) (x : Fin 19 → ℝ) :
    quad (WG T t p) x = quad (WH T) x - t * quad (WS T) x + (p - 1) * quad (WV T) x := by
  simp only [quad, WG, mul_sum, ← sum_add_distrib, ← sum_sub_distrib]
  refine sum_congr rfl fun i _ => sum_congr rfl fun j _ => ?_
  ring

/-! ## The properties -/

/-- **C65**: for each pair of components the program looks up the row of the table that was written for
that pair, in both tables. -/
theorem C65_index (i j : Fin 19) (h : i < j) :
    meltsNames[index i j]? = some (meltsLabels[j]'(by simp [meltsLabels]), meltsLabels[i]'(by simp [meltsLabels])) ∧
    pMeltsNames[index i j]? = some (pMeltsLabels[j]'(by simp [pMeltsLabels]), pMeltsLabels[i]'(by simp [pMeltsLabels])) := by
  revert i j
  decide +kernel

/-- **C65**: entropy and volume of mixing are the derivatives of the Gibbs energy of mixing, the enthalpy
is `G + T S`, and entropy and volume do not depend on temperature and pressure, as the zeros reported for
the heat capacity and for the derivatives of the volume say.  At every composition. -/
theorem C65_thermodynamics (t p : ℝ) (r : Fin 18 → ℝ) :
    HasDerivAt (fun t => gmix T t p r) (-smix T t p r) t ∧
    HasDerivAt (fun p => gmix T t p r) (vmix T t p r) p ∧
    hmix T t p r = gmix T t p r + t * smix T t p r ∧
    HasDerivAt (fun t => hmix T t p r) (cpmix t p r) t ∧
    HasDerivAt (fun t => smix T t p r) 0 t ∧ HasDerivAt (fun p => smix T t p r) 0 p ∧
    HasDerivAt (fun t => vmix T t p r) 0 t ∧ HasDerivAt (fun p => vmix T t p r) 0 p := by
  refine ⟨?_, ?_, ?_, hasDerivAt_const _ _, hasDerivAt_const _ _, hasDerivAt_const _ _,
    hasDerivAt_const _ _, hasDerivAt_const _ _⟩
  · simp only [gmix_eq, quad_WG, smix_eq]
    refine (((((hasDerivAt_id' t).mul_const (quad (WS T) (frac r))).const_sub
      (quad (WH T) (frac r))).add_const ((p - 1) * quad (WV T) (frac r))).add
      (((hasDerivAt_id' t).const_mul R).mul_const (ideal (frac r)))).congr_deriv ?_
    ring
  · simp only [gmix_eq, quad_WG, vmix]
    refine (((((hasDerivAt_id' p).sub_const 1).mul_const (quad (WV T) (frac r))).const_add
      (quad (WH T) (frac r) - t * quad (WS T) (frac r))).add_const
      (R * t * ideal (frac r))).congr_deriv ?_
    ring
  · have := quad_lin 1 (p - 1) (WH T) (WV T) (frac r)
    simp only [one_mul] at this
    rw [hmix, this, gmix_eq, smix_eq, quad_WG]
    ring

/-- A liquid of silica, forsterite and water, with the other components absent. -/
example : ∃ r : Fin 18 → ℝ, (∀ i, 0 ≤ frac r i) ∧ 0 < frac r 0 ∧ 0 < r 6 ∧ 0 < r 17 ∧ frac r w < 1 ∧ r 0 = 0 := by
  obtain ⟨r, hr⟩ : ∃ r : Fin 18 → ℝ, r = fun i => (if i = 6 then 1 / 4 else 0) + if i = 17 then 1 / 4 else 0 :=
    ⟨_, rfl⟩
  have h0 : frac r 0 = 1 / 2 := by
    simp only [frac, Fin.cons_zero, hr, sum_add_distrib, sum_ite_eq', mem_univ, if_true]
    norm_num
  have h17 : r 17 = 1 / 4 := by rw [hr]; simp
  have h6 : r 6 = 1 / 4 := by rw [hr]; simp
  have hk : ∀ k, 0 ≤ r k := fun k => by
    rw [hr]; dsimp only; split_ifs <;> norm_num
  have hw : frac r w = r 17 := rfl
  exact ⟨r, fun i => Fin.cases (by rw [h0]; norm_num) hk i, by rw [h0]; norm_num, by rw [h6]; norm_num,
    by rw [h17]; norm_num, by rw [hw, h17]; norm_num, by rw [hr]; simp⟩

/-- **C65**: the reported gradients in composition are the derivatives, in every component that is
present; other components may be absent. -/
theorem C65_gradient (t p : ℝ) {r : Fin 18 → ℝ} {j : Fin 18} (h0 : 0 < frac r 0) (hj : 0 < r j)
    (hw : frac r w < 1) : Partial (gmix T t p) r j (dgmix T t p r j) ∧
    Partial (smix T t p) r j (dsmix T t p r j) ∧ Partial (vmix T t p) r j (dvmix T t p r j) := by
  have hi := ideal_partial h0.ne' hj.ne' (sub_pos.2 hw).ne'
  have hrw : j = Fin.last 17 → frac r w ≠ 0 := fun e => by rw [frac_w, ← e]; exact hj.ne'
  refine ⟨?_, ?_, quad_partial (fun i j => by simp only [WV, index_symm i j]) r j⟩
  · unfold Partial
    simp only [gmix_eq]
    refine ((quad_partial (WG_symm T t p) r j).add (hi.const_mul (R * t))).congr_deriv ?_
    simp only [dgmix, hj.ne', ne_eq, not_false_iff, if_true]
    by_cases e : j = Fin.last 17
    · simp only [e, if_true, hrw e, not_false_iff]
      ring
    · simp only [e, if_false]
      ring
  · unfold Partial
    simp only [smix_eq]
    refine ((quad_partial (fun i j => by simp only [WS, index_symm i j]) r j).sub
      (hi.const_mul R)).congr_deriv ?_
    simp only [dsmix, hj.ne', ne_eq, not_false_iff, if_true]
    by_cases e : j = Fin.last 17
    · simp only [e, if_true, hrw e, not_false_iff]
      ring
    · simp only [e, if_false]
      ring

/-- **C65**: the reported second derivatives are the derivatives of the reported gradients. -/
theorem C65_hessian (t p : ℝ) {r : Fin 18 → ℝ} {i j : Fin 18} (h0 : 0 < frac r 0) (hi : 0 < r i)
    (hj : 0 < r j) (hw : frac r w < 1) :
    Partial (fun r => dgmix T t p r i) r j (d2gmix T t p r i j) ∧
    Partial (fun r => dsmix T t p r i) r j (d2smix T t p r i j) ∧
    Partial (fun r => dvmix T t p r i) r j (d2vmix T t p r i j) := by
  have hri : HasDerivAt (fun h => Real.log (bump r j h i)) ((if i = j then 1 else 0) / r i) 0 := by
    have := (r_bump r i j).log (by rw [bump_zero]; exact hi.ne')
    rwa [bump_zero] at this
  have hr0 : HasDerivAt (fun h => Real.log (frac (bump r j h) 0)) (-1 / frac r 0) 0 := by
    have := (frac_deriv r j 0).log (by rw [bump_zero]; exact h0.ne')
    rw [bump_zero] at this
    simpa [dir] using this
  have hne : ∀ᶠ h in nhds (0 : ℝ), bump r j h i ≠ 0 :=
    (r_bump r i j).continuousAt.eventually_ne (by rw [bump_zero]; exact hi.ne')
  have hrw : i = Fin.last 17 → frac r w ≠ 0 := fun e => by rw [frac_w, ← e]; exact hi.ne'
  have hww : i = Fin.last 17 → HasDerivAt (fun h => Real.log (frac (bump r j h) w)
      - Real.log (1 - frac (bump r j h) w))
      (if j = Fin.last 17 then 1 / frac r w + 1 / (1 - frac r w) else 0) 0 := by
    intro e
    have h1 := (frac_deriv r j w).log (by rw [bump_zero]; exact hrw e)
    have h2 := ((frac_deriv r j w).const_sub 1).log (by rw [bump_zero]; exact (sub_pos.2 hw).ne')
    rw [bump_zero, dir_w] at h1 h2
    refine (h1.sub h2).congr_deriv ?_
    split_ifs <;> ring
  refine ⟨?_, ?_, dquad_partial (fun i j => by simp only [WV, index_symm i j]) r i j⟩
  · have hd := ((hri.sub hr0).const_mul (R * t)).add (dquad_partial (WG_symm T t p) r i j)
    unfold Partial
    by_cases e : i = Fin.last 17
    · refine ((hd.add ((hww e).const_mul (R * t))).congr_of_eventuallyEq ?_).congr_deriv ?_
      · filter_upwards [hne] with h hh
        have : frac (bump r j h) w ≠ 0 := by rw [frac_w, ← e]; exact hh
        simp only [dgmix, hh, ne_eq, not_false_iff, if_true, this]
        rw [if_pos e]
        simp
      · simp only [d2gmix, e, true_and, hrw e, ne_eq, not_false_iff, if_true]
        rw [e] at hi
        by_cases e' : j = Fin.last 17
        · simp only [e', if_true, hi.ne', not_true, not_false_iff, if_false]
          ring
        · simp only [e', Ne.symm e', if_false, not_false_iff, if_true]
          ring
    · refine (hd.congr_of_eventuallyEq ?_).congr_deriv ?_
      · filter_upwards [hne] with h hh
        simp only [dgmix, hh, ne_eq, not_false_iff, if_true, e, if_false]
        simp
      · simp only [d2gmix, e, false_and, if_false]
        by_cases e' : i = j
        · simp only [e', if_true, hj.ne', ne_eq, not_true, not_false_iff, if_false]
          ring
        · simp only [e', if_false, ne_eq, not_false_iff, if_true]
          ring
  · have hd := ((hr0.sub hri).const_mul R).add
      (dquad_partial (W := WS T) (fun i j => by simp only [WS, index_symm i j]) r i j)
    unfold Partial
    by_cases e : i = Fin.last 17
    · refine ((hd.add ((hww e).const_mul (-R))).congr_of_eventuallyEq ?_).congr_deriv ?_
      · filter_upwards [hne] with h hh
        have : frac (bump r j h) w ≠ 0 := by rw [frac_w, ← e]; exact hh
        simp only [dsmix, hh, ne_eq, not_false_iff, if_true, this]
        rw [if_pos e]
        simp
      · simp only [d2smix, e, true_and, hrw e, ne_eq, not_false_iff, if_true]
        rw [e] at hi
        by_cases e' : j = Fin.last 17
        · simp only [e', if_true, hi.ne', not_true, not_false_iff, if_false]
          ring
        · simp only [e', Ne.symm e', if_false, not_false_iff, if_true]
          ring
    · refine (hd.congr_of_eventuallyEq ?_).congr_deriv ?_
      · filter_upwards [hne] with h hh
        simp only [dsmix, hh, ne_eq, not_false_iff, if_true, e, if_false]
        simp
      · simp only [d2smix, e, false_and, if_false]
        by_cases e' : i = j
        · simp only [e', if_true, hj.ne', ne_eq, not_true, not_false_iff, if_false]
          ring
        · simp only [e', if_false, ne_eq, not_false_iff, if_true]
          ring

/-- The second factor of the ideal activity: the anhydrous fraction, or water itself. -/
def fac (x : Fin 19 → ℝ) (i : Fin 19) : ℝ := if i = w then x w else 1 - x w

theorem mu_eq (t p : ℝ) (r : Fin 18 → ℝ) (i : Fin 19) (hi : frac r i ≠ 0) :
    mu T t p r i = -quad (WG T t p) (frac r) + lin (WG T t p) (frac r) i
      + R * t * (Real.log (frac r i) + Real.log (fac (frac r) i)) := by
  by_cases e : i = w
  · subst e
    simp only [mu, fac, hi, ne_eq, not_true, not_false_iff, if_true, if_false]
    ring
  · simp only [mu, fac, hi, e, ne_eq, not_false_iff, if_true, if_false]
    ring

theorem act_eq (t p : ℝ) (r : Fin 18 → ℝ) (i : Fin 19) :
    act T t p r i = fac (frac r) i * (frac r i *
      Real.exp ((-quad (WG T t p) (frac r) + lin (WG T t p) (frac r) i) / (R * t))) := by
  have h : (if frac r i ≠ 0 then frac r i *
      Real.exp ((-quad (WG T t p) (frac r) + lin (WG T t p) (frac r) i) / (R * t)) else 0) =
      frac r i * Real.exp ((-quad (WG T t p) (frac r) + lin (WG T t p) (frac r) i) / (R * t)) := by
    split_ifs with h
    · rfl
    · rw [not_not.1 h, zero_mul]
  simp only [act, h, fac]
  by_cases e : i = w <;> simp [e]

/-- **C65**: Euler's relation.  The chemical potentials weighted by the mole fractions add up to the Gibbs
energy of mixing, whatever the composition. -/
theorem C65_euler (t p : ℝ) (r : Fin 18 → ℝ) :
    ∑ i, frac r i * mu T t p r i = gmix T t p r := by
  have h : ∀ i, frac r i * mu T t p r i = -quad (WG T t p) (frac r) * frac r i
      + frac r i * lin (WG T t p) (frac r) i + R * t * (frac r i * Real.log (frac r i))
      + R * t * (frac r i * Real.log (fac (frac r) i)) := by
    intro i
    by_cases hi : frac r i = 0
    · rw [hi]; ring
    · rw [mu_eq T t p r i hi]; ring
  have h2 : ∑ i, frac r i * Real.log (fac (frac r) i) =
      frac r w * Real.log (frac r w) + (1 - frac r w) * Real.log (1 - frac r w) := by
    have : ∀ i, frac r i * Real.log (fac (frac r) i) = frac r i * Real.log (1 - frac r w)
        + if i = w then frac r w * Real.log (frac r w) - frac r w * Real.log (1 - frac r w) else 0 := by
      intro i
      unfold fac
      split_ifs with e
      · rw [e]; ring
      · ring
    simp only [this, sum_add_distrib, ← sum_mul, sum_frac, sum_ite_eq', mem_univ, if_true]
    ring
  simp only [h, sum_add_distrib, ← mul_sum, sum_frac, h2]
  rw [euler_quad (WG_symm T t p), gmix_eq, ideal]
  ring

/-- **C65**: for a liquid of `m i` moles of each component that is not pure water, the chemical potential
of a component that is present is the derivative of the total Gibbs energy of mixing in its moles. -/
theorem C65_potential (t p : ℝ) (m : Fin 19 → ℝ) (hm : ∀ i, 0 ≤ m i) (hw : m w < ∑ i, m i)
    {i : Fin 19} (hi : 0 < m i) :
    Partial (fun m => (∑ i, m i) * gmix T t p (fun k => m k.succ / ∑ i, m i)) m i
      (mu T t p (fun k => m k.succ / ∑ i, m i) i) := by
  have hN : 0 < ∑ i, m i := (hm w).trans_lt hw
  have hf : ∀ m : Fin 19 → ℝ, 0 < ∑ i, m i → ∀ k, frac (fun k => m k.succ / ∑ i, m i) k = m k / ∑ i, m i := by
    intro m hN k
    refine Fin.cases ?_ (fun k => rfl) k
    simp only [frac, Fin.cons_zero, ← sum_div]
    rw [eq_div_iff hN.ne', sub_mul, div_mul_cancel₀ _ hN.ne', one_mul]
    conv_lhs => rw [Fin.sum_univ_succ]
    ring
  set N := ∑ i, m i with hNdef
  set x : Fin 19 → ℝ := fun k => m k / N with hx
  have hmb : ∀ k, HasDerivAt (fun h => bump m i h k) (if k = i then 1 else 0) 0 := by
    intro k
    unfold bump
    split_ifs
    · exact (hasDerivAt_id' (0 : ℝ)).const_add (m k)
    · exact hasDerivAt_const _ _
  have hNb : HasDerivAt (fun h => ∑ k, bump m i h k) 1 0 := by
    refine (HasDerivAt.fun_sum fun k _ => hmb k).congr_deriv ?_
    simp
  have hxb : ∀ k, HasDerivAt (fun h => bump m i h k / ∑ k, bump m i h k)
      (((if k = i then 1 else 0) - x k) / N) 0 := by
    intro k
    refine ((hmb k).div hNb (by rw [bump_zero]; exact hN.ne')).congr_deriv ?_
    rw [bump_zero, ← hNdef, hx]
    field_simp
  have hq := quad_deriv (WG_symm T t p) hxb
  have hid := ideal_deriv hxb (fun k => ?_) ?_
  · have hg : (fun h => (∑ k, bump m i h k) * (quad (WG T t p) (fun k => bump m i h k / ∑ k, bump m i h k)
        + R * t * ideal (fun k => bump m i h k / ∑ k, bump m i h k))) =ᶠ[nhds 0]
        fun h => (∑ k, bump m i h k) * gmix T t p (fun k => bump m i h k.succ / ∑ k, bump m i h k) := by
      have : ∀ᶠ h in nhds (0:ℝ), 0 < ∑ k, bump m i h k :=
        hNb.continuousAt.eventually (lt_mem_nhds (by simpa only [bump_zero] using hN))
      filter_upwards [this] with h hh
      rw [gmix_eq]
      have : frac (fun k => bump m i h k.succ / ∑ k, bump m i h k)
          = fun k => bump m i h k / ∑ k, bump m i h k := funext (hf _ hh)
      rw [this]
    refine ((hNb.mul (hq.add (hid.const_mul (R * t)))).congr_of_eventuallyEq hg.symm).congr_deriv ?_
    have hfx : frac (fun k => m k.succ / N) = x := funext (hf m hN)
    rw [mu_eq T t p _ i (by rw [hf m hN]; exact (div_pos hi hN).ne'), hfx]
    simp only [bump_zero, Pi.add_apply]
    rw [← hNdef]
    change 1 * (quad (WG T t p) x + R * t * ideal x) + N * (∑ k, ((if k = i then 1 else 0) - x k) / N
      * lin (WG T t p) x k + R * t * (∑ k, ((if k = i then 1 else 0) - x k) / N * (Real.log (x k) + 1)
      + ((if w = i then 1 else 0) - x w) / N * (Real.log (x w) - Real.log (1 - x w)))) = _
    have e : ∀ f : Fin 19 → ℝ, ∑ k, ((if k = i then 1 else 0) - x k) / N * f k =
        (f i - ∑ k, x k * f k) / N := by
      intro f
      rw [eq_div_iff hN.ne', sum_mul]
      have : ∀ k, ((if k = i then 1 else 0) - x k) / N * f k * N =
          (if k = i then f k else 0) - x k * f k := by
        intro k
        have := hN.ne'
        split_ifs <;> field_simp <;> ring
      simp only [this, sum_sub_distrib, sum_ite_eq', mem_univ, if_true]
    have hs : ∑ k, x k = 1 := by rw [← hfx]; exact sum_frac _
    rw [e, e, euler_quad (WG_symm T t p), ideal, fac]
    simp only [mul_add, sum_add_distrib, mul_one, hs]
    have := hN.ne'
    by_cases ew : i = w
    · subst ew
      simp only [if_true]
      field_simp
      ring
    · simp only [ew, Ne.symm ew, if_false]
      field_simp
      ring
  · by_cases hk : m k = 0
    · right
      have hki : k ≠ i := fun e => hi.ne' (e ▸ hk)
      simp [bump, hk, hki, hx]
    · left
      rw [bump_zero]
      exact div_ne_zero hk hN.ne'
  · rw [bump_zero]
    have : m w / ∑ i, m i < 1 := (div_lt_one hN).2 hw
    exact (sub_pos.2 this).ne'

/-- **C65**: the activity of a component that is present is positive and `R T ln a = μ`; that of an absent
component is zero. -/
theorem C65_activity {t : ℝ} (p : ℝ) (ht : 0 < t) {r : Fin 18 → ℝ} (hr : ∀ i, 0 ≤ frac r i)
    (hw : frac r w < 1) (i : Fin 19) :
    (0 < frac r i → 0 < act T t p r i ∧ R * t * Real.log (act T t p r i) = mu T t p r i) ∧
    (frac r i = 0 → act T t p r i = 0) := by
  refine ⟨fun h => ?_, fun h => by rw [act_eq, h]; ring⟩
  have hf : 0 < fac (frac r) i := by
    unfold fac; split_ifs with e
    · exact e ▸ h
    · exact sub_pos.2 hw
  have hR := R_pos
  rw [act_eq, mu_eq T t p r i h.ne', Real.log_mul hf.ne' (by positivity), Real.log_mul h.ne'
    (Real.exp_ne_zero _), Real.log_exp]
  refine ⟨by positivity, ?_⟩
  field_simp
  ring

/-- **C65**: the reported derivatives of the activities are their derivatives, for every component, in
every component that is present. -/
theorem C65_activity_derivative {t : ℝ} (p : ℝ) (ht : 0 < t) {r : Fin 18 → ℝ} {j : Fin 18}
    (h0 : 0 < frac r 0) (hj : 0 < r j) (hw : frac r w < 1) (i : Fin 19) :
    Partial (fun r => act T t p r i) r j (dact T t p r i j) := by
  have hR := R_pos
  have hf := frac_deriv r j
  have hq := quad_partial (WG_symm T t p) r j
  have hl := lin_deriv (W := WG T t p) hf i
  have hfac : HasDerivAt (fun h => fac (frac (bump r j h)) i) (if i = w then dir j w else -dir j w) 0 := by
    unfold fac
    split_ifs
    · exact hf w
    · exact (hf w).const_sub 1
  have hd := hfac.mul ((hf i).mul ((hq.neg.add hl).div_const (R * t)).exp)
  unfold Partial
  simp only [act_eq]
  refine hd.congr_deriv ?_
  simp only [Pi.add_apply, Pi.neg_apply, Pi.mul_apply, bump_zero]
  rw [lin_dir, dir_w]
  unfold dact
  simp only [act_eq]
  set E := Real.exp ((-quad (WG T t p) (frac r) + lin (WG T t p) (frac r) i) / (R * t))
  set Q := dquad (WG T t p) r j
  have hw' := (sub_pos.2 hw).ne'
  have hlast : w = (Fin.last 17).succ := rfl
  rcases Fin.eq_zero_or_eq_succ i with rfl | ⟨k, rfl⟩
  · have hne : (0 : Fin 19) ≠ w := by decide
    by_cases e : j = Fin.last 17
    · simp only [fac, hne, e, if_true, if_false, (Fin.succ_ne_zero _).symm, dir, Fin.cons_zero]
      field_simp
      ring
    · simp only [fac, hne, e, if_true, if_false, (Fin.succ_ne_zero _).symm, dir, Fin.cons_zero]
      field_simp
      ring
  · have hk : frac r k.succ = r k := rfl
    have hdk : dir j k.succ = if k = j then 1 else 0 := rfl
    simp only [hk, hdk, Fin.succ_ne_zero, if_false, WG_symm T t p k.succ 0, Fin.succ_inj, fac]
    by_cases e : j = Fin.last 17
    · by_cases ek : k = Fin.last 17
      · subst ek; subst e
        have : frac r w = r (Fin.last 17) := rfl
        simp only [← hlast, if_true, this, hj.ne', ne_eq, not_false_iff, not_true, false_and, true_and,
          if_false]
        field_simp
        ring
      · have hkw : k.succ ≠ w := fun h => ek (Fin.succ_injective _ (h.trans hlast))
        have hkj : k ≠ j := fun h => ek (h.trans e)
        simp only [e, hkw, ek, ne_eq, not_false_iff, if_true, if_false, true_and]
        field_simp
        ring
    · by_cases ek : k = j
      · subst ek
        have hkw : k.succ ≠ w := fun h => e (Fin.succ_injective _ (h.trans hlast))
        simp only [e, hkw, ne_eq, not_false_iff, if_true, if_false, true_and, hj.ne', and_false,
          false_and]
        field_simp
        ring
      · by_cases hkw : k.succ = w
        · simp only [e, hkw, ek, ne_eq, not_false_iff, if_true, if_false, true_and, and_false,
            false_and]
          field_simp
          ring
        · simp only [e, hkw, ek, ne_eq, not_false_iff, if_true, if_false, true_and, and_false,
            false_and]
          field_simp
          ring

end

end Magma.Thermo.Liquid34
