import Verif.Thermo.Water.HaarProps
import Verif.Thermo.StdState

/-!
# Pure H2O and pure CO2 in the mixed fluid

Model of the pure-species part of `sources/fluidPhase.c`, the equation of state of Duan and Zhang
(2006): the coefficients (31-127), the ideal gas (1330-1380), the drivers `duanH2ODriver` (1814-1962) and
`duanCO2Driver` (1985-2133), which are the same text up to the name of the species, the functions
`duanH2O` (1964-1983) and `duanCO2` (2135-2154) that join the two sets of coefficients at 2000 bar, and
`propertiesOfPureH2O` / `propertiesOfPureCO2` (2161-2207), which `gibbs.c` calls at 1072, 2378 and 2381.

Simplification, everywhere in this file: a repeated quotient `a/v/v/v` is written `a / v ^ 3`, and
doubles are real numbers.
-/

namespace Verif.Thermo.Fluid

open Verif.Thermo.StdState (Std)

/-- The constants of one species in one pressure range (`fluidPhase.c` 31-103): `a1` … `a12`, `a`, `b`
(the code's beta), `c` (the code's gamma), the critical temperature and pressure. -/
structure Coef where
  a1 : ℝ
  a2 : ℝ
  a3 : ℝ
  a4 : ℝ
  a5 : ℝ
  a6 : ℝ
  a7 : ℝ
  a8 : ℝ
  a9 : ℝ
  a10 : ℝ
  a11 : ℝ
  a12 : ℝ
  a : ℝ
  b : ℝ
  c : ℝ
  tc : ℝ
  pc : ℝ

/-- The species: `H2O` is index 0 and `CO2` index 1 (`fluidPhase.c` 106-107). -/
inductive Species
  | h2o
  | co2
  deriving DecidableEq

/-- `fluidPhase.c` 31-92 (the four tables) and 96-97, 102-103 (critical constants); `low` is the
argument `useLowPcoeff`. -/
noncomputable def coef : Species → Bool → Coef
  | .h2o, true => ⟨4.38269941e-2, -1.68244362e-1, -2.36923373e-1, 1.13027462e-2, -7.67764181e-2,
      9.71820593e-2, 6.62674916e-5, 1.06637349e-3, -1.23265258e-3, -8.93953948e-6, -3.88124606e-5,
      5.61510206e-5, 7.51274488e-3, 2.51598931, 3.94e-2, 647.25, 221.19⟩
  | .co2, true => ⟨1.14400435e-1, -9.38526684e-1, 7.21857006e-1, 8.81072902e-3, 6.36473911e-2,
      -7.70822213e-2, 9.01506064e-4, -6.81834166e-3, 7.32364258e-3, -1.10288237e-4, 1.26524193e-3,
      -1.49730823e-3, 7.81940730e-3, -4.22918013, 1.585e-1, 304.1282, 73.773⟩
  | .h2o, false => ⟨4.68071541e-2, -2.81275941e-1, -2.43926365e-1, 1.10016958e-2, -3.86603525e-2,
      9.30095461e-2, -1.15747171e-5, 4.19873848e-4, -5.82739501e-4, 1.00936000e-6, -1.01713593e-5,
      1.63934213e-5, -4.49505919e-2, -3.15028174e-1, 1.25e-2, 647.25, 221.19⟩
  | .co2, false => ⟨5.72573440e-3, 7.94836769, -38.4236281, 3.71600369e-2, -1.92888994,
      6.64254770, -7.02203950e-6, 1.77093234e-2, -4.81892026e-2, 3.88344869e-6, -5.54833167e-4,
      1.70489748e-3, -4.13039220e-1, -8.47988634, 2.8e-2, 304.1282, 73.773⟩

/-- The gas constant of the equation of state (`fluidPhase.c` 98, 104, 1845). -/
noncomputable def Rv : ℝ := 8.314467

/-- The gas constant of the energies (`fluidPhase.c` 23). -/
noncomputable def Rg : ℝ := 8.3143

/-- `H2OVc`, `CO2Vc` (`fluidPhase.c` 98, 104). -/
noncomputable def Coef.vc (k : Coef) : ℝ := Rv * k.tc / k.pc

/-- A coefficient that depends on temperature, with its first two derivatives. -/
structure T2 where
  x : ℝ
  d : ℝ
  dd : ℝ

/-- `bEnd`, `dbEnddt`, `d2bEnddt2` and the same for `c`, `d`, `e` (`fluidPhase.c` 206-241, 421-456,
657-688, 863-894); with the first two coefficients zero, `fEnd` (1084-1105). -/
noncomputable def inv (x y w tc t : ℝ) : T2 where
  x := x + y / (t / tc) ^ 2 + w / (t / tc) ^ 3
  d := -2 * y * (1 / tc) / (t / tc) ^ 3 - 3 * w * (1 / tc) / (t / tc) ^ 4
  dd := 6 * y * (1 / tc) * (1 / tc) / (t / tc) ^ 4 + 12 * w * (1 / tc) * (1 / tc) / (t / tc) ^ 5

/-- Multiplication by a power of the critical volume (`fluidPhase.c` 257, 266-268 and alike). -/
noncomputable def T2.scale (y : ℝ) (x : T2) : T2 := ⟨x.x * y, x.d * y, x.dd * y⟩

/-- `bv`, `dbvdt`, `d2bvdt2` of a pure species (`fluidPhase.c` 257, 266-268; 289, 298-300). -/
noncomputable def Coef.B (k : Coef) (t : ℝ) : T2 := (inv k.a1 k.a2 k.a3 k.tc t).scale k.vc

/-- `cv`, `dcvdt`, `d2cvdt2` of a pure species (`fluidPhase.c` 474-485, 503-514). -/
noncomputable def Coef.C (k : Coef) (t : ℝ) : T2 := (inv k.a4 k.a5 k.a6 k.tc t).scale (k.vc ^ 2)

/-- `dv`, `ddvdt`, `d2dvdt2` of a pure species (`fluidPhase.c` 702-713, 725-736). -/
noncomputable def Coef.Dd (k : Coef) (t : ℝ) : T2 := (inv k.a7 k.a8 k.a9 k.tc t).scale (k.vc ^ 4)

/-- `ev`, `devdt`, `d2evdt2` of a pure species (`fluidPhase.c` 908-919, 931-942). -/
noncomputable def Coef.E (k : Coef) (t : ℝ) : T2 := (inv k.a10 k.a11 k.a12 k.tc t).scale (k.vc ^ 5)

/-- `fv`, `dfvdt`, `d2fvdt2` of a pure species (`fluidPhase.c` 1129-1140, 1152-1163). -/
noncomputable def Coef.F (k : Coef) (t : ℝ) : T2 := (inv 0 0 k.a k.tc t).scale (k.vc ^ 2)

/-- `gammav` of a pure species (`fluidPhase.c` 1281, 1291). -/
noncomputable def Coef.gam (k : Coef) : ℝ := k.c * k.vc ^ 2

/-- `exp(-gammav/v/v)`. -/
noncomputable def Coef.ex (k : Coef) (v : ℝ) : ℝ := Real.exp (-k.gam / v ^ 2)

/-- The compressibility factor (`fluidPhase.c` 1847, 1862; 2018, 2033). -/
noncomputable def Coef.z (k : Coef) (t v : ℝ) : ℝ :=
  1 + (k.B t).x / v + (k.C t).x / v ^ 2 + (k.Dd t).x / v ^ 4 + (k.E t).x / v ^ 5
    + (k.F t).x / v ^ 2 * (k.b + k.gam / v ^ 2) * k.ex v

/-- `dzdv` (`fluidPhase.c` 1884-1887). -/
noncomputable def Coef.zv (k : Coef) (t v : ℝ) : ℝ :=
  -(k.B t).x / v ^ 2 - 2 * (k.C t).x / v ^ 3 - 4 * (k.Dd t).x / v ^ 5 - 5 * (k.E t).x / v ^ 6
    - 2 * ((k.F t).x / v ^ 3) * (k.b + k.gam / v ^ 2) * k.ex v
    - 2 * ((k.F t).x / v ^ 2) * (k.gam / v ^ 3) * k.ex v
    + 2 * ((k.F t).x / v ^ 2) * (k.b + k.gam / v ^ 2) * (k.gam / v ^ 3) * k.ex v

/-- `dzdt` (`fluidPhase.c` 1888). -/
noncomputable def Coef.zt (k : Coef) (t v : ℝ) : ℝ :=
  (k.B t).d / v + (k.C t).d / v ^ 2 + (k.Dd t).d / v ^ 4 + (k.E t).d / v ^ 5
    + (k.F t).d / v ^ 2 * (k.b + k.gam / v ^ 2) * k.ex v

/-- `d2zdv2` (`fluidPhase.c` 1910-1915). -/
noncomputable def Coef.zvv (k : Coef) (t v : ℝ) : ℝ :=
  2 * (k.B t).x / v ^ 3 + 6 * (k.C t).x / v ^ 4 + 20 * (k.Dd t).x / v ^ 6 + 30 * (k.E t).x / v ^ 7
    + 6 * ((k.F t).x / v ^ 4) * (k.b + k.gam / v ^ 2) * k.ex v
    + 14 * ((k.F t).x / v ^ 3) * (k.gam / v ^ 3) * k.ex v
    - 14 * ((k.F t).x / v ^ 3) * (k.gam / v ^ 3) * (k.b + k.gam / v ^ 2) * k.ex v
    - 8 * ((k.F t).x / v ^ 2) * (k.gam / v ^ 3) * (k.gam / v ^ 3) * k.ex v
    + 4 * ((k.F t).x / v ^ 2) * (k.gam / v ^ 3) * (k.gam / v ^ 3) * (k.b + k.gam / v ^ 2) * k.ex v

/-- `d2zdvdt` (`fluidPhase.c` 1916-1919). -/
noncomputable def Coef.zvt (k : Coef) (t v : ℝ) : ℝ :=
  -(k.B t).d / v ^ 2 - 2 * (k.C t).d / v ^ 3 - 4 * (k.Dd t).d / v ^ 5 - 5 * (k.E t).d / v ^ 6
    - 2 * ((k.F t).d / v ^ 3) * (k.b + k.gam / v ^ 2) * k.ex v
    - 2 * ((k.F t).d / v ^ 2) * (k.gam / v ^ 3) * k.ex v
    + 2 * ((k.F t).d / v ^ 2) * (k.b + k.gam / v ^ 2) * (k.gam / v ^ 3) * k.ex v

/-- `d2zdt2` (`fluidPhase.c` 1920). -/
noncomputable def Coef.ztt (k : Coef) (t v : ℝ) : ℝ :=
  (k.B t).dd / v + (k.C t).dd / v ^ 2 + (k.Dd t).dd / v ^ 4 + (k.E t).dd / v ^ 5
    + (k.F t).dd / v ^ 2 * (k.b + k.gam / v ^ 2) * k.ex v

/-- The part of `lnPhi`, `dlnPhidt` and `d2lnPhidt2` after the logarithm (`fluidPhase.c` 1875-1882,
1902-1908, 1944-1950), a linear form in the values `b`, `c`, `d`, `e`, `f` of the coefficients or of
their temperature derivatives.  `bvPrime = 2 bv`, `cvPrime = 3 cv`, `dvPrime = 5 dv`, `evPrime = 6 ev`,
`fvPrime = 2 fv`, `betaPrime = beta`, `gammavPrime = 3 gammav` for a pure species (258, 290, 475, 504, 703,
726, 909, 932, 1130, 1153, 1250-1251, 1282, 1292). -/
noncomputable def Coef.lnTail (k : Coef) (b c d e f v : ℝ) : ℝ :=
  let g := k.gam;
  let g' := 3 * k.gam;
  2 * b / v + 3 * c / 2 / v ^ 2 + 5 * d / 4 / v ^ 4 + 6 * e / 5 / v ^ 5
    + ((2 * f * k.b + k.b * f) / 2 / g) * (1 - k.ex v)
    + ((2 * f * g + g' * f - f * k.b * (g' - g)) / 2 / g / g) * (1 - (g / v ^ 2 + 1) * k.ex v)
    + ((g' - g) * f / 2 / g / g) * (-2 + (g * g / v ^ 4 + 2 * g / v ^ 2 + 2) * k.ex v)

/-- The same for `dlnPhidv` and `d2lnPhidvdt` (`fluidPhase.c` 1892-1898, 1934-1940). -/
noncomputable def Coef.lnTailV (k : Coef) (b c d e f v : ℝ) : ℝ :=
  let g := k.gam;
  let g' := 3 * k.gam;
  -(2 * b) / v ^ 2 - 3 * c / v ^ 3 - 5 * d / v ^ 5 - 6 * e / v ^ 6
    - ((2 * f * k.b + k.b * f) / v ^ 3) * k.ex v
    - ((2 * f * g + g' * f - f * k.b * (g' - g)) / v ^ 5) * k.ex v
    + ((g' - g) * f * g / v ^ 7) * k.ex v

/-- The same for `d2lnPhidv2` (`fluidPhase.c` 1924-1931). -/
noncomputable def Coef.lnTailVV (k : Coef) (b c d e f v : ℝ) : ℝ :=
  let g := k.gam;
  let g' := 3 * k.gam;
  2 * (2 * b) / v ^ 3 + 3 * (3 * c) / v ^ 4 + 5 * (5 * d) / v ^ 6 + 6 * (6 * e) / v ^ 7
    + 3 * ((2 * f * k.b + k.b * f) / v ^ 4) * k.ex v
    - 2 * ((2 * f * k.b * g + k.b * f * g) / v ^ 6) * k.ex v
    + 5 * ((2 * f * g + g' * f - f * k.b * (g' - g)) / v ^ 6) * k.ex v
    - 2 * ((2 * f * g * g + g' * f * g - f * k.b * g * (g' - g)) / v ^ 8) * k.ex v
    - 7 * ((g' - g) * f * g / v ^ 8) * k.ex v
    + 2 * ((g' - g) * f * g * g / v ^ 10) * k.ex v

/-- `lnPhi` (`fluidPhase.c` 1873-1882). -/
noncomputable def Coef.ln (k : Coef) (t v : ℝ) : ℝ :=
  -Real.log (k.z t v) + k.lnTail (k.B t).x (k.C t).x (k.Dd t).x (k.E t).x (k.F t).x v

/-- `dlnPhidv` (`fluidPhase.c` 1890-1898). -/
noncomputable def Coef.lnv (k : Coef) (t v : ℝ) : ℝ :=
  -k.zv t v / k.z t v + k.lnTailV (k.B t).x (k.C t).x (k.Dd t).x (k.E t).x (k.F t).x v

/-- `dlnPhidt` (`fluidPhase.c` 1900-1908). -/
noncomputable def Coef.lnt (k : Coef) (t v : ℝ) : ℝ :=
  -k.zt t v / k.z t v + k.lnTail (k.B t).d (k.C t).d (k.Dd t).d (k.E t).d (k.F t).d v

/-- `d2lnPhidv2` (`fluidPhase.c` 1922-1931). -/
noncomputable def Coef.lnvv (k : Coef) (t v : ℝ) : ℝ :=
  k.zv t v * k.zv t v / k.z t v / k.z t v - k.zvv t v / k.z t v
    + k.lnTailVV (k.B t).x (k.C t).x (k.Dd t).x (k.E t).x (k.F t).x v

/-- `d2lnPhidvdt` (`fluidPhase.c` 1933-1940). -/
noncomputable def Coef.lnvt (k : Coef) (t v : ℝ) : ℝ :=
  k.zv t v * k.zt t v / k.z t v / k.z t v - k.zvt t v / k.z t v
    + k.lnTailV (k.B t).d (k.C t).d (k.Dd t).d (k.E t).d (k.F t).d v

/-- `d2lnPhidt2` (`fluidPhase.c` 1942-1950). -/
noncomputable def Coef.lntt (k : Coef) (t v : ℝ) : ℝ :=
  k.zt t v * k.zt t v / k.z t v / k.z t v - k.ztt t v / k.z t v
    + k.lnTail (k.B t).dd (k.C t).dd (k.Dd t).dd (k.E t).dd (k.F t).dd v

/-- What a driver returns. -/
structure Out where
  v : ℝ
  z : ℝ
  phi : ℝ
  dvdt : ℝ
  dvdp : ℝ
  d2vdt2 : ℝ
  d2vdtdp : ℝ
  d2vdp2 : ℝ
  lt : ℝ
  lp : ℝ
  ltt : ℝ
  ltp : ℝ
  lpp : ℝ

/-- `duanH2ODriver`, `duanCO2Driver` after the search for the volume (`fluidPhase.c` 1952-1961,
2123-2132); `v` is the volume the search found. -/
noncomputable def driver (k : Coef) (t p v : ℝ) : Out :=
  let z := k.z t v
  let zv := k.zv t v
  let zt := k.zt t v
  let vp := 1 / (p * (zv / z - 1 / v))
  let vt := (1 / t + zt / z) / (1 / v - zv / z)
  let vpp := (p * (1 / v - zv / z) / v - zv / vp / z + 1 / vp / vp / p + p * k.zvv t v / z)
    * -(vp * vp * vp)
  let vtp := -vp * (1 / t + zt / z) - p * vpp * (1 / t + zt / z)
    - p * vp * vp * (-zv * zt / z / z + k.zvt t v / z)
  let vtt := -p * vtp * (1 / t + zt / z) + p * vp / t / t + p * vp * zt * (zv * vt + zt) / z / z
    - p * vp * vt * k.zvt t v / z - p * vp * k.ztt t v / z
  { v := v
    z := z
    phi := Real.exp (k.ln t v)
    dvdp := vp
    dvdt := vt
    d2vdp2 := vpp
    d2vdtdp := vtp
    d2vdt2 := vtt
    lt := k.lnv t v * vt + k.lnt t v
    lp := k.lnv t v * vp
    ltt := k.lnvv t v * vt * vt + 2 * k.lnvt t v * vt + k.lnv t v * vtt + k.lntt t v
    ltp := k.lnvv t v * vt * vp + k.lnv t v * vtp + k.lnvt t v * vp
    lpp := k.lnvv t v * vp * vp + k.lnv t v * vpp }

/-- `duanH2O` (`fluidPhase.c` 1964-1983), `duanCO2` (2135-2154); `vol low (t, p)` is the volume the
search finds with the coefficients of the flag `low`. -/
noncomputable def duan (s : Species) (vol : Bool → ℝ × ℝ → ℝ) (low : Bool) (t p : ℝ) : Out :=
  let o := driver (coef s low) t p (vol low (t, p))
  if low then o
  else
    let l := driver (coef s true) t 2000 (vol true (t, 2000))
    let h := driver (coef s false) t 2000 (vol false (t, 2000))
    { o with
      phi := o.phi * l.phi / h.phi
      lt := o.lt + l.lt - h.lt
      ltt := o.ltt + l.ltt - h.ltt }

/-- `idealCoeff` (`fluidPhase.c` 109-123). -/
noncomputable def idealCoeff : Species → List ℝ
  | .h2o => [31.0409601236035, -39.1422080460869, 37.9695277233575, -21.8374910952284,
      7.42251494566339, -1.38178929609470, 0.108807067571454, -12.0771176848589, 3.39105078851732,
      -0.584520979955060, 0.0589930846488082, -0.00312970001415882, 6.57460740981757e-5]
  | .co2 => [-1.8188731, 12.903022, -9.6634864, 4.2251879, -1.0421640, 0.12683515, -0.0049939675,
      2.4950242, -0.82723750, 0.15372481, -0.015861243, 0.00086017150, -1.9222165e-5]

/-- `idealCoeff[i][s]`. -/
noncomputable def ic (s : Species) (i : ℕ) : ℝ := (idealCoeff s).getD i 0

/-- `idealGasH2O`, `idealGasCO2`: the heat capacity (`fluidPhase.c` 1333-1334, 1347). -/
noncomputable def idealCp (s : Species) (t : ℝ) : ℝ :=
  8.31451 * (∑ i ∈ Finset.range 7, ic s i * (t / 1000) ^ i
    + ∑ i ∈ Finset.Ico 7 13, ic s i / (t / 1000) ^ (i - 6))

/-- The temperature derivative of the heat capacity (`fluidPhase.c` 1336-1337, 1350). -/
noncomputable def idealDcp (s : Species) (t : ℝ) : ℝ :=
  8.31451 / 1000 * (∑ i ∈ Finset.Ico (1 : ℕ) 7, (i : ℝ) * ic s i * (t / 1000) ^ (i - 1)
    + ∑ i ∈ Finset.Ico (7 : ℕ) 13, -((i : ℝ) - 6) * ic s i / (t / 1000) ^ (i + 1 - 6))

/-- The enthalpy (`fluidPhase.c` 1339-1341, 1348, 1352; 1365-1367, 1374, 1378). -/
noncomputable def idealH (s : Species) (t : ℝ) : ℝ :=
  8.31451 * 1000 * (∑ i ∈ Finset.range 7, ic s i * (t / 1000) ^ (i + 1) / ((i : ℝ) + 1)
    + ic s 7 * Real.log (t / 1000)
    + ∑ i ∈ Finset.Ico 8 13, ic s i / (t / 1000) ^ (i - 7) / (7 - (i : ℝ)))
    + (match s with | .h2o => -355665.4136 | .co2 => -385358.2260)

/-- The entropy (`fluidPhase.c` 1343-1345, 1349, 1353; 1369-1371, 1375, 1379). -/
noncomputable def idealS (s : Species) (t : ℝ) : ℝ :=
  8.31451 * (ic s 0 * Real.log (t / 1000)
    + ∑ i ∈ Finset.Ico 1 7, ic s i * (t / 1000) ^ i / (i : ℝ)
    + ∑ i ∈ Finset.Ico 7 13, ic s i / (t / 1000) ^ (i - 6) / (6 - (i : ℝ)))
    + (match s with | .h2o => 359.6505 | .co2 => 210.0304)

/-- `propertiesOfPureH2O`, `propertiesOfPureCO2` (`fluidPhase.c` 2161-2207).  `δ` stands for
`sqrt(DBL_EPSILON)`. -/
noncomputable def pureProps (s : Species) (vol : Bool → ℝ × ℝ → ℝ) (δ t p : ℝ) : Std :=
  let low := decide (p ≤ 2000)
  let o := duan s vol low t p
  let o' := duan s vol low (t * (1 + δ)) p
  let lttt := (o'.ltt - o.ltt) / t / δ
  { g := idealH s t - t * idealS s t + Rg * t * Real.log (o.phi * p)
    s := idealS s t - (Rg * Real.log (o.phi * p) + Rg * t * o.lt)
    h := idealH s t + (Rg * t * Real.log (o.phi * p)
      - t * (Rg * Real.log (o.phi * p) + Rg * t * o.lt))
    cp := idealCp s t + -t * (2 * Rg * o.lt + Rg * t * o.ltt)
    dcpdt := idealDcp s t + (-(2 * Rg * o.lt + Rg * t * o.ltt) - t * (3 * Rg * o.ltt + Rg * t * lttt))
    v := o.v
    dvdt := o.dvdt
    dvdp := o.dvdp
    d2vdt2 := o.d2vdt2
    d2vdp2 := o.d2vdp2
    d2vdtdp := o.d2vdtdp }

end Verif.Thermo.Fluid
