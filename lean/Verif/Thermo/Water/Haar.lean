import Verif.Thermo.Water.Jet3
import Verif.Thermo.StdState

/-!
# The equation of state of water (`sources/water.c`), over the real numbers

`whaar` finds the density of water at a temperature and a pressure and returns the thermodynamic
properties at that density from a Helmholtz energy per gram (in bar·cm³) and its derivatives, all
written out by hand.  The model follows the source function by function: the tables, the base
function, the residual function, the ideal-gas function, the properties, and the iteration on density.
-/

open Real

namespace Verif.Thermo.Water

/-! ## Tables -/

/-- One row of the first thirty-six coefficients: `gi`, `ki`, `li` (`water.c` 101-126). -/
structure Row where
  g : ℝ
  k : ℕ
  l : ℕ

/-- Rows 1 to 36 of `gi`, `ki`, `li` (`water.c` 101-113, 118-126). -/
noncomputable def rows : List Row := [
  ⟨-0.53062968529023e4, 1, 1⟩, ⟨0.22744901424408e5, 1, 2⟩, ⟨0.78779333020687e4, 1, 4⟩,
  ⟨-0.69830527374994e3, 1, 6⟩, ⟨0.17863832875422e6, 2, 1⟩, ⟨-0.39514731563338e6, 2, 2⟩,
  ⟨0.33803884280753e6, 2, 4⟩, ⟨-0.13855050202703e6, 2, 6⟩, ⟨-0.25637436613260e7, 3, 1⟩,
  ⟨0.48212575981415e7, 3, 2⟩, ⟨-0.34183016969660e7, 3, 4⟩, ⟨0.12223156417448e7, 3, 6⟩,
  ⟨0.11797433655832e8, 4, 1⟩, ⟨-0.21734810110373e8, 4, 2⟩, ⟨0.10829952168620e8, 4, 4⟩,
  ⟨-0.25441998064049e7, 4, 6⟩, ⟨-0.31377774947767e8, 5, 1⟩, ⟨0.52911910757704e8, 5, 2⟩,
  ⟨-0.13802577177877e8, 5, 4⟩, ⟨-0.25109914369001e7, 5, 6⟩, ⟨0.46561826115608e8, 6, 1⟩,
  ⟨-0.72752773275387e8, 6, 2⟩, ⟨0.41774246148294e7, 6, 4⟩, ⟨0.14016358244614e8, 6, 6⟩,
  ⟨-0.31555231392127e8, 7, 1⟩, ⟨0.47929666384584e8, 7, 2⟩, ⟨0.40912664781209e7, 7, 4⟩,
  ⟨-0.13626369388386e8, 7, 6⟩, ⟨0.69625220862664e7, 9, 1⟩, ⟨-0.10834900096447e8, 9, 2⟩,
  ⟨-0.22722827401688e7, 9, 4⟩, ⟨0.38365486000660e7, 9, 6⟩, ⟨0.68833257944332e5, 3, 0⟩,
  ⟨0.21757245522644e6, 3, 3⟩, ⟨-0.26627944829770e5, 1, 3⟩, ⟨-0.70730418082074e6, 5, 3⟩]

/-- One of the rows 37 to 40, which carry a centre in density and temperature: `gi`, `ki`, `li`,
`rhoi`, `ttti`, `alpi`, `beti` (`water.c` 101-163). -/
structure Spot where
  g : ℝ
  k : ℕ
  l : ℕ
  rho : ℝ
  tt : ℝ
  alp : ℝ
  bet : ℝ

/-- Rows 37 to 40 (`water.c` 114-115, 120, 125, 137-163). -/
noncomputable def spots : List Spot := [
  ⟨-0.225e1, 2, 0, 0.319, 640, 34, 2.0e4⟩, ⟨-1.68e1, 2, 2, 0.310, 640, 40, 2.0e4⟩,
  ⟨0.055e1, 2, 0, 0.310, 641.6, 30, 4.0e4⟩, ⟨-93.0e1, 4, 0, 1.55, 270, 1050, 25⟩]

/-- `ci` with the exponent `i - 6` of rows 3 to 18 (`water.c` 128-135, 540-546). -/
noncomputable def gasRows : List (ℝ × ℤ) := [
  (-0.483429455355, -3), (0.605743189245e1, -2), (22.56023885, -1), (-9.87532442, 0),
  (-0.43135538513e1, 1), (0.458155781, 2), (-0.47754901883e-1, 3), (0.41238460633e-2, 4),
  (-0.27929052852e-3, 5), (0.14481695261e-4, 6), (-0.56473658748e-6, 7), (0.16200446e-7, 8),
  (-0.3303822796e-9, 9), (0.451916067368e-11, 10), (-0.370734122708e-13, 11),
  (0.137546068238e-15, 12)]

/-- `ci[1]` (`water.c` 129). -/
noncomputable def c1 : ℝ := 0.19730271018e2
/-- `ci[2]` (`water.c` 129). -/
noncomputable def c2 : ℝ := 0.209662681977e2
/-- `r`, the gas constant per gram of water (`water.c` 175). -/
noncomputable def rg : ℝ := 4.6152
/-- `t0` (`water.c` 181). -/
noncomputable def t0 : ℝ := 647.073
/-- `alpha` (`water.c` 183). -/
noncomputable def al : ℝ := 11
/-- `beta` (`water.c` 184). -/
noncomputable def be : ℝ := 133 / 3
/-- `gamma` (`water.c` 185). -/
noncomputable def ga : ℝ := 7 / 2
/-- `P0` (`water.c` 186). -/
noncomputable def P0 : ℝ := 1.01325

/-- `taui[1]` (`water.c` 209): the temperature in units of `t0`; `taui[i]` is its power. -/
noncomputable def tau (t : ℝ) : ℝ := t / t0

/-- `b` and its derivatives with respect to temperature (`water.c` 211-212, 291-295), with `bi` of
165-168. -/
noncomputable def bJ (t : ℝ) : J :=
  ofT (-0.3540782 * log (tau t) + 0.7478629 + 0.007159876 / tau t ^ 3 + -0.003528426 / tau t ^ 5)
    (-0.3540782 / t - 3 * 0.007159876 / (tau t ^ 3 * t) - 5 * -0.003528426 / (tau t ^ 5 * t))
    (-(-0.3540782) / (t * t) + 4 * 3 * 0.007159876 / (tau t ^ 3 * t * t)
      + 6 * 5 * -0.003528426 / (tau t ^ 5 * t * t))
    (2 * -0.3540782 / (t * t * t) - 5 * 4 * 3 * 0.007159876 / (tau t ^ 3 * t * t * t)
      - 7 * 6 * 5 * -0.003528426 / (tau t ^ 5 * t * t * t))

/-- `bb` and its derivatives (`water.c` 213, 297-303), with `bbi` of 170-173. -/
noncomputable def bbJ (t : ℝ) : J :=
  ofT (1.1278334 + -0.5944001 / tau t + -5.010996 / tau t ^ 2 + 0.63684256 / tau t ^ 4)
    (-(-0.5944001) / (tau t * t) - 2 * -5.010996 / (tau t ^ 2 * t) - 4 * 0.63684256 / (tau t ^ 4 * t))
    (2 * -0.5944001 / (tau t * t * t) + 3 * 2 * -5.010996 / (tau t ^ 2 * t * t)
      + 5 * 4 * 0.63684256 / (tau t ^ 4 * t * t))
    (-(3 * 2 * -0.5944001) / (tau t * t * t * t) - 4 * 3 * 2 * -5.010996 / (tau t ^ 2 * t * t * t)
      - 6 * 5 * 4 * 0.63684256 / (tau t ^ 4 * t * t * t))

/-- `y` and its derivatives (`water.c` 305-314). -/
noncomputable def yJ (t rh : ℝ) : J where
  v := rh * (bJ t).v / 4
  t := rh * (bJ t).t / 4
  r := (bJ t).v / 4
  tt := rh * (bJ t).tt / 4
  tr := (bJ t).t / 4
  rr := 0
  ttt := rh * (bJ t).ttt / 4
  ttr := (bJ t).tt / 4
  trr := 0
  rrr := 0

/-! ## The base function -/

/-- `Z` of the base function and its derivatives (`water.c` 321-406), as functions of the two
temperature functions `B`, `C` (`b`, `bb` in the source) and of `Y` (`y`). -/
noncomputable def baseZ (t rh : ℝ) (B C Y : J) : J where
  v := -log (1 - Y.v) - (be - 1) / (1 - Y.v) + (al + be + 1) / (2 * (1 - Y.v) * (1 - Y.v))
    + 4 * Y.v * (C.v / B.v - ga) - (al - be + 3) / 2 + log (rh * rg * t / P0)
  t := 1 / t + 4 * (B.v * C.t - C.v * B.t) * Y.v / (B.v * B.v) + 4 * (C.v / B.v - ga) * Y.t
    + Y.t / (1 - Y.v) + (al + be + 1) * Y.t / (1 - Y.v) ^ 3 - (be - 1) * Y.t / (1 - Y.v) ^ 2
  r := 1 / rh + 4 * (C.v / B.v - ga) * Y.r + Y.r / (1 - Y.v) + (al + be + 1) * Y.r / (1 - Y.v) ^ 3
    - (be - 1) * Y.r / (1 - Y.v) ^ 2
  tt := -1 / (t * t) + 4 * (((B.v * C.tt - C.v * B.tt) * (B.v * B.v)
      - 2 * (B.v * C.t - C.v * B.t) * B.v * B.t) * Y.v) / B.v ^ 4
    + (Y.t / (1 - Y.v)) ^ 2 + 3 * (al + be + 1) * Y.t ^ 2 / (1 - Y.v) ^ 4
    - 2 * (be - 1) * Y.t ^ 2 / (1 - Y.v) ^ 3
    + 8 * (B.v * C.t - C.v * B.t) * Y.t / (B.v * B.v) + 4 * (C.v / B.v - ga) * Y.tt
    + Y.tt / (1 - Y.v) + (al + be + 1) * Y.tt / (1 - Y.v) ^ 3 - (be - 1) * Y.tt / (1 - Y.v) ^ 2
  tr := 4 * (C.v / B.v - ga) * Y.tr + Y.tr / (1 - Y.v) + (al + be + 1) * Y.tr / (1 - Y.v) ^ 3
    - (be - 1) * Y.tr / (1 - Y.v) ^ 2 + 4 * (B.v * C.t - C.v * B.t) * Y.r / (B.v * B.v)
    + Y.t * Y.r / (1 - Y.v) ^ 2 + 3 * (al + be + 1) * Y.t * Y.r / (1 - Y.v) ^ 4
    - 2 * (be - 1) * Y.t * Y.r / (1 - Y.v) ^ 3
  rr := -1 / (rh * rh) + (Y.r / (1 - Y.v)) ^ 2 + 3 * (al + be + 1) * Y.r ^ 2 / (1 - Y.v) ^ 4
    - 2 * (be - 1) * Y.r ^ 2 / (1 - Y.v) ^ 3 + 4 * (C.v / B.v - ga) * Y.rr + Y.rr / (1 - Y.v)
    + (al + be + 1) * Y.rr / (1 - Y.v) ^ 3 - (be - 1) * Y.rr / (1 - Y.v) ^ 2
  ttt := 2 / t ^ 3 + 4 * (((-2 * (B.v * C.t - C.v * B.t) * B.t ^ 2
      + (B.v * C.ttt + C.tt * B.t - C.t * B.tt - C.v * B.ttt) * B.v ^ 2
      - 2 * (B.v * C.t - C.v * B.t) * B.v * B.tt) * Y.v
      + ((B.v * C.tt - C.v * B.tt) * B.v ^ 2 - 2 * (B.v * C.t - C.v * B.t) * B.v * B.t) * Y.t) * B.v ^ 4
      - 4 * ((B.v * C.tt - C.v * B.tt) * B.v ^ 2
      - 2 * (B.v * C.t - C.v * B.t) * B.v * B.t) * B.v ^ 3 * Y.v * B.t) / (B.v ^ 4 * B.v ^ 4)
    + 2 * (Y.t / (1 - Y.v)) ^ 3 + 12 * (al + be + 1) * Y.t ^ 3 / (1 - Y.v) ^ 5
    - 6 * (be - 1) * Y.t ^ 3 / (1 - Y.v) ^ 4
    + 8 * ((B.v * C.tt - C.v * B.tt) * B.v ^ 2 - 2 * (B.v * C.t - C.v * B.t) * B.v * B.t) * Y.t / B.v ^ 4
    + 12 * (B.v * C.t - C.v * B.t) * Y.tt / B.v ^ 2 + 3 * Y.t * Y.tt / (1 - Y.v) ^ 2
    + 9 * (al + be + 1) * Y.t * Y.tt / (1 - Y.v) ^ 4 - 6 * (be - 1) * Y.t * Y.tt / (1 - Y.v) ^ 3
    + 4 * (C.v / B.v - ga) * Y.ttt + Y.ttt / (1 - Y.v) + (al + be + 1) * Y.ttt / (1 - Y.v) ^ 3
    - (be - 1) * Y.ttt / (1 - Y.v) ^ 2
  ttr := 4 * (((B.v * C.tt - C.v * B.tt) * B.v ^ 2 - 2 * (B.v * C.t - C.v * B.t) * B.v * B.t) * Y.r)
      / B.v ^ 4
    + 4 * (C.v / B.v - ga) * Y.ttr + Y.ttr / (1 - Y.v) + (al + be + 1) * Y.ttr / (1 - Y.v) ^ 3
    - (be - 1) * Y.ttr / (1 - Y.v) ^ 2 + 8 * (B.v * C.t - C.v * B.t) * Y.tr / B.v ^ 2
    + 2 * Y.t * Y.tr / (1 - Y.v) ^ 2 + 6 * (al + be + 1) * Y.t * Y.tr / (1 - Y.v) ^ 4
    - 4 * (be - 1) * Y.t * Y.tr / (1 - Y.v) ^ 3 + 2 * Y.t ^ 2 * Y.r / (1 - Y.v) ^ 3
    + 12 * (al + be + 1) * Y.t ^ 2 * Y.r / (1 - Y.v) ^ 5 - 6 * (be - 1) * Y.t ^ 2 * Y.r / (1 - Y.v) ^ 4
    + Y.tt * Y.r / (1 - Y.v) ^ 2 + 3 * (al + be + 1) * Y.tt * Y.r / (1 - Y.v) ^ 4
    - 2 * (be - 1) * Y.tt * Y.r / (1 - Y.v) ^ 3
  trr := 2 * Y.t * Y.r ^ 2 / (1 - Y.v) ^ 3 + 12 * (al + be + 1) * Y.t * Y.r ^ 2 / (1 - Y.v) ^ 5
    - 6 * (be - 1) * Y.t * Y.r ^ 2 / (1 - Y.v) ^ 4 + 4 * (C.v / B.v - ga) * Y.trr + Y.trr / (1 - Y.v)
    + (al + be + 1) * Y.trr / (1 - Y.v) ^ 3 - (be - 1) * Y.trr / (1 - Y.v) ^ 2
    + 2 * Y.tr * Y.r / (1 - Y.v) ^ 2 + 6 * (al + be + 1) * Y.tr * Y.r / (1 - Y.v) ^ 4
    - 4 * (be - 1) * Y.tr * Y.r / (1 - Y.v) ^ 3 + 4 * (B.v * C.t - C.v * B.t) * Y.rr / B.v ^ 2
    + Y.t * Y.rr / (1 - Y.v) ^ 2 + 3 * (al + be + 1) * Y.t * Y.rr / (1 - Y.v) ^ 4
    - 2 * (be - 1) * Y.t * Y.rr / (1 - Y.v) ^ 3
  rrr := 2 / rh ^ 3 + 2 * (Y.r / (1 - Y.v)) ^ 3 + 12 * (al + be + 1) * Y.r ^ 3 / (1 - Y.v) ^ 5
    - 6 * (be - 1) * Y.r ^ 3 / (1 - Y.v) ^ 4 + 3 * Y.r * Y.rr / (1 - Y.v) ^ 2
    + 9 * (al + be + 1) * Y.r * Y.rr / (1 - Y.v) ^ 4 - 6 * (be - 1) * Y.r * Y.rr / (1 - Y.v) ^ 3
    + 4 * (C.v / B.v - ga) * Y.rrr + Y.rrr / (1 - Y.v) + (al + be + 1) * Y.rrr / (1 - Y.v) ^ 3
    - (be - 1) * Y.rrr / (1 - Y.v) ^ 2

/-- `Ab` and its derivatives from those of `Z` (`water.c` 408-417). -/
noncomputable def timesRT (t : ℝ) (Z : J) : J where
  v := rg * t * Z.v
  t := rg * Z.v + rg * t * Z.t
  r := rg * t * Z.r
  tt := 2 * rg * Z.t + rg * t * Z.tt
  tr := rg * Z.r + rg * t * Z.tr
  rr := rg * t * Z.rr
  ttt := 3 * rg * Z.tt + rg * t * Z.ttt
  ttr := 2 * rg * Z.tr + rg * t * Z.ttr
  trr := rg * Z.rr + rg * t * Z.trr
  rrr := rg * t * Z.rrr

/-- The base function `Ab` (`water.c` 321-417). -/
noncomputable def baseJ (t rh : ℝ) : J := timesRT t (baseZ t rh (bJ t) (bbJ t) (yJ t rh))

/-! ## The residual function -/

/-- `ermi[1]` (`water.c` 316); `ermi[k]` is its power. -/
noncomputable def erm (rh : ℝ) : ℝ := 1 - exp (-rh)

/-- The contribution of one of the rows 1 to 36 to `Ar` and its derivatives (`water.c` 424-444). -/
noncomputable def rowJ (w : Row) (t rh : ℝ) : J where
  v := w.g / w.k / tau t ^ w.l * erm rh ^ w.k
  t := -w.l * w.g / w.k / (tau t ^ w.l * t) * erm rh ^ w.k
  r := w.g / tau t ^ w.l * erm rh ^ (w.k - 1) * exp (-rh)
  tt := (w.l + 1) * w.l * w.g / w.k / (tau t ^ w.l * t * t) * erm rh ^ w.k
  tr := -w.l * w.g / (tau t ^ w.l * t) * erm rh ^ (w.k - 1) * exp (-rh)
  rr := if 1 < w.k then w.g / tau t ^ w.l
      * ((w.k - 1) * erm rh ^ (w.k - 2) * exp (-rh) - erm rh ^ (w.k - 1)) * exp (-rh)
    else -w.g / tau t ^ w.l * exp (-rh)
  ttt := -(w.l + 2) * (w.l + 1) * w.l * w.g / w.k / (tau t ^ w.l * t * t * t) * erm rh ^ w.k
  ttr := (w.l + 1) * w.l * w.g / (tau t ^ w.l * t * t) * erm rh ^ (w.k - 1) * exp (-rh)
  trr := if 1 < w.k then -w.l * w.g / (tau t ^ w.l * t)
      * ((w.k - 1) * erm rh ^ (w.k - 2) * exp (-rh) - erm rh ^ (w.k - 1)) * exp (-rh)
    else w.l * w.g / (tau t ^ w.l * t) * exp (-rh)
  rrr := if 2 < w.k then w.g / tau t ^ w.l
      * (((w.k - 2) * erm rh ^ (w.k - 3) * exp (-rh) - 3 * erm rh ^ (w.k - 2)) * (w.k - 1) * exp (-rh)
        + erm rh ^ (w.k - 1)) * exp (-rh)
    else if 1 < w.k then -w.g / tau t ^ w.l * (4 * exp (-rh) - 1) * exp (-rh)
    else w.g / tau t ^ w.l * exp (-rh)

/-- `del` (`water.c` 447). -/
noncomputable def Spot.del (s : Spot) (rh : ℝ) : ℝ := rh / s.rho - 1
/-- `tau` of rows 37 to 40 (`water.c` 448). -/
noncomputable def Spot.tau (s : Spot) (t : ℝ) : ℝ := t / s.tt - 1

/-- `Q` and its derivatives (`water.c` 449-463). -/
noncomputable def Spot.Q (s : Spot) (t rh : ℝ) : J where
  v := -s.alp * s.del rh ^ s.k - s.bet * s.tau t * s.tau t
  t := -s.bet * 2 * s.tau t / s.tt
  r := if s.k = 0 then 0 else -s.alp * s.k * s.del rh ^ (s.k - 1) / s.rho
  tt := -s.bet * 2 / s.tt ^ 2
  tr := 0
  rr := if s.k = 0 ∨ s.k = 1 then 0
    else -s.alp * s.k * (s.k - 1) * s.del rh ^ (s.k - 2) / s.rho ^ 2
  ttt := 0
  ttr := 0
  trr := 0
  rrr := if s.k = 0 ∨ s.k = 1 ∨ s.k = 2 then 0
    else -s.alp * s.k * (s.k - 1) * (s.k - 2) * s.del rh ^ (s.k - 3) / s.rho ^ 3

open Classical in
/-- `expQ`, the exponential, cut off to zero at and below -100 (`water.c` 464, also 259-260). -/
noncomputable def cut (q : ℝ) : ℝ := if -100 < q then exp q else 0

/-- The contribution of one of the rows 37 to 40 to `Ar` and its derivatives (`water.c` 465-517).
Powers of `del` with a negative exponent occur in the source only under a zero coefficient; the
natural-number subtraction makes them powers of exponent zero here. -/
noncomputable def spotJ (s : Spot) (t rh : ℝ) : J :=
  let d := s.del rh
  let q := s.Q t rh
  let E := cut q.v
  { v := s.g * d ^ s.l * E
    t := s.g * d ^ s.l * E * q.t
    r := if s.l = 0 then s.g * E * q.r
      else s.g * s.l * d ^ (s.l - 1) * E / s.rho + s.g * d ^ s.l * E * q.r
    tt := s.g * d ^ s.l * E * (q.t ^ 2 + q.tt)
    tr := if s.l = 0 then s.g * E * q.t * q.r + s.g * E * q.tr
      else s.g * s.l * d ^ (s.l - 1) * E * q.t / s.rho + s.g * d ^ s.l * E * (q.t * q.r + q.tr)
    rr := if s.l = 0 then s.g * E * q.r ^ 2 + s.g * E * q.rr
      else if s.l = 1 then 2 * s.g * E * q.r / s.rho + s.g * d * E * q.r ^ 2 + s.g * d * E * q.rr
      else s.g * s.l * (s.l - 1) * d ^ (s.l - 2) * E / s.rho ^ 2
        + 2 * s.g * s.l * d ^ (s.l - 1) * E * q.r / s.rho
        + s.g * d ^ s.l * (E * q.r ^ 2 + E * q.rr)
    ttt := s.g * d ^ s.l * E * (q.t ^ 3 + 3 * q.t * q.tt + q.ttt)
    ttr := if s.l = 0 then s.g * (E * q.t ^ 2 * q.r + E * (q.tt * q.r + q.t * q.tr))
        + s.g * (E * q.t * q.tr + E * q.ttr)
      else s.g * s.l * d ^ (s.l - 1) * (E * q.t ^ 2 + E * q.tt) / s.rho
        + s.g * d ^ s.l * (E * q.t * (q.t * q.r + q.tr) + E * (q.tt * q.r + q.t * q.tr + q.ttr))
    trr := if s.l = 1 then 2 * s.g * s.l * (E * q.t * q.r + E * q.tr) / s.rho
        + s.g * d * (E * q.t * q.r ^ 2 + E * 2 * q.r * q.tr + E * q.t * q.rr + E * q.trr)
      else s.g * s.l * (s.l - 1) * d ^ (s.l - 2) * E * q.t / s.rho ^ 2
        + 2 * s.g * s.l * d ^ (s.l - 1) * (E * q.t * q.r + E * q.tr) / s.rho
        + s.g * d ^ s.l * (E * q.t * q.r ^ 2 + E * 2 * q.r * q.tr + E * q.t * q.rr + E * q.trr)
    rrr := if s.l = 0 then s.g * (E * q.r ^ 3 + E * 2 * q.r * q.rr + E * q.r * q.rr + E * q.rrr)
      else if s.l = 1 then 3 * s.g * (E * q.r ^ 2 + E * q.rr) / s.rho
        + s.g * d * (E * q.r ^ 3 + E * 2 * q.r * q.rr + E * q.r * q.rr + E * q.rrr)
      else if s.l = 2 then 3 * s.g * 2 * E * q.r / s.rho ^ 2
        + 3 * s.g * 2 * d * (E * q.r ^ 2 + E * q.rr) / s.rho
        + s.g * d ^ 2 * (E * q.r ^ 3 + E * 2 * q.r * q.rr + E * q.r * q.rr + E * q.rrr)
      else s.g * s.l * (s.l - 1) * (s.l - 2) * d ^ (s.l - 3) * E / s.rho ^ 3
        + 3 * s.g * s.l * (s.l - 1) * d ^ (s.l - 2) * E * q.r / s.rho ^ 2
        + 3 * s.g * s.l * d ^ (s.l - 1) * (E * q.r ^ 2 + E * q.rr) / s.rho
        + s.g * d ^ s.l * (E * q.r ^ 3 + E * 2 * q.r * q.rr + E * q.r * q.rr + E * q.rrr) }

/-- The residual function `Ar` (`water.c` 421-518). -/
noncomputable def resJ (t rh : ℝ) : J :=
  (rows.map fun w => rowJ w t rh).sum + (spots.map fun s => spotJ s t rh).sum

/-! ## The ideal-gas function -/

/-- One term of the sum over `ci[3..18]` (`water.c` 540-546), in `tr`, which is `t/100`. -/
noncomputable def gasTerm (c : ℝ × ℤ) (t : ℝ) : J :=
  ofT (c.1 * (t / 100) ^ c.2) (c.2 * c.1 * (t / 100) ^ (c.2 - 1) * (1 / 100))
    (c.2 * (c.2 - 1) * c.1 * (t / 100) ^ (c.2 - 2) * (1 / 100) ^ 2)
    (c.2 * (c.2 - 1) * (c.2 - 2) * c.1 * (t / 100) ^ (c.2 - 3) * (1 / 100) ^ 3)

/-- The first part of `Z` of the ideal-gas function (`water.c` 522-538). -/
noncomputable def gasHead (t : ℝ) : J :=
  let tr := t / 100
  let d : ℝ := 1 / 100
  ofT (1 + (c1 / tr + c2) * log tr)
    ((-c1 * d / tr ^ 2) * log tr + (c1 / tr + c2) * d / tr)
    ((2 * c1 * d ^ 2 / tr ^ 3) * log tr + (-c1 * d / tr ^ 2) * d / tr + (-c1 * d / tr ^ 2) * d / tr
      - (c1 / tr + c2) * (d / tr) ^ 2)
    ((-3 * 2 * c1 * d ^ 3 / tr ^ 4) * log tr + (2 * c1 * d ^ 2 / tr ^ 3) * d / tr
      + (2 * c1 * d ^ 2 / tr ^ 3) * d / tr - (-c1 * d / tr ^ 2) * (d / tr) ^ 2
      + (2 * c1 * d ^ 2 / tr ^ 3) * d / tr - (-c1 * d / tr ^ 2) * (d / tr) ^ 2
      - (-c1 * d / tr ^ 2) * (d / tr) ^ 2 + 2 * (c1 / tr + c2) * (d / tr) ^ 3)

/-- `Ai` and its derivatives (`water.c` 548-551). -/
noncomputable def gasJ (t : ℝ) : J :=
  let Z := gasHead t + (gasRows.map fun c => gasTerm c t).sum
  ofT (-rg * t * Z.v) (-rg * Z.v - rg * t * Z.t) (-2 * rg * Z.t - rg * t * Z.tt)
    (-3 * rg * Z.tt - rg * t * Z.ttt)

/-- The Helmholtz energy `A` and its derivatives (`water.c` 555-564); the ideal-gas function does not
depend on density (its dependence is in the base function), so the source leaves it out of the
derivatives with respect to density, which are zero here. -/
noncomputable def helm (t rh : ℝ) : J := baseJ t rh + resJ t rh + gasJ t

/-! ## Properties -/

/-- `p` (`water.c` 568). -/
noncomputable def press (t rh : ℝ) : ℝ := rh * rh * (helm t rh).r
/-- `dpdrh` (`water.c` 569). -/
noncomputable def dpdrh (A : J) (rh : ℝ) : ℝ := 2 * rh * A.r + rh * rh * A.rr
/-- `dpdt` (`water.c` 570). -/
noncomputable def dpdt (A : J) (rh : ℝ) : ℝ := rh * rh * A.tr
/-- `drhdt` (`water.c` 571). -/
noncomputable def drhdt (A : J) (rh : ℝ) : ℝ := -dpdt A rh / dpdrh A rh
/-- `d2pdt2` (`water.c` 572). -/
noncomputable def d2pdt2 (A : J) (rh : ℝ) : ℝ := rh * rh * A.ttr
/-- `d2pdtdrh` (`water.c` 573). -/
noncomputable def d2pdtdrh (A : J) (rh : ℝ) : ℝ := 2 * rh * A.tr + rh * rh * A.trr
/-- `d2pdrh2` (`water.c` 574). -/
noncomputable def d2pdrh2 (A : J) (rh : ℝ) : ℝ := 2 * A.r + 4 * rh * A.rr + rh * rh * A.rrr

open StdState (Std)

/-- The properties per gram (`water.c` 576-592), from the Helmholtz energy and its derivatives `A` at
a temperature and density.  The last argument of `Std` is `d2vdtdp`, the one before it `d2vdp2`. -/
noncomputable def perGram (t rh : ℝ) (A : J) : Std :=
  let p := rh * rh * A.r
  let dpr := dpdrh A rh
  let dpt := dpdt A rh
  let rt := drhdt A rh
  let vtt := 2 * rt ^ 2 / rh ^ 3
    - ((-d2pdt2 A rh - 2 * d2pdtdrh A rh * rt - d2pdrh2 A rh * rt ^ 2) / dpr) / rh ^ 2
  { g := A.v + p / rh
    h := A.v + p / rh - t * A.t
    s := -A.t
    v := 1 / rh
    cp := -t * A.tt + (t / (rh * rh)) * dpt ^ 2 / dpr
    dcpdt := (-A.tt - t * A.ttt + (dpt / rh) ^ 2 / dpr
        + t * (2 * dpr * dpt * d2pdt2 A rh - dpt ^ 2 * d2pdtdrh A rh) / (rh * dpr) ^ 2)
      + t * vtt * dpt
    dvdt := -(1 / rh ^ 2) * rt
    dvdp := -(1 / rh ^ 2) / dpr
    d2vdt2 := vtt
    d2vdp2 := (1 / rh ^ 2) * d2pdrh2 A rh / dpr ^ 3 + (2 / rh ^ 3) / dpr ^ 2
    d2vdtdp := -2 * dpt / (rh ^ 3 * dpr ^ 2)
      - ((-d2pdtdrh A rh / dpr - d2pdrh2 A rh * rt / dpr) / dpr) / rh ^ 2 }

/-- Per mole: energies in joules, volumes in cm³ (`water.c` 594-604). -/
noncomputable def perMole (x : Std) : Std :=
  ⟨x.g * 1.80152, x.h * 1.80152, x.s * 1.80152, x.v * 18.0152, x.cp * 1.80152, x.dcpdt * 1.80152,
    x.dvdt * 18.0152, x.dvdp * 18.0152, x.d2vdt2 * 18.0152, x.d2vdp2 * 18.0152, x.d2vdtdp * 18.0152⟩

/-- The reference state: what is added to the Gibbs energy and to the enthalpy (`water.c` 606-617) in
the MELTS modes (`melts`) and in the other ones; `gref`, `href` of 176-177. -/
noncomputable def refer (melts : Bool) : ℝ × ℝ :=
  if melts then (-285829.96 - 298.15 * 69.9146 - -54955.23970014, -285829.96 - -34099.89230644)
  else (-237130.00 - -54955.23970014, -285830.00 - -34099.89230644)

/-- The outputs of `whaar` once the density `rh` has been found (`water.c` 291-617). -/
noncomputable def atDensity (melts : Bool) (t rh : ℝ) : Std :=
  let x := perMole (perGram t rh (helm t rh))
  { x with g := x.g + (refer melts).1, h := x.h + (refer melts).2 }

end Verif.Thermo.Water
