import Verif.Thermo.StdState

/-!
# Standard-state properties of the liquid components (C63)

`gibbs()` called with a liquid record (`sources/gibbs.c` 870-1609): the Gibbs energy, enthalpy,
entropy, volume, heat capacity and their temperature and pressure derivatives of every liquid
component in the three MELTS calculation modes (1.0.x, 1.1.x, 1.2.x).  The pMELTS equation of
state is in `LiquidBM.lean`.

The notion of consistency (`Consistent`) is the one of C60: the reported numbers are the partial
derivatives of the reported Gibbs energy.
-/

open Filter Topology Real

namespace Verif.Thermo.StdState

/-! ## Specification -/

/-- A table that depends on temperature only (a fluid at one fixed pressure) is consistent: its
energy, enthalpy, entropy and heat capacity belong together. -/
structure Thermal (w : ℝ → Std) (t : ℝ) : Prop where
  gibbs : ∀ᶠ t' in 𝓝 t, (w t').g = (w t').h - t' * (w t').s
  heat : HasDerivAt (fun t' => (w t').h) (w t).cp t
  heatS : HasDerivAt (fun t' => (w t').s) ((w t).cp / t) t
  dcpdt : HasDerivAt (fun t' => (w t').cp) (w t).dcpdt t

/-- The same properties with the reported volume lowered by a constant. -/
def Std.lessV (δ : ℝ) (a : Std) : Std := { a with v := a.v - δ }

/-- The same properties with the reported enthalpy lowered by a constant. -/
def Std.lessH (δ : ℝ) (a : Std) : Std := { a with h := a.h - δ }

/-- The same properties with the enthalpy taken as `G + TS`. -/
def Std.withH (t : ℝ) (a : Std) : Std := { a with h := a.g + t * a.s }

/-! ## A tool: consistency from the partial derivatives of one function -/

/-- The record determined by a function `G (t, p)` and its partial derivatives. -/
def ofG (G Gt Gtt Gttt Gp Gpp Gppp Gtp Gttp Gtpp : ℝ → ℝ → ℝ) (t p : ℝ) : Std where
  g := G t p
  h := G t p - t * Gt t p
  s := -Gt t p
  v := Gp t p
  cp := -t * Gtt t p
  dcpdt := -Gtt t p - t * Gttt t p
  dvdt := Gtp t p
  dvdp := Gpp t p
  d2vdt2 := Gttp t p
  d2vdp2 := Gppp t p
  d2vdtdp := Gtpp t p

lemma ofG_consistent {G Gt Gtt Gttt Gp Gpp Gppp Gtp Gttp Gtpp : ℝ → ℝ → ℝ} {t p : ℝ} (ht : 0 < t)
    (h1 : HasDerivAt (fun t => G t p) (Gt t p) t) (h2 : HasDerivAt (fun p => G t p) (Gp t p) p)
    (h3 : HasDerivAt (fun t => Gt t p) (Gtt t p) t) (h4 : HasDerivAt (fun p => Gt t p) (Gtp t p) p)
    (h5 : HasDerivAt (fun t => Gtt t p) (Gttt t p) t)
    (h6 : HasDerivAt (fun t => Gp t p) (Gtp t p) t) (h7 : HasDerivAt (fun p => Gp t p) (Gpp t p) p)
    (h8 : HasDerivAt (fun t => Gtp t p) (Gttp t p) t)
    (h9 : HasDerivAt (fun p => Gtp t p) (Gtpp t p) p)
    (h10 : HasDerivAt (fun p => Gpp t p) (Gppp t p) p)
    (h11 : HasDerivAt (fun t => Gpp t p) (Gtpp t p) t) :
    Consistent (ofG G Gt Gtt Gttt Gp Gpp Gppp Gtp Gttp Gtpp) t p where
  gibbs := by simp only [ofG]; ring
  entropy := h1.congr_deriv (by simp only [ofG, neg_neg])
  volume := h2
  heat := (h1.sub ((hasDerivAt_id t).mul h3)).congr_deriv (by simp only [ofG, id]; ring)
  heatS := h3.neg.congr_deriv (by simp only [ofG]; field_simp)
  maxwell := h4.neg
  dcpdt := (((hasDerivAt_id t).neg).mul h5).congr_deriv (by simp only [ofG, id, Pi.neg_apply]; ring)
  dvdt := h6
  dvdp := h7
  d2vdt2 := h8
  d2vdp2 := h10
  d2vdtdp := h9
  d2vdpdt := h11

/-! ## The code -/

/-- `trl` (`gibbs.c` 855). -/
noncomputable def trl : ℝ := 1673

/-- The `ThermoLiq` record of a liquid component (`includes/silmin.h` 408-414), with the four
numbers of its `EOS_KRESS` block (`silmin.h`, struct `_kress`) and the `ThermoRef` record of the
solid it melts from, whose heat capacity is always of the Berman form (every row of
`includes/liq_struct_data.h`). -/
structure Liq where
  /-- `ref.h` -/
  h : ℝ
  /-- `ref.s` -/
  s : ℝ
  /-- `ref.v` -/
  v : ℝ
  /-- `ref.cp.Berman` -/
  cpRef : Berman
  /-- `ref.eos` -/
  eos : Eos
  /-- `liq.v`, at `trl` -/
  vl : ℝ
  /-- `liq.eos.Kress.dvdt` -/
  dvdt : ℝ
  /-- `liq.eos.Kress.dvdp` -/
  dvdp : ℝ
  /-- `liq.eos.Kress.d2vdtp` -/
  d2vdtp : ℝ
  /-- `liq.eos.Kress.d2vdp2` -/
  d2vdp2 : ℝ
  /-- `liq.tfus` -/
  tfus : ℝ
  /-- `liq.sfus` -/
  sfus : ℝ
  /-- `liq.cp` -/
  cp : ℝ
  /-- `liq.tglass` -/
  tglass : ℝ

/-- The reference solid of a liquid component. -/
def Liq.ref (l : Liq) : Ref := ⟨l.h, l.s, l.v, .berman l.cpRef, l.eos⟩

/-- Pressure terms of a liquid component in the MELTS modes (`gibbs.c` 915-935 for SiO2, 1334-1353
for the others; the two texts agree).  `CUBE(p)` is `p * p * p`. -/
noncomputable def kress (l : Liq) (t p : ℝ) : Std :=
  let gi := (l.vl + l.dvdt * (t - trl)) * (p - pr)
    + 0.5 * (l.dvdp + (t - trl) * l.d2vdtp) * (p * p - pr * pr)
    - (l.dvdp + (t - trl) * l.d2vdtp) * pr * (p - pr)
    + l.d2vdp2 * ((p * p * p - pr * pr * pr) / 6 - pr * (p * p - pr * pr) / 2
      + pr * pr * (p - pr) / 2)
  { g := gi
    h := gi - t * (l.dvdt * (p - pr) + 0.5 * l.d2vdtp * (p - pr) * (p - pr))
    s := -(l.dvdt * (p - pr) + 0.5 * l.d2vdtp * (p - pr) * (p - pr))
    v := l.vl + l.dvdt * (t - trl) + (l.dvdp + l.d2vdtp * (t - trl)) * (p - pr)
      + l.d2vdp2 * (0.5 * p * p - pr * (p - pr))
    cp := 0
    dcpdt := 0
    dvdt := l.dvdt + l.d2vdtp * (p - pr)
    dvdp := l.dvdp + l.d2vdtp * (t - trl) + l.d2vdp2 * (p - pr)
    d2vdt2 := 0
    d2vdp2 := l.d2vdp2
    d2vdtdp := l.d2vdtp }

/-- Thermal part of liquid SiO2 in the MELTS modes (`gibbs.c` 880-913). -/
noncomputable def sio2Thermal (t : ℝ) : Std :=
  if t ≥ 1480 then
    let hl := -901554 + 127.2 * (1480 - tr) + -10.777e-3 * (1480 ^ 2 - tr * tr) / 2
      - 4.3127e5 * (1 / 1480 - 1 / tr) + 2 * -1463.8 * (√1480 - √tr)
    let sl := 48.475 + 127.2 * Real.log (1480 / tr) + -10.777e-3 * (1480 - tr)
      - (4.3127e5 / 2) * (1 / 1480 ^ 2 - 1 / tr ^ 2) - 2 * -1463.8 * (1 / √1480 - 1 / √tr)
    let hl := hl + (t - 1480) * 81.373
    let sl := sl + 81.373 * Real.log (t / 1480)
    ⟨hl - t * sl, hl, sl, 0, 81.373, 0, 0, 0, 0, 0, 0⟩
  else
    let hl := -901554 + 127.2 * (t - tr) + -10.777e-3 * (t * t - tr * tr) / 2
      - 4.3127e5 * (1 / t - 1 / tr) + 2 * -1463.8 * (√t - √tr)
    let sl := 48.475 + 127.2 * Real.log (t / tr) + -10.777e-3 * (t - tr)
      - (4.3127e5 / 2) * (1 / t ^ 2 - 1 / tr ^ 2) - 2 * -1463.8 * (1 / √t - 1 / √tr)
    ⟨hl - t * sl, hl, sl, 0, 127.2 + -10.777e-3 * t + 4.3127e5 / (t * t) + -1463.8 / √t,
      -10.777e-3 - 2 * 4.3127e5 / t ^ 3 - 0.5 * -1463.8 / t ^ (3 / 2 : ℝ), 0, 0, 0, 0, 0⟩

/-- Enthalpy and entropy of the liquid at the fusion temperature (`gibbs.c` 1282-1286): those of the
reference solid at one bar, which `gibbs()` computes under the name "dummy" so that no special case
applies, plus the fusion terms.  The code keeps them in the `fus` record of the component; since the
reference data never change, the stored numbers are always these.  A component without reference
data keeps the zeros of the static table. -/
noncomputable def fusionH (l : Liq) (V : Solver) : ℝ :=
  if l.h ≠ 0 then (solid l.ref V l.tfus pr).h + l.tfus * l.sfus else 0
/-- See `fusionH`. -/
noncomputable def fusionS (l : Liq) (V : Solver) : ℝ :=
  if l.h ≠ 0 then (solid l.ref V l.tfus pr).s + l.sfus else 0

/-- Thermal part of every other component (`gibbs.c` 1287-1326). -/
noncomputable def liqThermal (l : Liq) (V : Solver) (t : ℝ) : Std :=
  if t > l.tglass then
    let hl := fusionH l V + l.cp * (t - l.tfus)
    let sl := fusionS l V + l.cp * Real.log (t / l.tfus)
    ⟨hl - t * sl, hl, sl, 0, l.cp, 0, 0, 0, 0, 0, 0⟩
  else
    let b := l.cpRef
    let k0 := b.k0 + (l.cp - (b.k0 + b.k1 / √l.tglass + b.k2 / l.tglass ^ 2
      + b.k3 / l.tglass ^ 3))
    let hl := fusionH l V + l.cp * (l.tglass - l.tfus) + k0 * (t - l.tglass)
      + 2 * b.k1 * (√t - √l.tglass) - b.k2 * (1 / t - 1 / l.tglass)
      - 0.5 * b.k3 * (1 / t ^ 2 - 1 / l.tglass ^ 2)
    let sl := fusionS l V + l.cp * Real.log (l.tglass / l.tfus) + k0 * Real.log (t / l.tglass)
      - 2 * b.k1 * (1 / √t - 1 / √l.tglass) - 0.5 * b.k2 * (1 / t ^ 2 - 1 / l.tglass ^ 2)
      - (1 / 3) * b.k3 * (1 / t ^ 3 - 1 / l.tglass ^ 3)
    let cpl := k0 + b.k1 / √t + b.k2 / (t * t) + b.k3 / t ^ 3
    let dcpl := -0.5 * b.k1 / t ^ (3 / 2 : ℝ) - 2 * b.k2 / t ^ 3 - 3 * b.k3 / t ^ 4
    if t < b.Tt then
      let hl := hl + 0.5 * b.l1 * b.l1 * (t * t - b.Tt * b.Tt)
        + (2 / 3) * b.l1 * b.l2 * (t ^ 3 - b.Tt ^ 3) + 0.25 * b.l2 * b.l2 * (t ^ 4 - b.Tt ^ 4)
      let sl := sl + b.l1 * b.l1 * (t - b.Tt) + b.l1 * b.l2 * (t * t - b.Tt * b.Tt)
        + (1 / 3) * b.l2 * b.l2 * (t ^ 3 - b.Tt ^ 3)
      ⟨hl - t * sl, hl, sl, 0, cpl + t * (b.l1 + b.l2 * t) ^ 2,
        dcpl + ((b.l1 + b.l2 * t) ^ 2 + t * 2 * (b.l1 + b.l2 * t) * b.l2), 0, 0, 0, 0, 0⟩
    else ⟨hl - t * sl, hl, sl, 0, cpl, dcpl, 0, 0, 0, 0, 0⟩

/-- The bracket of `gRobie` (`gibbs.c` 972-973, 1020) and its derivatives as they appear in
`dgRobiedt`, `d2gRobiedt2` and `d3gRobiedt3` (974-987, 1021-1032; the two texts agree). -/
noncomputable def rob0 (t : ℝ) : ℝ := 2.9147 * Real.log t - 9.6863e-4 * t + 6.8593e-8 * t * t
  + 77.8899 / √t - 28954.8 / t - 2263.27 / t ^ 2 - 15.8997
/-- See `rob0`. -/
noncomputable def rob1 (t : ℝ) : ℝ := 2.9147 / t - 9.6863e-4 + 2 * 6.8593e-8 * t
  - 0.5 * 77.8899 / t ^ (1.5 : ℝ) + 28954.8 / t ^ 2 + 2 * 2263.27 / t ^ 3
/-- See `rob0`. -/
noncomputable def rob2 (t : ℝ) : ℝ := -2.9147 / t ^ 2 + 2 * 6.8593e-8
  + 1.5 * 0.5 * 77.8899 / t ^ (2.5 : ℝ) - 2 * 28954.8 / t ^ 3 - 6 * 2263.27 / t ^ 4
/-- See `rob0`. -/
noncomputable def rob3 (t : ℝ) : ℝ := 2 * 2.9147 / t ^ 3 - 2.5 * 1.5 * 0.5 * 77.8899 / t ^ (3.5 : ℝ)
  + 6 * 28954.8 / t ^ 4 + 24 * 2263.27 / t ^ 5
/-- `gRobie` -/
noncomputable def gRobie (t : ℝ) : ℝ := rgas * t * rob0 t
/-- `dgRobiedt` -/
noncomputable def dgRobie (t : ℝ) : ℝ := rgas * rob0 t + rgas * t * rob1 t
/-- `d2gRobiedt2` -/
noncomputable def d2gRobie (t : ℝ) : ℝ := 2 * rgas * rob1 t + rgas * t * rob2 t
/-- `d3gRobiedt3` -/
noncomputable def d3gRobie (t : ℝ) : ℝ := 3 * rgas * rob2 t + rgas * t * rob3 t

/-- Dissolved water in MELTS 1.0 and 1.1 (`gibbs.c` 957-1014).  `w` is `whaar(1.0, t, …)`, water at
one bar (modelled in `Verif/Thermo/Water`); its enthalpy is not used. -/
noncomputable def h2oMelts (w : ℝ → Std) (l : Liq) (t p : ℝ) : Std :=
  let a := -33676 + l.h / rgas
  let b := 18.3527 - l.s / rgas
  let phi := (0.110 / t + 4.432e-5 + 1.405e-7 * t - 2.394e-11 * t * t) * p
    + (7.337e-8 / t - 1.170e-8 - 9.502e-13 * t) * p * p
    + (1.876e-10 / t + 4.586e-13) * p ^ 3 - 1.191e-14 * p ^ 4 / t
  let dphi := (-0.110 / t ^ 2 + 1.405e-7 - 2 * 2.394e-11 * t) * p
    + (-7.337e-8 / t ^ 2 - 9.502e-13) * p * p
    - 1.876e-10 * p ^ 3 / t ^ 2 + 1.191e-14 * p ^ 4 / t ^ 2
  let d2phi := (2 * 0.110 / t ^ 3 - 2 * 2.394e-11) * p + 2 * 7.337e-8 * p * p / t ^ 3
    + 2 * 1.876e-10 * p ^ 3 / t ^ 3 - 2 * 1.191e-14 * p ^ 4 / t ^ 3
  let d3phi := -6 * 0.110 * p / t ^ 4 - 6 * 7.337e-8 * p * p / t ^ 4
    - 6 * 1.876e-10 * p ^ 3 / t ^ 4 + 6 * 1.191e-14 * p ^ 4 / t ^ 4
  let gl := rgas * t * (a / t + b + phi) + (w t).g - gRobie t
  let dg := rgas * (a / t + b + phi) + rgas * t * (-a / t ^ 2 + dphi) - dgRobie t
  let sl := (w t).s - dg
  let d2g := 2 * rgas * (-a / t ^ 2 + dphi) + rgas * t * (2 * a / t ^ 3 + d2phi) - d2gRobie t
  let d3g := 3 * rgas * (2 * a / t ^ 3 + d2phi) + rgas * t * (-6 * a / t ^ 4 + d3phi) - d3gRobie t
  { g := gl
    h := gl + t * sl
    s := sl
    cp := (w t).cp - t * d2g
    dcpdt := (w t).dcpdt - d2g - t * d3g
    v := rgas * (0.110 + 4.432e-5 * t + 1.405e-7 * t * t - 2.394e-11 * t ^ 3)
      + 2 * rgas * (7.337e-8 - 1.170e-8 * t - 9.502e-13 * t * t) * p
      + 3 * rgas * (1.876e-10 + 4.586e-13 * t) * p * p - 4 * rgas * 1.191e-14 * p ^ 3
    dvdt := rgas * (4.432e-5 + 2 * 1.405e-7 * t - 3 * 2.394e-11 * t * t)
      - 2 * rgas * (1.170e-8 + 2 * 9.502e-13 * t) * p + 3 * rgas * 4.586e-13 * p * p
    dvdp := 2 * rgas * (7.337e-8 - 1.170e-8 * t - 9.502e-13 * t * t)
      + 6 * rgas * (1.876e-10 + 4.586e-13 * t) * p - 12 * rgas * 1.191e-14 * p * p
    d2vdt2 := rgas * (2 * 1.405e-7 - 6 * 2.394e-11 * t) - 4 * rgas * 9.502e-13 * p
    d2vdp2 := 6 * rgas * (1.876e-10 + 4.586e-13 * t) - 24 * rgas * 1.191e-14 * p
    d2vdtdp := -2 * rgas * (1.170e-8 + 2 * 9.502e-13 * t) + 6 * rgas * 4.586e-13 * p }

/-- Dissolved water in MELTS 1.2 (`gibbs.c` 1017-1059). -/
noncomputable def h2oMixed (w : ℝ → Std) (l : Liq) (t p : ℝ) : Std :=
  let a := -33676 + l.h / rgas + 2783.6851512128 / rgas
  let b := 18.3527 - l.s / rgas - 2.3838467967178 / rgas
  let dg := rgas * (a / t + b) + rgas * t * (-a / t ^ 2) - dgRobie t + 1.086e-3 * (p - 1)
  let d2g := 2 * rgas * (-a / t ^ 2) + rgas * t * (2 * a / t ^ 3) - d2gRobie t
  let d3g := 3 * rgas * (2 * a / t ^ 3) + rgas * t * (-6 * a / t ^ 4) - d3gRobie t
  { g := rgas * t * (a / t + b) + (w t).g - gRobie t + 2.775 * (p - 1)
      + 1.086e-3 * (t - 1673.15) * (p - 1) + 0.5 * -0.382e-4 * (p - 1) * (p - 1)
    h := rgas * t * (a / t + b) + (w t).g - gRobie t + t * ((w t).s - dg) + 2.775 * (p - 1)
      + 1.086e-3 * (t - 1673.15) * (p - 1) + 0.5 * -0.382e-4 * (p - 1) * (p - 1)
    s := (w t).s - dg
    cp := (w t).cp - t * d2g
    dcpdt := (w t).dcpdt - d2g - t * d3g
    v := 2.775 + 1.086e-3 * (t - 1673.15) + -0.382e-4 * (p - 1)
    dvdt := 1.086e-3
    dvdp := -0.382e-4
    d2vdt2 := 0
    d2vdp2 := 0
    d2vdtdp := 0 }

/-- Dissolved carbon dioxide in MELTS 1.1 and 1.2 (`gibbs.c` 1062-1086).  `c` is
`propertiesOfPureCO2(t, 1.0, …)`, which is not modelled. -/
noncomputable def co2 (c : ℝ → Std) (t p : ℝ) : Std where
  g := (c t).g + -630.93193811701 - t * -109.39331414050 + 4.0157994267547 * (p - pr)
    + 1.213189e-3 * (t - trl) * (p - pr)
    + -0.4267387e-4 * (p * p / 2 - pr * pr / 2 - pr * (p - pr))
  h := (c t).h + -630.93193811701 + 4.0157994267547 * (p - pr)
    + 1.213189e-3 * (t - trl) * (p - pr)
    + -0.4267387e-4 * (p * p / 2 - pr * pr / 2 - pr * (p - pr)) - t * 1.213189e-3 * (p - pr)
  s := (c t).s + -109.39331414050 - 1.213189e-3 * (p - pr)
  cp := (c t).cp
  dcpdt := (c t).dcpdt
  v := 4.0157994267547 + 1.213189e-3 * (t - trl) + -0.4267387e-4 * (p - pr)
  dvdt := 1.213189e-3
  dvdp := -0.4267387e-4
  d2vdt2 := 0
  d2vdp2 := 0
  d2vdtdp := 0

/-- `getCaCO3properties` (`gibbs.c` 2888-2944) from the properties of liquid CaSiO3, CO2 and SiO2.
Line 2915 and its two companions add the second temperature derivatives of the volumes to the
second pressure derivative, and nothing is ever written to the second temperature derivative, which
keeps the zero `gibbs()` starts from (line 872). -/
def caco3Raw (casio3 co2 sio2 : Std) : Std where
  g := casio3.g + co2.g - sio2.g
  h := casio3.h + co2.h - sio2.h
  s := casio3.s + co2.s - sio2.s
  cp := casio3.cp + co2.cp - sio2.cp
  dcpdt := casio3.dcpdt + co2.dcpdt - sio2.dcpdt
  v := casio3.v + co2.v - sio2.v
  dvdt := casio3.dvdt + co2.dvdt - sio2.dvdt
  dvdp := casio3.dvdp + co2.dvdp - sio2.dvdp
  d2vdt2 := 0
  d2vdtdp := casio3.d2vdtdp + co2.d2vdtdp - sio2.d2vdtdp
  d2vdp2 := casio3.d2vdp2 + co2.d2vdt2 + co2.d2vdp2 - sio2.d2vdt2 - sio2.d2vdp2

/-- Liquid CaCO3 in MELTS 1.1 and 1.2 (`gibbs.c` 1089-1099). -/
noncomputable def caco3 (casio3 co2 sio2 : Std) (p : ℝ) : Std :=
  let r := caco3Raw casio3 co2 sio2
  { r with
    h := r.h + -17574.497522747
    v := r.v + -1.9034060173857
    g := r.g + (-17574.497522747 + -1.9034060173857 * (p - pr)) }

/-- The three MELTS calculation modes (`includes/silmin.h`: `MODE__MELTS`, `MODE__MELTSandCO2`,
`MODE__MELTSandCO2_H2O`). -/
inductive MeltsMode where
  | v10 | v11 | v12
  deriving DecidableEq

/-- `gibbs()` for a liquid component in a MELTS mode (`gibbs.c` 871-1355, 1596-1608).  `L` gives the
row of the liquid table with a label, `w` is water at one bar and `c` carbon dioxide at one bar. -/
noncomputable def gibbsLiquid (m : MeltsMode) (L : String → Liq) (V : Solver) (w c : ℝ → Std)
    (name : String) (t p : ℝ) : Std :=
  if name = "SiO2" then sio2Thermal t + kress (L "SiO2") t p
  else if name = "H2O" ∧ m ≠ .v12 then h2oMelts w (L "H2O") t p
  else if name = "H2O" then h2oMixed w (L "H2O") t p
  else if name = "CO2" ∧ m ≠ .v10 then co2 c t p
  else if name = "CaCO3" ∧ m ≠ .v10 then
    caco3 (liqThermal (L "CaSiO3") V t + kress (L "CaSiO3") t p) (co2 c t p)
      (sio2Thermal t + kress (L "SiO2") t p) p
  else liqThermal (L name) V t + kress (L name) t p

/-! ## Consistency of the pieces -/

lemma Consistent.shiftV {F : ℝ → ℝ → Std} {t p : ℝ} (δ : ℝ)
    (hF : Consistent (fun t p => (F t p).lessV δ) t p) :
    HasDerivAt (fun t' => (F t' p).v) (F t p).dvdt t ∧
      HasDerivAt (fun p' => (F t p').v) (F t p).dvdp p := by
  constructor
  · have := hF.dvdt.add_const δ
    simpa [Std.lessV] using this
  · have := hF.dvdp.add_const δ
    simpa [Std.lessV] using this

lemma lessV_add (δ : ℝ) (a b : Std) : (a + b).lessV δ = a + b.lessV δ := by
  refine Std.ext rfl rfl rfl ?_ rfl rfl rfl rfl rfl rfl rfl
  show a.v + b.v - δ = a.v + (b.v - δ)
  ring

lemma thermal_consistent {w : ℝ → Std} {t p : ℝ} (ht : 0 < t) (h : Thermal w t) :
    Consistent (fun t _ => ⟨(w t).g, (w t).h, (w t).s, 0, (w t).cp, (w t).dcpdt, 0, 0, 0, 0, 0⟩)
      t p := by
  refine (thermal (H := fun t => (w t).h) (S := fun t => (w t).s) (C := fun t => (w t).cp)
    (D := fun t => (w t).dcpdt) ht h.heat h.heatS h.dcpdt).congr ?_ ?_
  · filter_upwards [h.gibbs] with x hx
    rw [hx]
  · filter_upwards with q
    rw [h.gibbs.self_of_nhds]

/-- The pressure terms are consistent once the reported volume is lowered by half the second
pressure derivative. -/
theorem C63_pressure_terms (l : Liq) {t : ℝ} (p : ℝ) (ht : 0 < t) :
    Consistent (fun t p => (kress l t p).lessV (l.d2vdp2 / 2)) t p := by
  have ht1 : ∀ a b : ℝ, HasDerivAt (fun t : ℝ => a + b * (t - trl)) b t := fun a b => by
    simpa using ((((hasDerivAt_id t).sub_const trl).const_mul b).const_add a)
  have hp1 : ∀ a b : ℝ, HasDerivAt (fun p : ℝ => a + b * (p - pr)) b p := fun a b => by
    simpa using ((((hasDerivAt_id p).sub_const pr).const_mul b).const_add a)
  have hp2 : ∀ a b c : ℝ, HasDerivAt (fun p : ℝ => a + b * (p - pr) + c * (p - pr) ^ 2)
      (b + c * (2 * (p - pr))) p := fun a b c => by
    have := (((hasDerivAt_id p).sub_const pr).pow 2).const_mul c
    exact ((hp1 a b).add this).congr_deriv (by simp)
  have hp3 : ∀ a b c d : ℝ, HasDerivAt (fun p : ℝ => a + b * (p - pr) + c * (p - pr) ^ 2
      + d * (p - pr) ^ 3) (b + c * (2 * (p - pr)) + d * (3 * (p - pr) ^ 2)) p := fun a b c d => by
    have := (((hasDerivAt_id p).sub_const pr).pow 3).const_mul d
    exact ((hp2 a b c).add this).congr_deriv (by simp)
  refine (ofG_consistent (t := t) (p := p)
    (G := fun t p => 0 + (l.vl + l.dvdt * (t - trl)) * (p - pr)
      + (l.dvdp + l.d2vdtp * (t - trl)) / 2 * (p - pr) ^ 2 + l.d2vdp2 / 6 * (p - pr) ^ 3)
    (Gt := fun _ p => 0 + l.dvdt * (p - pr) + l.d2vdtp / 2 * (p - pr) ^ 2)
    (Gtt := fun _ _ => 0) (Gttt := fun _ _ => 0)
    (Gp := fun t p => l.vl + l.dvdt * (t - trl) + (l.dvdp + l.d2vdtp * (t - trl)) * (p - pr)
      + l.d2vdp2 / 2 * (p - pr) ^ 2)
    (Gpp := fun t p => l.dvdp + l.d2vdtp * (t - trl) + l.d2vdp2 * (p - pr))
    (Gppp := fun _ _ => l.d2vdp2)
    (Gtp := fun _ p => l.dvdt + l.d2vdtp * (p - pr)) (Gttp := fun _ _ => 0)
    (Gtpp := fun _ _ => l.d2vdtp) ht ?_ ?_ ?_ ?_ ?_ ?_ ?_ ?_ ?_ ?_ ?_).congr ?_ ?_
  · refine ((ht1 (l.vl * (p - pr) + l.dvdp / 2 * (p - pr) ^ 2 + l.d2vdp2 / 6 * (p - pr) ^ 3)
      (0 + l.dvdt * (p - pr) + l.d2vdtp / 2 * (p - pr) ^ 2))).congr_of_eventuallyEq ?_
    filter_upwards with x
    ring
  · exact (hp3 _ _ _ _).congr_deriv (by ring)
  · exact hasDerivAt_const _ _
  · exact (hp2 _ _ _).congr_deriv (by ring)
  · exact hasDerivAt_const _ _
  · refine (ht1 (l.vl + l.dvdp * (p - pr) + l.d2vdp2 / 2 * (p - pr) ^ 2)
      (l.dvdt + l.d2vdtp * (p - pr))).congr_of_eventuallyEq ?_
    filter_upwards with x
    ring
  · exact (hp2 _ _ _).congr_deriv (by ring)
  · exact hasDerivAt_const _ _
  · exact hp1 _ _
  · exact hp1 _ _
  · refine (ht1 (l.dvdp + l.d2vdp2 * (p - pr)) l.d2vdtp).congr_of_eventuallyEq ?_
    filter_upwards with x
    ring
  · filter_upwards with x
    ext <;> simp only [ofG, kress, Std.lessV, pr] <;> ring
  · filter_upwards with x
    ext <;> simp only [ofG, kress, Std.lessV, pr] <;> ring

lemma std_add (a b : Std) : a + b = ⟨a.g + b.g, a.h + b.h, a.s + b.s, a.v + b.v, a.cp + b.cp,
  a.dcpdt + b.dcpdt, a.dvdt + b.dvdt, a.dvdp + b.dvdp, a.d2vdt2 + b.d2vdt2, a.d2vdp2 + b.d2vdp2,
  a.d2vdtdp + b.d2vdtdp⟩ := rfl

/-- A constant heat capacity. -/
lemma constCp (h0 s0 c t0 t1 : ℝ) {t : ℝ} (p : ℝ) (ht : 0 < t) (ht1 : t1 ≠ 0) :
    Consistent (fun t _ => ⟨h0 + c * (t - t0) - t * (s0 + c * Real.log (t / t1)),
      h0 + c * (t - t0), s0 + c * Real.log (t / t1), 0, c, 0, 0, 0, 0, 0, 0⟩) t p := by
  refine thermal (H := fun t => h0 + c * (t - t0)) (S := fun t => s0 + c * Real.log (t / t1))
    (C := fun _ => c) (D := fun _ => 0) ht ?_ ?_ (hasDerivAt_const _ _)
  · simpa using ((((hasDerivAt_id t).sub_const t0).const_mul c).const_add h0)
  · exact (((d_logq ht1 ht).const_mul c).const_add s0).congr_deriv (by ring)

/-- The heat capacity `t (l1 + l2 t)²` of a lambda transition, integrated from `T`. -/
noncomputable def lam (l1 l2 T t : ℝ) : Std :=
  let hl := 0.5 * l1 * l1 * (t * t - T * T) + (2 / 3) * l1 * l2 * (t ^ 3 - T ^ 3)
    + 0.25 * l2 * l2 * (t ^ 4 - T ^ 4)
  let sl := l1 * l1 * (t - T) + l1 * l2 * (t * t - T * T) + (1 / 3) * l2 * l2 * (t ^ 3 - T ^ 3)
  ⟨hl - t * sl, hl, sl, 0, t * (l1 + l2 * t) ^ 2,
    (l1 + l2 * t) ^ 2 + t * 2 * (l1 + l2 * t) * l2, 0, 0, 0, 0, 0⟩

lemma lam_consistent (l1 l2 T : ℝ) {t : ℝ} (p : ℝ) (ht : 0 < t) :
    Consistent (fun t _ => lam l1 l2 T t) t p := by
  unfold lam
  refine thermal (H := fun t => _) (S := fun t => _) (C := fun t => _) (D := fun t => _)
    ht ?_ ?_ ?_
  · have h2 := (((((hasDerivAt_pow 2 t).sub_const (T ^ 2)).const_mul (1 / 2 * l1 ^ 2)).add
      (((hasDerivAt_pow 3 t).sub_const (T ^ 3)).const_mul (2 / 3 * l1 * l2))).add
      (((hasDerivAt_pow 4 t).sub_const (T ^ 4)).const_mul (1 / 4 * l2 ^ 2)))
    refine (h2.congr_deriv ?_).congr_of_eventuallyEq (Eventually.of_forall fun x => ?_)
    · push_cast; ring
    · simp only [Pi.add_apply]; push_cast; ring
  · have h2 := (((((hasDerivAt_id t).sub_const T).const_mul (l1 ^ 2)).add
      (((hasDerivAt_pow 2 t).sub_const (T ^ 2)).const_mul (l1 * l2))).add
      (((hasDerivAt_pow 3 t).sub_const (T ^ 3)).const_mul (1 / 3 * l2 ^ 2)))
    refine (h2.congr_deriv ?_).congr_of_eventuallyEq (Eventually.of_forall fun x => ?_)
    · field_simp; push_cast; ring
    · simp only [Pi.add_apply, id]; push_cast; ring
  · have h2 := (hasDerivAt_id t).mul ((((hasDerivAt_id t).const_mul l2).const_add l1).fun_pow 2)
    refine (h2.congr_deriv ?_).congr_of_eventuallyEq (Eventually.of_forall fun x => ?_)
    · simp only [id]; push_cast; ring
    · simp

/-- Liquid silica away from its glass transition. -/
lemma sio2_consistent {t : ℝ} (p : ℝ) (ht : 0 < t) (h : t ≠ 1480) :
    Consistent (fun t _ => sio2Thermal t) t p := by
  rcases lt_or_gt_of_ne h with h1 | h1
  · refine (C60_cpSaxena (-901554) 48.475 ⟨127.2, -10.777e-3, 4.3127e5, 0, 0, -1463.8, 0⟩ p
      ht).congr ?_ ?_
    · filter_upwards [gt_mem_nhds h1] with x hx
      simp only [sio2Thermal, if_neg (not_le.2 hx), ge_iff_le, cpSaxena]
      ext <;> ring_nf
    · filter_upwards with q
      simp only [sio2Thermal, if_neg (not_le.2 h1), ge_iff_le, cpSaxena]
      ext <;> ring_nf
  · refine (constCp (-901554 + 127.2 * (1480 - tr) + -10.777e-3 * (1480 ^ 2 - tr * tr) / 2
      - 4.3127e5 * (1 / 1480 - 1 / tr) + 2 * -1463.8 * (√1480 - √tr))
      (48.475 + 127.2 * Real.log (1480 / tr) + -10.777e-3 * (1480 - tr)
      - (4.3127e5 / 2) * (1 / 1480 ^ 2 - 1 / tr ^ 2) - 2 * -1463.8 * (1 / √1480 - 1 / √tr))
      81.373 1480 1480 p ht (by norm_num)).congr ?_ ?_
    · filter_upwards [lt_mem_nhds h1] with x hx
      simp only [sio2Thermal, if_pos hx.le, ge_iff_le]
      ext <;> ring
    · filter_upwards with q
      simp only [sio2Thermal, if_pos h1.le, ge_iff_le]
      ext <;> ring

/-- Away from the glass transition of the component and, in its glass, from the transition of its
reference solid. -/
def Liq.NotAtGlass (l : Liq) (t : ℝ) : Prop := t ≠ l.tglass ∧ (t < l.tglass → t ≠ l.cpRef.Tt)

lemma liq_consistent (l : Liq) (V : Solver) {t : ℝ} (p : ℝ) (ht : 0 < t) (hf : l.tfus ≠ 0)
    (h : l.NotAtGlass t) : Consistent (fun t _ => liqThermal l V t) t p := by
  rcases lt_or_gt_of_ne h.1 with h1 | h1
  · have hg : 0 < l.tglass := ht.trans h1
    set k0 := l.cpRef.k0 + (l.cp - (l.cpRef.k0 + l.cpRef.k1 / √l.tglass
      + l.cpRef.k2 / l.tglass ^ 2 + l.cpRef.k3 / l.tglass ^ 3)) with hk0
    set h0 := fusionH l V + l.cp * (l.tglass - l.tfus) + k0 * (tr - l.tglass)
      + 2 * l.cpRef.k1 * (√tr - √l.tglass) - l.cpRef.k2 * (1 / tr - 1 / l.tglass)
      - 0.5 * l.cpRef.k3 * (1 / tr ^ 2 - 1 / l.tglass ^ 2) with hh0
    set s0 := fusionS l V + l.cp * Real.log (l.tglass / l.tfus)
      + k0 * (Real.log tr - Real.log l.tglass)
      - 2 * l.cpRef.k1 * (1 / √tr - 1 / √l.tglass)
      - 0.5 * l.cpRef.k2 * (1 / tr ^ 2 - 1 / l.tglass ^ 2)
      - (1 / 3) * l.cpRef.k3 * (1 / tr ^ 3 - 1 / l.tglass ^ 3) with hs0
    have base := C60_cpBerman h0 s0 ⟨k0, l.cpRef.k1, l.cpRef.k2, l.cpRef.k3, 0, 0, 0, 0⟩ p ht
      (Or.inl rfl)
    have key : ∀ x, 0 < x → x < l.tglass → liqThermal l V x =
        cpBerman h0 s0 ⟨k0, l.cpRef.k1, l.cpRef.k2, l.cpRef.k3, 0, 0, 0, 0⟩ x
        + if x < l.cpRef.Tt then lam l.cpRef.l1 l.cpRef.l2 l.cpRef.Tt x
          else ⟨0, 0, 0, 0, 0, 0, 0, 0, 0, 0, 0⟩ := by
      intro x hx hxg
      have e1 : Real.log (x / l.tglass) = Real.log x - Real.log l.tglass :=
        Real.log_div hx.ne' hg.ne'
      have e2 : Real.log (x / tr) = Real.log x - Real.log tr := Real.log_div hx.ne' tr_pos.ne'
      simp only [liqThermal, gt_iff_lt, if_neg (not_lt.2 hxg.le), cpBerman, ne_eq,
        not_true_eq_false, if_false, std_add, ← hk0, e1, e2]
      clear_value k0
      split_ifs
      · rw [hh0, hs0]
        ext <;> simp only [lam] <;> ring
      · rw [hh0, hs0]
        ext <;> simp only [] <;> ring
    rcases lt_or_gt_of_ne (h.2 h1) with h2 | h2
    · refine (base.add (lam_consistent l.cpRef.l1 l.cpRef.l2 l.cpRef.Tt p ht)).congr ?_ ?_
      · filter_upwards [gt_mem_nhds h1, lt_mem_nhds ht, gt_mem_nhds h2] with x a b c
        rw [key x b a, if_pos c]
      · filter_upwards with q
        rw [key t ht h1, if_pos h2]
    · refine (base.add (thermal (H := fun _ => 0) (S := fun _ => 0) (C := fun _ => 0)
        (D := fun _ => 0) ht (hasDerivAt_const _ _)
        ((hasDerivAt_const _ _).congr_deriv (by simp)) (hasDerivAt_const _ _))).congr ?_ ?_
      · filter_upwards [gt_mem_nhds h1, lt_mem_nhds ht, lt_mem_nhds h2] with x a b c
        rw [key x b a, if_neg (not_lt.2 c.le)]
        simp
      · filter_upwards with q
        rw [key t ht h1, if_neg (not_lt.2 h2.le)]
        simp
  · refine (constCp (fusionH l V) (fusionS l V) l.cp l.tfus l.tfus p ht hf).congr ?_ ?_
    · filter_upwards [lt_mem_nhds h1] with x hx
      simp only [liqThermal, gt_iff_lt, if_pos hx]
    · filter_upwards with q
      simp only [liqThermal, gt_iff_lt, if_pos h1]

/-! ### Dissolved water and carbon dioxide -/

lemma rob_deriv {t : ℝ} (ht : 0 < t) : HasDerivAt rob0 (rob1 t) t ∧ HasDerivAt rob1 (rob2 t) t ∧
    HasDerivAt rob2 (rob3 t) t := by
  have hr : 0 < √t := Real.sqrt_pos.2 ht
  have e15 : ∀ x : ℝ, x ^ (1.5 : ℝ) = x ^ (3 / 2 : ℝ) := fun x => by norm_num
  have e25 : ∀ x : ℝ, x ^ (2.5 : ℝ) = x ^ (5 / 2 : ℝ) := fun x => by norm_num
  have e35 : t ^ (3.5 : ℝ) = t ^ 3 * √t := by
    rw [show (3.5 : ℝ) = (3:ℕ) + 1/2 by norm_num, Real.rpow_add ht, Real.rpow_natCast,
      Real.sqrt_eq_rpow]
  have d25 : HasDerivAt (fun t : ℝ => 1 / t ^ (5 / 2 : ℝ)) (-(5 / 2 / (t ^ 3 * √t))) t := by
    have h := (Real.hasDerivAt_rpow_const (p := -(5 / 2:ℝ)) (Or.inl ht.ne'))
    refine (h.congr_deriv ?_).congr_of_eventuallyEq ?_
    · rw [show (-(5 / 2) - 1 : ℝ) = -(3.5) by norm_num, Real.rpow_neg ht.le, e35]; ring
    · filter_upwards [lt_mem_nhds ht] with x hx
      rw [Real.rpow_neg hx.le, one_div]
  refine ⟨?_, ?_, ?_⟩
  · have := (((((((d_log ht).const_mul 2.9147).sub ((hasDerivAt_id t).const_mul 9.6863e-4)).add
      ((hasDerivAt_pow 2 t).const_mul 6.8593e-8)).add ((d_isqrt ht).const_mul 77.8899)).sub
      ((d_inv ht).const_mul 28954.8)).sub ((d_ipow 2 ht).const_mul 2263.27)).sub_const 15.8997
    refine (this.congr_deriv ?_).congr_of_eventuallyEq (Eventually.of_forall fun x => ?_)
    · unfold rob1; rw [e15, rpow15 ht]; push_cast; field_simp; ring
    · simp only [rob0, Pi.add_apply, Pi.sub_apply, id]; ring
  · have := ((((((d_inv ht).const_mul 2.9147).sub_const 9.6863e-4).add
      ((hasDerivAt_id t).const_mul (2 * 6.8593e-8))).sub ((d_i15 ht).const_mul (0.5 * 77.8899))).add
      ((d_ipow 2 ht).const_mul 28954.8)).add ((d_ipow 3 ht).const_mul (2 * 2263.27))
    refine (this.congr_deriv ?_).congr_of_eventuallyEq (Eventually.of_forall fun x => ?_)
    · unfold rob2; rw [e25, rpow25 ht]; push_cast; field_simp; ring
    · simp only [rob1, Pi.add_apply, Pi.sub_apply, id, e15]; ring
  · have := (((((d_ipow 2 ht).const_mul (-2.9147)).add_const (2 * 6.8593e-8)).add
      (d25.const_mul (1.5 * 0.5 * 77.8899))).sub ((d_ipow 3 ht).const_mul (2 * 28954.8))).sub
      ((d_ipow 4 ht).const_mul (6 * 2263.27))
    refine (this.congr_deriv ?_).congr_of_eventuallyEq (Eventually.of_forall fun x => ?_)
    · unfold rob3; rw [e35]; push_cast; field_simp; ring
    · simp only [rob2, Pi.add_apply, Pi.sub_apply, e25]; ring

/-- The record of `gRobie`. -/
noncomputable def robRec (t : ℝ) : Std := ⟨gRobie t, gRobie t - t * dgRobie t, -dgRobie t, 0,
  -t * d2gRobie t, -d2gRobie t - t * d3gRobie t, 0, 0, 0, 0, 0⟩

lemma rob_consistent {t : ℝ} (p : ℝ) (ht : 0 < t) : Consistent (fun t _ => robRec t) t p := by
  obtain ⟨h0, h1, h2⟩ := rob_deriv ht
  refine ofG_consistent (G := fun t _ => gRobie t) (Gt := fun t _ => dgRobie t)
    (Gtt := fun t _ => d2gRobie t) (Gttt := fun t _ => d3gRobie t) (Gp := fun _ _ => 0)
    (Gpp := fun _ _ => 0) (Gppp := fun _ _ => 0) (Gtp := fun _ _ => 0) (Gttp := fun _ _ => 0)
    (Gtpp := fun _ _ => 0) ht ?_ (hasDerivAt_const _ _) ?_ (hasDerivAt_const _ _) ?_
    (hasDerivAt_const _ _) (hasDerivAt_const _ _) (hasDerivAt_const _ _) (hasDerivAt_const _ _)
    (hasDerivAt_const _ _) (hasDerivAt_const _ _)
  · refine ((((hasDerivAt_id t).const_mul rgas).mul h0).congr_deriv ?_)
    simp only [dgRobie, id]; ring
  · refine ((h0.const_mul rgas).add (((hasDerivAt_id t).const_mul rgas).mul h1)).congr_deriv ?_
    simp only [d2gRobie, id]; ring
  · refine ((h1.const_mul (2 * rgas)).add
      (((hasDerivAt_id t).const_mul rgas).mul h2)).congr_deriv ?_
    simp only [d3gRobie, id]; ring

lemma poly4 (a b c d e x : ℝ) :
    HasDerivAt (fun x : ℝ => a + b * x + c * x ^ 2 + d * x ^ 3 + e * x ^ 4)
      (b + 2 * c * x + 3 * d * x ^ 2 + 4 * e * x ^ 3) x := by
  have := (((((hasDerivAt_id x).const_mul b).const_add a).add
    ((hasDerivAt_pow 2 x).const_mul c)).add ((hasDerivAt_pow 3 x).const_mul d)).add
    ((hasDerivAt_pow 4 x).const_mul e)
  refine this.congr_deriv ?_
  push_cast; ring

lemma poly4' {f : ℝ → ℝ} {x f' : ℝ} (a b c d e : ℝ)
    (hf : ∀ x, f x = a + b * x + c * x ^ 2 + d * x ^ 3 + e * x ^ 4)
    (hf' : f' = b + 2 * c * x + 3 * d * x ^ 2 + 4 * e * x ^ 3) : HasDerivAt f f' x := by
  rw [hf', show f = _ from funext hf]
  exact poly4 a b c d e x

/-- The record of `r t φ(t, p)` with its pressure terms, as a polynomial. -/
noncomputable def phiRec (t p : ℝ) : Std := ofG
  (fun t p => rgas * ((0.110 + 4.432e-5 * t + 1.405e-7 * t ^ 2 - 2.394e-11 * t ^ 3) * p
    + (7.337e-8 - 1.170e-8 * t - 9.502e-13 * t ^ 2) * p ^ 2
    + (1.876e-10 + 4.586e-13 * t) * p ^ 3 - 1.191e-14 * p ^ 4))
  (fun t p => rgas * ((4.432e-5 + 2 * 1.405e-7 * t - 3 * 2.394e-11 * t ^ 2) * p
    + (-1.170e-8 - 2 * 9.502e-13 * t) * p ^ 2 + 4.586e-13 * p ^ 3))
  (fun t p => rgas * ((2 * 1.405e-7 - 6 * 2.394e-11 * t) * p + (-2 * 9.502e-13) * p ^ 2))
  (fun _ p => rgas * ((-6 * 2.394e-11) * p))
  (fun t p => rgas * ((0.110 + 4.432e-5 * t + 1.405e-7 * t ^ 2 - 2.394e-11 * t ^ 3)
    + 2 * (7.337e-8 - 1.170e-8 * t - 9.502e-13 * t ^ 2) * p
    + 3 * (1.876e-10 + 4.586e-13 * t) * p ^ 2 - 4 * 1.191e-14 * p ^ 3))
  (fun t p => rgas * (2 * (7.337e-8 - 1.170e-8 * t - 9.502e-13 * t ^ 2)
    + 6 * (1.876e-10 + 4.586e-13 * t) * p - 12 * 1.191e-14 * p ^ 2))
  (fun t p => rgas * (6 * (1.876e-10 + 4.586e-13 * t) - 24 * 1.191e-14 * p))
  (fun t p => rgas * ((4.432e-5 + 2 * 1.405e-7 * t - 3 * 2.394e-11 * t ^ 2)
    + 2 * (-1.170e-8 - 2 * 9.502e-13 * t) * p + 3 * 4.586e-13 * p ^ 2))
  (fun t p => rgas * ((2 * 1.405e-7 - 6 * 2.394e-11 * t) + 2 * (-2 * 9.502e-13) * p))
  (fun t p => rgas * (2 * (-1.170e-8 - 2 * 9.502e-13 * t) + 6 * 4.586e-13 * p)) t p

lemma phi_consistent {t : ℝ} (p : ℝ) (ht : 0 < t) : Consistent phiRec t p := by
  refine ofG_consistent ht ?_ ?_ ?_ ?_ ?_ ?_ ?_ ?_ ?_ ?_ ?_
  · exact poly4' (rgas * (0.110 * p + 7.337e-8 * p ^ 2 + 1.876e-10 * p ^ 3 - 1.191e-14 * p ^ 4))
      (rgas * (4.432e-5 * p - 1.170e-8 * p ^ 2 + 4.586e-13 * p ^ 3))
      (rgas * (1.405e-7 * p - 9.502e-13 * p ^ 2)) (rgas * (-2.394e-11 * p)) 0
      (fun x => by ring) (by ring)
  · exact poly4' 0 (rgas * (0.110 + 4.432e-5 * t + 1.405e-7 * t ^ 2 - 2.394e-11 * t ^ 3))
      (rgas * (7.337e-8 - 1.170e-8 * t - 9.502e-13 * t ^ 2)) (rgas * (1.876e-10 + 4.586e-13 * t))
      (rgas * -1.191e-14) (fun x => by ring) (by ring)
  · exact poly4' (rgas * (4.432e-5 * p - 1.170e-8 * p ^ 2 + 4.586e-13 * p ^ 3))
      (2 * (rgas * (1.405e-7 * p - 9.502e-13 * p ^ 2))) (3 * (rgas * (-2.394e-11 * p))) 0 0
      (fun x => by ring) (by ring)
  · exact poly4' 0 (rgas * (4.432e-5 + 2 * 1.405e-7 * t - 3 * 2.394e-11 * t ^ 2))
      (rgas * (-1.170e-8 - 2 * 9.502e-13 * t)) (rgas * 4.586e-13) 0 (fun x => by ring) (by ring)
  · exact poly4' (2 * (rgas * (1.405e-7 * p - 9.502e-13 * p ^ 2)))
      (6 * (rgas * (-2.394e-11 * p))) 0 0 0 (fun x => by ring) (by ring)
  · exact poly4' (rgas * (0.110 + 2 * 7.337e-8 * p + 3 * 1.876e-10 * p ^ 2
      - 4 * 1.191e-14 * p ^ 3)) (rgas * (4.432e-5 - 2 * 1.170e-8 * p + 3 * 4.586e-13 * p ^ 2))
      (rgas * (1.405e-7 - 2 * 9.502e-13 * p)) (rgas * -2.394e-11) 0 (fun x => by ring) (by ring)
  · exact poly4' (rgas * (0.110 + 4.432e-5 * t + 1.405e-7 * t ^ 2 - 2.394e-11 * t ^ 3))
      (2 * rgas * (7.337e-8 - 1.170e-8 * t - 9.502e-13 * t ^ 2))
      (3 * rgas * (1.876e-10 + 4.586e-13 * t)) (rgas * (-4 * 1.191e-14)) 0
      (fun x => by ring) (by ring)
  · exact poly4' (rgas * (4.432e-5 - 2 * 1.170e-8 * p + 3 * 4.586e-13 * p ^ 2))
      (rgas * (2 * 1.405e-7 - 4 * 9.502e-13 * p)) (rgas * (-3 * 2.394e-11)) 0 0
      (fun x => by ring) (by ring)
  · exact poly4' (rgas * (4.432e-5 + 2 * 1.405e-7 * t - 3 * 2.394e-11 * t ^ 2))
      (2 * rgas * (-1.170e-8 - 2 * 9.502e-13 * t)) (3 * rgas * 4.586e-13) 0 0
      (fun x => by ring) (by ring)
  · exact poly4' (rgas * (2 * (7.337e-8 - 1.170e-8 * t - 9.502e-13 * t ^ 2)))
      (6 * rgas * (1.876e-10 + 4.586e-13 * t)) (rgas * (-12 * 1.191e-14)) 0 0
      (fun x => by ring) (by ring)
  · exact poly4' (rgas * (2 * 7.337e-8 + 6 * 1.876e-10 * p - 12 * 1.191e-14 * p ^ 2))
      (rgas * (-2 * 1.170e-8 + 6 * 4.586e-13 * p)) (rgas * (-2 * 9.502e-13)) 0 0
      (fun x => by ring) (by ring)

lemma h2oMelts_consistent {w : ℝ → Std} (l : Liq) {t : ℝ} (p : ℝ) (ht : 0 < t)
    (hw : Thermal (fun t => (w t).withH t) t) : Consistent (h2oMelts w l) t p := by
  obtain ⟨u, hu, hu'⟩ : ∃ u, Thermal u t ∧ h2oMelts w l = h2oMelts u l := ⟨_, hw, rfl⟩
  clear hw
  rw [hu']
  clear hu'
  rename' hu => hw
  clear w
  rename' u => w
  have base := (((thermal_consistent (p := p) ht hw).add
    ((rob_consistent p ht).scale (-1))).add (shift_consistent (rgas * (-33676 + l.h / rgas))
    (-(rgas * (18.3527 - l.s / rgas))) (p := p) ht)).add (phi_consistent p ht)
  have key : ∀ x q, 0 < x → (w x).g = (w x).h - x * (w x).s → h2oMelts w l x q =
      ⟨(w x).g, (w x).h, (w x).s, 0, (w x).cp, (w x).dcpdt, 0, 0, 0, 0, 0⟩ + (robRec x).scale (-1)
      + shift (rgas * (-33676 + l.h / rgas)) (-(rgas * (18.3527 - l.s / rgas))) x
      + phiRec x q := by
    intro x q hx hg
    simp only [h2oMelts, std_add, Std.scale, robRec, shift, phiRec, ofG]
    generalize -33676 + l.h / rgas = a
    generalize 18.3527 - l.s / rgas = b
    ext <;> simp only [hg] <;> field_simp <;> ring
  refine base.congr ?_ ?_
  · filter_upwards [lt_mem_nhds ht, hw.gibbs] with x hx hg
    exact key x p hx hg
  · filter_upwards with q
    exact key t q ht hw.gibbs.self_of_nhds

/-- A volume linear in temperature and pressure. -/
lemma linV (v0 a b t0 p0 : ℝ) {t : ℝ} (p : ℝ) (ht : 0 < t) :
    Consistent (fun t p => ⟨(v0 + a * (t - t0)) * (p - p0) + b / 2 * (p - p0) ^ 2,
      (v0 + a * (t - t0)) * (p - p0) + b / 2 * (p - p0) ^ 2 - t * (a * (p - p0)), -(a * (p - p0)),
      v0 + a * (t - t0) + b * (p - p0), 0, 0, a, b, 0, 0, 0⟩) t p := by
  refine (ofG_consistent (t := t) (p := p)
    (G := fun t p => (v0 + a * (t - t0)) * (p - p0) + b / 2 * (p - p0) ^ 2)
    (Gt := fun _ p => a * (p - p0)) (Gtt := fun _ _ => 0) (Gttt := fun _ _ => 0)
    (Gp := fun t p => v0 + a * (t - t0) + b * (p - p0)) (Gpp := fun _ _ => b)
    (Gppp := fun _ _ => 0) (Gtp := fun _ _ => a) (Gttp := fun _ _ => 0) (Gtpp := fun _ _ => 0)
    ht ?_ ?_ ?_ ?_ ?_ ?_ ?_ ?_ ?_ ?_ ?_).congr ?_ ?_
  · exact poly4' ((v0 - a * t0) * (p - p0) + b / 2 * (p - p0) ^ 2) (a * (p - p0)) 0 0 0
      (fun x => by ring) (by ring)
  · exact poly4' (-(v0 + a * (t - t0)) * p0 + b / 2 * p0 ^ 2) (v0 + a * (t - t0) - b * p0) (b / 2)
      0 0 (fun x => by ring) (by ring)
  · exact hasDerivAt_const _ _
  · exact poly4' (-a * p0) a 0 0 0 (fun x => by ring) (by ring)
  · exact hasDerivAt_const _ _
  · exact poly4' (v0 - a * t0 + b * (p - p0)) a 0 0 0 (fun x => by ring) (by ring)
  · exact poly4' (v0 + a * (t - t0) - b * p0) b 0 0 0 (fun x => by ring) (by ring)
  all_goals first | exact hasDerivAt_const _ _ | skip
  · filter_upwards with x
    ext <;> simp only [ofG] <;> ring
  · filter_upwards with x
    ext <;> simp only [ofG] <;> ring

lemma h2oMixed_consistent {w : ℝ → Std} (l : Liq) {t : ℝ} (p : ℝ) (ht : 0 < t)
    (hw : Thermal (fun t => (w t).withH t) t) : Consistent (h2oMixed w l) t p := by
  obtain ⟨u, hu, hu'⟩ : ∃ u, Thermal u t ∧ h2oMixed w l = h2oMixed u l := ⟨_, hw, rfl⟩
  clear hw
  rw [hu']
  clear hu'
  rename' hu => hw
  clear w
  rename' u => w
  have base := (((thermal_consistent (p := p) ht hw).add
    ((rob_consistent p ht).scale (-1))).add
    (shift_consistent (rgas * (-33676 + l.h / rgas + 2783.6851512128 / rgas))
    (-(rgas * (18.3527 - l.s / rgas - 2.3838467967178 / rgas))) (p := p) ht)).add
    (linV 2.775 1.086e-3 (-0.382e-4) 1673.15 1 p ht)
  have key : ∀ x q, 0 < x → (w x).g = (w x).h - x * (w x).s → h2oMixed w l x q =
      ⟨(w x).g, (w x).h, (w x).s, 0, (w x).cp, (w x).dcpdt, 0, 0, 0, 0, 0⟩ + (robRec x).scale (-1)
      + shift (rgas * (-33676 + l.h / rgas + 2783.6851512128 / rgas))
        (-(rgas * (18.3527 - l.s / rgas - 2.3838467967178 / rgas))) x
      + ⟨(2.775 + 1.086e-3 * (x - 1673.15)) * (q - 1) + (-0.382e-4) / 2 * (q - 1) ^ 2,
      (2.775 + 1.086e-3 * (x - 1673.15)) * (q - 1) + (-0.382e-4) / 2 * (q - 1) ^ 2
        - x * (1.086e-3 * (q - 1)), -(1.086e-3 * (q - 1)),
      2.775 + 1.086e-3 * (x - 1673.15) + (-0.382e-4) * (q - 1), 0, 0, 1.086e-3, -0.382e-4,
        0, 0, 0⟩ := by
    intro x q hx hg
    simp only [h2oMixed, std_add, Std.scale, robRec, shift]
    generalize -33676 + l.h / rgas + 2783.6851512128 / rgas = a
    generalize 18.3527 - l.s / rgas - 2.3838467967178 / rgas = b
    ext <;> simp only [hg] <;> field_simp <;> ring
  refine base.congr ?_ ?_
  · filter_upwards [lt_mem_nhds ht, hw.gibbs] with x hx hg
    exact key x p hx hg
  · filter_upwards with q
    exact key t q ht hw.gibbs.self_of_nhds

lemma co2_consistent {c : ℝ → Std} {t : ℝ} (p : ℝ) (ht : 0 < t) (hc : Thermal c t) :
    Consistent (co2 c) t p := by
  have base := ((thermal_consistent (p := p) ht hc).add
    (shift_consistent (-630.93193811701) (-109.39331414050) (p := p) ht)).add
    (linV 4.0157994267547 1.213189e-3 (-0.4267387e-4) trl pr p ht)
  have key : ∀ x q, (c x).g = (c x).h - x * (c x).s → co2 c x q =
      ⟨(c x).g, (c x).h, (c x).s, 0, (c x).cp, (c x).dcpdt, 0, 0, 0, 0, 0⟩
      + shift (-630.93193811701) (-109.39331414050) x
      + ⟨(4.0157994267547 + 1.213189e-3 * (x - trl)) * (q - pr) + (-0.4267387e-4) / 2 * (q - pr) ^ 2,
      (4.0157994267547 + 1.213189e-3 * (x - trl)) * (q - pr) + (-0.4267387e-4) / 2 * (q - pr) ^ 2
        - x * (1.213189e-3 * (q - pr)), -(1.213189e-3 * (q - pr)),
      4.0157994267547 + 1.213189e-3 * (x - trl) + (-0.4267387e-4) * (q - pr), 0, 0, 1.213189e-3,
        -0.4267387e-4, 0, 0, 0⟩ := by
    intro x q hg
    simp only [co2, std_add, shift]
    ext <;> simp only [hg] <;> ring
  refine base.congr ?_ ?_
  · filter_upwards [hc.gibbs] with x hg
    exact key x p hg
  · filter_upwards with q
    exact key t q hc.gibbs.self_of_nhds

/-! ## The property -/

/-- What the reported volume of a component exceeds the pressure derivative of its energy by, in
J/bar: half the second pressure derivative of the table (of the order of `1e-10`). -/
noncomputable def excessV (m : MeltsMode) (L : String → Liq) (name : String) : ℝ :=
  if name = "H2O" then 0
  else if name = "CO2" ∧ m ≠ .v10 then 0
  else if name = "CaCO3" ∧ m ≠ .v10 then ((L "CaSiO3").d2vdp2 - (L "SiO2").d2vdp2) / 2
  else (L name).d2vdp2 / 2

/-- What the reported enthalpy of a component exceeds `G + T S` by, in J: nothing, except that
liquid CaCO3 gets a volume correction in its energy and not in its enthalpy (`gibbs.c` 1097-1099). -/
noncomputable def excessH (m : MeltsMode) (name : String) (p : ℝ) : ℝ :=
  if name = "CaCO3" ∧ m ≠ .v10 then 1.9034060173857 * (p - 1) else 0

/-- The temperature is not one at which a formula switches. -/
def NotAtSwitch (m : MeltsMode) (L : String → Liq) (name : String) (t : ℝ) : Prop :=
  if name = "SiO2" then t ≠ 1480
  else if name = "H2O" then True
  else if name = "CO2" ∧ m ≠ .v10 then True
  else if name = "CaCO3" ∧ m ≠ .v10 then t ≠ 1480 ∧ (L "CaSiO3").NotAtGlass t
  else (L name).NotAtGlass t

lemma liquid_aux (m : MeltsMode) (L : String → Liq) (V : Solver) (w c : ℝ → Std) (name : String)
    {t : ℝ} (p : ℝ) (ht : 0 < t) (hf : ∀ n, (L n).tfus ≠ 0) (hs : NotAtSwitch m L name t)
    (hw : Thermal (fun t => (w t).withH t) t) (hc : Thermal c t) (h4 : ¬(name = "CaCO3" ∧ m ≠ .v10)) :
    Consistent (fun t p => (gibbsLiquid m L V w c name t p).lessV (excessV m L name)) t p := by
  have zero : ∀ F : ℝ → ℝ → Std, Consistent F t p → Consistent (fun t p => (F t p).lessV 0) t p := by
    intro F hF
    refine hF.congr (Eventually.of_forall fun x => ?_) (Eventually.of_forall fun x => ?_) <;>
      ext <;> simp [Std.lessV]
  unfold gibbsLiquid
  by_cases h1 : name = "SiO2"
  · subst h1
    simp only [NotAtSwitch, if_true, excessV, show ("SiO2" = "H2O") = False by simp, if_false,
      show ("SiO2" = "CO2") = False by simp, false_and,
      show ("SiO2" = "CaCO3") = False by simp] at hs ⊢
    simp only [lessV_add]
    exact (sio2_consistent p ht hs).add (C63_pressure_terms _ p ht)
  simp only [if_neg h1, NotAtSwitch, excessV] at hs ⊢
  by_cases h2 : name = "H2O"
  · subst h2
    simp only [true_and, if_true]
    split_ifs
    · exact zero _ (h2oMelts_consistent _ p ht hw)
    · exact zero _ (h2oMixed_consistent _ p ht hw)
  simp only [h2, false_and, if_false] at hs ⊢
  by_cases h3 : name = "CO2" ∧ m ≠ .v10
  · simp only [if_pos h3]
    exact zero _ (co2_consistent p ht hc)
  simp only [if_neg h3] at hs ⊢
  simp only [if_neg h4] at hs ⊢
  simp only [lessV_add]
  exact (liq_consistent _ V p ht (hf _) hs).add (C63_pressure_terms _ p ht)

/-- **C63**: in the three MELTS modes, for every liquid component of every table, all temperatures
away from the switching temperatures and all pressures: once the reported volume is lowered by the
constant `excessV` and, for CaCO3, the reported enthalpy by `excessH`, the reported energy,
enthalpy, entropy, volume, heat capacity and derivatives belong to one Gibbs energy, given that the
one-bar tables of water and carbon dioxide do. -/
theorem C63_liquid (m : MeltsMode) (L : String → Liq) (V : Solver) (w c : ℝ → Std) (name : String)
    {t : ℝ} (p : ℝ) (ht : 0 < t) (hf : ∀ n, (L n).tfus ≠ 0) (hs : NotAtSwitch m L name t)
    (hw : Thermal (fun t => (w t).withH t) t) (hc : Thermal c t) :
    Consistent (fun t p => ((gibbsLiquid m L V w c name t p).lessV (excessV m L name)).lessH
      (excessH m name p)) t p := by
  by_cases h4 : name = "CaCO3" ∧ m ≠ .v10
  swap
  · have e : ∀ x q, ((gibbsLiquid m L V w c name x q).lessV (excessV m L name)).lessH
        (excessH m name q) = (gibbsLiquid m L V w c name x q).lessV (excessV m L name) := by
      intro x q
      ext <;> simp [Std.lessH, excessH, h4]
    simp only [e]
    exact liquid_aux m L V w c name p ht hf hs hw hc h4
  · have h1 : name ≠ "SiO2" := by rw [h4.1]; decide
    have h2 : name ≠ "H2O" := by rw [h4.1]; decide
    have h3 : ¬(name = "CO2" ∧ m ≠ .v10) := by rw [h4.1]; simp
    simp only [NotAtSwitch, if_neg h1, if_neg h2, if_neg h3, if_pos h4] at hs
    have base := ((((liq_consistent (L "CaSiO3") V p ht (hf _) hs.2).add
      (C63_pressure_terms (L "CaSiO3") p ht)).add (co2_consistent p ht hc)).add
      (((sio2_consistent p ht hs.1).add (C63_pressure_terms (L "SiO2") p ht)).scale (-1))).add
      ((shift_consistent (-17574.497522747) 0 (p := p) ht).add
      (linV (-1.9034060173857) 0 0 0 pr p ht))
    have key : ∀ x q, ((caco3 (liqThermal (L "CaSiO3") V x + kress (L "CaSiO3") x q) (co2 c x q)
        (sio2Thermal x + kress (L "SiO2") x q) q).lessV
          (((L "CaSiO3").d2vdp2 - (L "SiO2").d2vdp2) / 2)).lessH (1.9034060173857 * (q - 1)) =
        liqThermal (L "CaSiO3") V x + (kress (L "CaSiO3") x q).lessV ((L "CaSiO3").d2vdp2 / 2)
        + co2 c x q + (sio2Thermal x + (kress (L "SiO2") x q).lessV ((L "SiO2").d2vdp2 / 2)).scale (-1)
        + (shift (-17574.497522747) 0 x +
        ⟨(-1.9034060173857 + 0 * (x - 0)) * (q - pr) + 0 / 2 * (q - pr) ^ 2,
      (-1.9034060173857 + 0 * (x - 0)) * (q - pr) + 0 / 2 * (q - pr) ^ 2 - x * (0 * (q - pr)),
      -(0 * (q - pr)), -1.9034060173857 + 0 * (x - 0) + 0 * (q - pr), 0, 0, 0, 0, 0, 0, 0⟩) := by
      intro x q
      have e1 : (liqThermal (L "CaSiO3") V x).d2vdt2 = 0 := by
        unfold liqThermal; simp only []; split_ifs <;> rfl
      have e2 : (sio2Thermal x).d2vdt2 = 0 := by
        unfold sio2Thermal; simp only []; split_ifs <;> rfl
      have e3 : ∀ l, (kress l x q).d2vdt2 = 0 := fun l => rfl
      have e4 : (co2 c x q).d2vdt2 = 0 := rfl
      simp only [caco3, caco3Raw, Std.lessV, Std.lessH, std_add, Std.scale, shift, pr]
      ext <;> simp only [e1, e2, e3, e4] <;> ring
    simp only [gibbsLiquid, excessV, excessH, if_neg h1, if_neg h2, if_neg h3, if_pos h4, h2,
      false_and, if_false]
    exact base.congr (Eventually.of_forall fun x => key x p) (Eventually.of_forall fun q => key t q)

/-- **C63**, a defect: in MELTS 1.1 and 1.2 the reported energy of liquid CaCO3 is not its enthalpy
less temperature times entropy; they differ by 1.9 J for every bar above one. -/
theorem C63_caco3_enthalpy (m : MeltsMode) (hm : m ≠ .v10) (L : String → Liq) (V : Solver)
    (w c : ℝ → Std) {t : ℝ} (p : ℝ) (ht : 0 < t) (hf : ∀ n, (L n).tfus ≠ 0) (h1 : t ≠ 1480)
    (h2 : (L "CaSiO3").NotAtGlass t) (hw : Thermal (fun t => (w t).withH t) t) (hc : Thermal c t) :
    (gibbsLiquid m L V w c "CaCO3" t p).g = (gibbsLiquid m L V w c "CaCO3" t p).h
      - t * (gibbsLiquid m L V w c "CaCO3" t p).s - 1.9034060173857 * (p - 1) := by
  have h := (C63_liquid m L V w c "CaCO3" p ht hf (by simp [NotAtSwitch, hm, h1, h2]) hw hc).gibbs
  simp only [Std.lessV, Std.lessH, excessH, hm, ne_eq, not_false_eq_true, and_self, if_true] at h
  rw [h]; ring

/-- **C63**: a component melts where its table says: at the fusion temperature and one bar the
liquid has the Gibbs energy of its reference solid, an entropy higher by the entropy of fusion and
an enthalpy higher by the fusion temperature times that. -/
theorem C63_fusion (m : MeltsMode) (L : String → Liq) (V : Solver) (w c : ℝ → Std) (name : String)
    (h1 : name ≠ "SiO2") (h2 : name ≠ "H2O") (h3 : name ≠ "CO2") (h4 : name ≠ "CaCO3")
    (hh : (L name).h ≠ 0) (hf : 0 < (L name).tfus) (hg : (L name).tglass < (L name).tfus) :
    let liq := gibbsLiquid m L V w c name (L name).tfus 1
    let sol := solid (L name).ref V (L name).tfus 1
    liq.s = sol.s + (L name).sfus ∧ liq.h = sol.h + (L name).tfus * (L name).sfus ∧
      liq.g = sol.h - (L name).tfus * sol.s := by
  have e : gibbsLiquid m L V w c name (L name).tfus 1 =
      liqThermal (L name) V (L name).tfus + kress (L name) (L name).tfus 1 := by
    simp [gibbsLiquid, h1, h2, h3, h4]
  simp only [e, liqThermal, if_pos hg, gt_iff_lt, fusionH, fusionS, hh, ne_eq, not_false_eq_true,
    if_true, std_add, kress, pr, sub_self, div_self hf.ne', Real.log_one]
  refine ⟨by ring, by ring, by ring⟩

/-- **C63**: liquid silica has no jump in energy, enthalpy or entropy at its glass transition. -/
theorem C63_silica_continuous (p : ℝ) (l : Liq) :
    ContinuousAt (fun t => (sio2Thermal t + kress l t p).g) 1480 ∧
      ContinuousAt (fun t => (sio2Thermal t + kress l t p).h) 1480 ∧
      ContinuousAt (fun t => (sio2Thermal t + kress l t p).s) 1480 := by
  have h0 : (0:ℝ) < 1480 := by norm_num
  have hi := constCp (-901554 + 127.2 * (1480 - tr) + -10.777e-3 * (1480 ^ 2 - tr * tr) / 2
      - 4.3127e5 * (1 / 1480 - 1 / tr) + 2 * -1463.8 * (√1480 - √tr))
      (48.475 + 127.2 * Real.log (1480 / tr) + -10.777e-3 * (1480 - tr)
      - (4.3127e5 / 2) * (1 / 1480 ^ 2 - 1 / tr ^ 2) - 2 * -1463.8 * (1 / √1480 - 1 / √tr))
      81.373 1480 1480 p h0 (by norm_num)
  have lo := C60_cpSaxena (-901554) 48.475 ⟨127.2, -10.777e-3, 4.3127e5, 0, 0, -1463.8, 0⟩ p h0
  have hk := C63_pressure_terms l p h0
  have glue : ∀ f a b : ℝ → ℝ, ContinuousAt a 1480 → ContinuousAt b 1480 → a 1480 = b 1480 →
      (∀ t, f t = if t ≥ 1480 then a t else b t) → ContinuousAt f 1480 := by
    intro f a b ha hb hab hf
    have : f = fun t => if 1480 ≤ t then a t else b t := funext fun t => by rw [hf]
    rw [this]
    refine ContinuousAt.congr_of_eventuallyEq (f := fun t => a (max 1480 t) + b (min 1480 t)
      - a 1480) ?_ (Eventually.of_forall fun t => ?_)
    · refine ((ContinuousAt.comp (by simpa using ha) ?_).add
        (ContinuousAt.comp (by simpa using hb) ?_)).sub continuousAt_const
      · exact (continuous_const.max continuous_id).continuousAt
      · exact (continuous_const.min continuous_id).continuousAt
    · by_cases h : 1480 ≤ t
      · simp [h, hab]
      · have h' := (not_le.1 h).le
        simp [h, max_eq_left h', min_eq_right h']
  have kg : ContinuousAt (fun t => (kress l t p).g) 1480 := hk.entropy.continuousAt
  have kh : ContinuousAt (fun t => (kress l t p).h) 1480 := hk.heat.continuousAt
  have ks : ContinuousAt (fun t => (kress l t p).s) 1480 := hk.heatS.continuousAt
  refine ⟨ContinuousAt.add ?_ kg, ContinuousAt.add ?_ kh, ContinuousAt.add ?_ ks⟩
  · refine glue _ _ _ hi.entropy.continuousAt lo.entropy.continuousAt ?_ fun t => ?_
    · simp only [cpSaxena, div_self h0.ne', Real.log_one]; ring
    · simp only [sio2Thermal, cpSaxena]
      split_ifs <;> (simp only []; ring)
  · refine glue _ _ _ hi.heat.continuousAt lo.heat.continuousAt ?_ fun t => ?_
    · simp only [cpSaxena]; ring
    · simp only [sio2Thermal, cpSaxena]
      split_ifs <;> (simp only []; ring)
  · refine glue _ _ _ hi.heatS.continuousAt lo.heatS.continuousAt ?_ fun t => ?_
    · simp only [cpSaxena, div_self h0.ne', Real.log_one]; ring
    · simp only [sio2Thermal, cpSaxena]
      split_ifs <;> first | rfl | (simp only []; ring)

/-! ## A concrete case: the row of TiO2 (`includes/liq_struct_data.h` 542-556) -/

/-- Liquid TiO2 in MELTS 1.0. -/
noncomputable def tio2 : Liq := ⟨-944750, 50.460, 1.882, ⟨77.84, 0, -33.678e5, 40.294e7, 0, 0, 0, 0⟩,
  .berman 0 0 0 0, 2.316, 7.246e-4, -2.310e-5, 0, 5e-10, 1870, 35.824, 109.2, 0⟩

/-- A one-bar table with a constant heat capacity, to have one that is consistent. -/
noncomputable def cp30 (t : ℝ) : Std := ⟨30 * (t - 1) - t * (30 * Real.log t), 30 * (t - 1),
  30 * Real.log t, 0, 30, 0, 0, 0, 0, 0, 0⟩

lemma cp30_thermal {t : ℝ} (ht : 0 < t) : Thermal cp30 t where
  gibbs := Eventually.of_forall fun x => rfl
  heat := by simpa [cp30] using (((hasDerivAt_id t).sub_const 1).const_mul 30)
  heatS := ((d_log ht).const_mul 30).congr_deriv (by simp only [cp30]; ring)
  dcpdt := hasDerivAt_const _ _

lemma cp30_withH {t : ℝ} (ht : 0 < t) : Thermal (fun t => (cp30 t).withH t) t := by
  have : (fun t => (cp30 t).withH t) = cp30 := by
    funext x; simp [Std.withH, cp30]
  rw [this]; exact cp30_thermal ht

/-- The hypotheses of `C63_liquid`, `C63_fusion` and `C63_caco3_enthalpy` are met, and the reported
volume does differ from the pressure derivative of the energy. -/
example (V : Solver) : Consistent (fun t p => ((gibbsLiquid .v11 (fun _ => tio2) V cp30 cp30 "TiO2" t
      p).lessV (excessV .v11 (fun _ => tio2) "TiO2")).lessH (excessH .v11 "TiO2" p)) 1500 1000 ∧
    excessV .v11 (fun _ => tio2) "TiO2" = 2.5e-10 ∧
    (gibbsLiquid .v11 (fun _ => tio2) V cp30 cp30 "TiO2" 1870 1).h
      = (solid tio2.ref V 1870 1).h + 1870 * 35.824 ∧
    (gibbsLiquid .v11 (fun _ => tio2) V cp30 cp30 "CaCO3" 1500 1001).g
      ≠ (gibbsLiquid .v11 (fun _ => tio2) V cp30 cp30 "CaCO3" 1500 1001).h
      - 1500 * (gibbsLiquid .v11 (fun _ => tio2) V cp30 cp30 "CaCO3" 1500 1001).s := by
  have ht : (0:ℝ) < 1500 := by norm_num
  have hf : ∀ n : String, ((fun _ => tio2) n : Liq).tfus ≠ 0 := fun _ => by norm_num [tio2]
  have hng : tio2.NotAtGlass 1500 := ⟨by norm_num [tio2], fun h => by norm_num [tio2] at h⟩
  refine ⟨C63_liquid .v11 _ V cp30 cp30 "TiO2" 1000 ht hf ?_ (cp30_withH ht) (cp30_thermal ht),
    ?_, ?_, ?_⟩
  · simpa [NotAtSwitch] using hng
  · simp [excessV]
    norm_num [tio2]
  · have := (C63_fusion .v11 (fun _ => tio2) V cp30 cp30 "TiO2" (by decide) (by decide) (by decide)
      (by decide) (by norm_num [tio2]) (by norm_num [tio2]) (by norm_num [tio2])).2.1
    simpa [show tio2.tfus = 1870 from rfl, show tio2.sfus = 35.824 from rfl] using this
  · rw [C63_caco3_enthalpy .v11 (by decide) (fun _ => tio2) V cp30 cp30 1001 ht hf (by norm_num) hng
      (cp30_withH ht) (cp30_thermal ht)]
    norm_num

end Verif.Thermo.StdState
