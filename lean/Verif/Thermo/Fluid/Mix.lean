import Verif.Thermo.Fluid.Pure

/-!
# The mixed H2O-CO2 fluid

Model of the mixture part of `sources/fluidPhase.c` at a fixed temperature: the combining rules
(`powSum` 129-134, `BVcAndDerivative` 192-410, `CVcAndDerivative` 412-650, `DVcAndDerivative` 652-852,
`EVcAndDerivative` 854-1074, `FVcAndDerivative` 1076-1235, `BetaAndDerivative` 1237-1254,
`GammaVcAndDerivative` 1256-1328), the driver `duanDriver` 1382-1780, the join at 2000 bar `duan` 1782-1812,
the activities `actFlu` 2446-2535, the Gibbs energy of mixing `gmixFlu` 2537-2607 and the volume of mixing
`vmixFlu` 2763-2860.

Simplifications, everywhere in this file: doubles are real numbers, a repeated quotient `a/v/v/v` is written
`a / v ^ 3`, the temperature derivatives are left out, and so are the branches for a pure
composition, which have the same values as the general branch there, and the answers within
`100.0*DBL_EPSILON` of a pure composition.
-/

namespace Verif.Thermo.Fluid

/-- `a^(1/3)` with the sign of `a` (`fluidPhase.c` 131-132). -/
noncomputable def crt (a : ℝ) : ℝ := if 0 ≤ a then a ^ (1 / 3 : ℝ) else -(-a) ^ (1 / 3 : ℝ)

/-- `powSum` (`fluidPhase.c` 129-134). -/
noncomputable def powSum (a fa b fb : ℝ) : ℝ :=
  let sum := fa * crt a + fb * crt b
  if 0 ≤ sum then (sum / (fa + fb)) ^ 3 else -(-sum / (fa + fb)) ^ 3

/-- The homogeneous polynomial of degree `n` in the two mole fractions with the coefficients `q 0` … `q n`,
each with its binomial factor: `bv`, `cv`, `dv`, `ev`, `fv`, `gammav`, `beta`.  Simplification: the code
writes the sums out (`fluidPhase.c` 320-323, 530-534, 737-743, 954-961, 1172-1175, 1249, 1304-1308); `form_two`
… `form_six` below are the sums it writes. -/
def form : ℕ → (ℕ → ℝ) → ℝ → ℝ → ℝ
  | 0, q, _, _ => q 0
  | n + 1, q, x, y => x * form n q x y + y * form n (fun k => q (k + 1)) x y

/-- The coefficients after the derivative with respect to one mole fraction. -/
def shift : Species → (ℕ → ℝ) → ℕ → ℝ
  | .h2o, q => q
  | .co2, q => fun k => q (k + 1)

/-- `bvPrime[i]` and the others (`fluidPhase.c` 325-331, 536-544, 745-760, 963-978, 1180-1186, 1251-1252,
1310-1318). -/
def form' (n : ℕ) (q : ℕ → ℝ) (i : Species) (x y : ℝ) : ℝ := n * form (n - 1) (shift i q) x y

/-- `b2vPrime2[i][j]` and the others (`fluidPhase.c` 333-336, 546-553 and alike). -/
def form'' (n : ℕ) (q : ℕ → ℝ) (i j : Species) (x y : ℝ) : ℝ :=
  n * ((n - 1 : ℕ) * form (n - 2) (shift j (shift i q)) x y)

/-- The coefficients of the seven polynomials at one temperature. -/
structure Q where
  b : ℕ → ℝ
  c : ℕ → ℝ
  d : ℕ → ℝ
  e : ℕ → ℝ
  f : ℕ → ℝ
  be : ℕ → ℝ
  g : ℕ → ℝ

/-- The coefficient number `k` of a polynomial of degree `n`: the product of the end-member's coefficient and
its volume to the power `m` at both ends, and in between the two means weighted `n - k` to `k` and the
interaction factor (`fluidPhase.c` 320-323, 530-534 and alike). -/
noncomputable def mixed (n m : ℕ) (a b va vb kk : ℝ) (k : ℕ) : ℝ :=
  if k = 0 then a * va ^ m
  else if k = n then b * vb ^ m
  else powSum a ((n : ℝ) - k) b k * kk * powSum va ((n : ℝ) - k) vb k ^ m

/-- `k1` (`fluidPhase.c` 208, 221). -/
noncomputable def k1 (low : Bool) (t : ℝ) : ℝ :=
  if low then 3.131 - 5.0624e-3 * t + 1.8641e-6 * t * t - 31.409 / t
  else 9.034 - 7.9212e-3 * t + 2.3285e-6 * t * t - 2.4221e3 / t

/-- `k2` (`fluidPhase.c` 425, 438). -/
noncomputable def k2 (low : Bool) (t : ℝ) : ℝ :=
  if low then -46.646 + 4.2877e-2 * t - 1.0892e-5 * t * t + 1.5782e4 / t
  else -1.068 + 1.8756e-3 * t - 4.9371e-7 * t * t + 6.6180e2 / t

/-- `k3` (`fluidPhase.c` 1263, 1267). -/
noncomputable def k3 (low : Bool) : ℝ := if low then 0.9 else 1

/-- The coefficients of the mixture at the temperature `t` (`fluidPhase.c` 206-221, 421-444, 657-688,
863-894, 1084-1105, 1240-1246, 1260-1268, and the sums cited at `form`). -/
noncomputable def mixQ (low : Bool) (t : ℝ) : Q :=
  let k := coef .h2o low
  let l := coef .co2 low
  { b := mixed 2 1 (inv k.a1 k.a2 k.a3 k.tc t).x (inv l.a1 l.a2 l.a3 l.tc t).x k.vc l.vc (k1 low t)
    c := mixed 3 2 (inv k.a4 k.a5 k.a6 k.tc t).x (inv l.a4 l.a5 l.a6 l.tc t).x k.vc l.vc (k2 low t)
    d := mixed 5 4 (inv k.a7 k.a8 k.a9 k.tc t).x (inv l.a7 l.a8 l.a9 l.tc t).x k.vc l.vc 1
    e := mixed 6 5 (inv k.a10 k.a11 k.a12 k.tc t).x (inv l.a10 l.a11 l.a12 l.tc t).x k.vc l.vc 1
    f := mixed 2 2 (inv 0 0 k.a k.tc t).x (inv 0 0 l.a l.tc t).x k.vc l.vc 1
    be := fun i => if i = 0 then k.b else l.b
    g := mixed 3 2 k.c l.c k.vc l.vc (k3 low) }

/-- The values of the seven polynomials and their derivatives at one composition. -/
structure Loc where
  b : ℝ
  c : ℝ
  d : ℝ
  e : ℝ
  f : ℝ
  be : ℝ
  g : ℝ
  b' : Species → ℝ
  c' : Species → ℝ
  d' : Species → ℝ
  e' : Species → ℝ
  f' : Species → ℝ
  be' : Species → ℝ
  g' : Species → ℝ
  b'' : Species → Species → ℝ
  c'' : Species → Species → ℝ
  d'' : Species → Species → ℝ
  e'' : Species → Species → ℝ
  f'' : Species → Species → ℝ
  g'' : Species → Species → ℝ

/-- The seven calls at the head of the driver (`fluidPhase.c` 1397-1403), at the mole fractions `x` of H2O and
`y` of CO2. -/
def Q.at (q : Q) (x y : ℝ) : Loc where
  b := form 2 q.b x y
  c := form 3 q.c x y
  d := form 5 q.d x y
  e := form 6 q.e x y
  f := form 2 q.f x y
  be := form 1 q.be x y
  g := form 3 q.g x y
  b' := fun i => form' 2 q.b i x y
  c' := fun i => form' 3 q.c i x y
  d' := fun i => form' 5 q.d i x y
  e' := fun i => form' 6 q.e i x y
  f' := fun i => form' 2 q.f i x y
  be' := fun i => form' 1 q.be i x y
  g' := fun i => form' 3 q.g i x y
  b'' := fun i j => form'' 2 q.b i j x y
  c'' := fun i j => form'' 3 q.c i j x y
  d'' := fun i j => form'' 5 q.d i j x y
  e'' := fun i j => form'' 6 q.e i j x y
  f'' := fun i j => form'' 2 q.f i j x y
  g'' := fun i j => form'' 3 q.g i j x y

/-- `exp(-gammav/v/v)`. -/
noncomputable def xp (g v : ℝ) : ℝ := Real.exp (-g / v ^ 2)

/-- `z` (`fluidPhase.c` 1411, 1427). -/
noncomputable def Loc.z (l : Loc) (v : ℝ) : ℝ :=
  1 + l.b / v + l.c / v ^ 2 + l.d / v ^ 4 + l.e / v ^ 5
    + l.f / v ^ 2 * (l.be + l.g / v ^ 2) * xp l.g v

/-- `lnPhiH2O`, `lnPhiCO2` (`fluidPhase.c` 1436-1456). -/
noncomputable def Loc.ln (l : Loc) (i : Species) (v : ℝ) : ℝ :=
  -Real.log (l.z v) + l.b' i / v + l.c' i / 2 / v ^ 2 + l.d' i / 4 / v ^ 4 + l.e' i / 5 / v ^ 5
    + ((l.f' i * l.be + l.be' i * l.f) / 2 / l.g) * (1 - xp l.g v)
    + ((l.f' i * l.g + l.g' i * l.f - l.f * l.be * (l.g' i - l.g)) / 2 / l.g / l.g)
      * (1 - (l.g / v ^ 2 + 1) * xp l.g v)
    + ((l.g' i - l.g) * l.f / 2 / l.g / l.g)
      * (-2 + (l.g * l.g / v ^ 4 + 2 * l.g / v ^ 2 + 2) * xp l.g v)

/-- `dzdv` (`fluidPhase.c` 1458-1461). -/
noncomputable def Loc.zv (l : Loc) (v : ℝ) : ℝ :=
  -l.b / v ^ 2 - 2 * l.c / v ^ 3 - 4 * l.d / v ^ 5 - 5 * l.e / v ^ 6
    - 2 * (l.f / v ^ 3) * (l.be + l.g / v ^ 2) * xp l.g v
    - 2 * (l.f / v ^ 2) * (l.g / v ^ 3) * xp l.g v
    + 2 * (l.f / v ^ 2) * (l.be + l.g / v ^ 2) * (l.g / v ^ 3) * xp l.g v

/-- `dzdn[i]` (`fluidPhase.c` 1464-1471). -/
noncomputable def Loc.zn (l : Loc) (i : Species) (v : ℝ) : ℝ :=
  1 - l.z v + l.b' i / v + l.c' i / v ^ 2 + l.d' i / v ^ 4 + l.e' i / v ^ 5
    + (l.f' i / v ^ 2) * (l.be + l.g / v ^ 2) * xp l.g v
    + (l.f / v ^ 2) * (l.be' i + l.g' i / v ^ 2) * xp l.g v
    - (l.f / v ^ 4) * (l.g' i - l.g) * (l.be + l.g / v ^ 2) * xp l.g v

/-- `dlnPhiH2OdnH2O` … `dlnPhiCO2dnCO2` (`fluidPhase.c` 1473-1631): the derivative of the coefficient of
the species `i` with respect to the amount of the species `j`. -/
noncomputable def Loc.lnn (l : Loc) (i j : Species) (v : ℝ) : ℝ :=
  let H1 := (l.f' i * l.be + l.be' i * l.f) / 2 / l.g
  let H2 := xp l.g v
  let H3 := (l.f' i * l.g + l.g' i * l.f - l.f * l.be * (l.g' i - l.g)) / 2 / l.g / l.g
  let H4 := l.g / v ^ 2 + 1
  let H5 := (l.g' i - l.g) * l.f / 2 / l.g / l.g
  let H6 := l.g * l.g / v ^ 4 + 2 * l.g / v ^ 2 + 2
  let db' := -l.b' i + l.b'' i j
  let dc' := -2 * l.c' i + l.c'' i j
  let dd' := -4 * l.d' i + l.d'' i j
  let de' := -5 * l.e' i + l.e'' i j
  let df' := -l.f' i + l.f'' i j
  let dg' := -2 * l.g' i + l.g'' i j
  let df := l.f' j - 2 * l.f
  let dbe := l.be' j - l.be
  let dg := l.g' j - 3 * l.g
  let dH1 := (df' * l.be + l.f' i * dbe + l.be' i * df) / 2 / l.g
    - (l.f' i * l.be + l.be' i * l.f) * dg / 2 / l.g / l.g
  let dH2 := (-2 * l.g / v ^ 2 - dg / v ^ 2) * xp l.g v
  let dH3 := (df' * l.g + l.f' i * dg) / 2 / l.g / l.g
    + (dg' * l.f + l.g' i * df) / 2 / l.g / l.g
    - (df * l.be * (l.g' i - l.g) + l.f * dbe * (l.g' i - l.g) + l.f * l.be * (dg' - dg)) / 2 / l.g / l.g
    - 2 * (l.f' i * l.g + l.g' i * l.f - l.f * l.be * (l.g' i - l.g)) * dg / 2 / l.g / l.g / l.g
  let dH4 := 2 * l.g / v ^ 2 + dg / v ^ 2
  let dH5 := (dg' - dg) * l.f / 2 / l.g / l.g + (l.g' i - l.g) * df / 2 / l.g / l.g
    - 2 * (l.g' i - l.g) * l.f * dg / 2 / l.g / l.g / l.g
  let dH6 := 4 * l.g * l.g / v ^ 4 + 2 * l.g * dg / v ^ 4 + 4 * l.g / v ^ 2 + 2 * dg / v ^ 2;
  -l.zn j v / l.z v
    + (l.b' i / v + db' / v)
    + (l.c' i / v ^ 2 + dc' / 2 / v ^ 2)
    + (l.d' i / v ^ 4 + dd' / 4 / v ^ 4)
    + (l.e' i / v ^ 5 + de' / 5 / v ^ 5)
    + (dH1 * (1 - H2) - H1 * dH2)
    + (dH3 * (1 - H4 * H2) - H3 * (dH4 * H2 + H4 * dH2))
    + (dH5 * (H6 * H2 - 2) + H5 * (dH6 * H2 + H6 * dH2))

/-- `dlnPhiH2Odv`, `dlnPhiCO2dv` (`fluidPhase.c` 1633-1651). -/
noncomputable def Loc.lnv (l : Loc) (i : Species) (v : ℝ) : ℝ :=
  -l.zv v / l.z v - l.b' i / v ^ 2 - l.c' i / v ^ 3 - l.d' i / v ^ 5 - l.e' i / v ^ 6
    - ((l.f' i * l.be + l.be' i * l.f) / v ^ 3) * xp l.g v
    - ((l.f' i * l.g + l.g' i * l.f - l.f * l.be * (l.g' i - l.g)) / v ^ 5) * xp l.g v
    + ((l.g' i - l.g) * l.f * l.g / v ^ 7) * xp l.g v

/-- What the driver returns, without the temperature derivatives. -/
structure MOut where
  v : ℝ
  z : ℝ
  dvdp : ℝ
  phi : Species → ℝ
  lp : Species → ℝ
  lr : Species → ℝ

/-- `duanDriver` after the search for the volume (`fluidPhase.c` 1751-1779); `v` is the volume the search
found, and `R` the gas constant in the last two lines (1778-1779), where the program has 8.3143. -/
noncomputable def mixDriver (R : ℝ) (q : Q) (t p r v : ℝ) : MOut :=
  let l := q.at (1 - r) r
  let vp := 1 / (p * (l.zv v / l.z v - 1 / v))
  let lp := fun i => l.lnv i v * vp
  { v := v
    z := l.z v
    dvdp := vp
    phi := fun i => Real.exp (l.ln i v)
    lp := lp
    lr := fun i => l.lnv i v * R * t * (lp .co2 - lp .h2o) - l.lnn i .h2o v + l.lnn i .co2 v }

/-- `duan` (`fluidPhase.c` 1782-1812); `vol low (r, p)` is the volume the search finds with the
coefficients of the flag `low` at the temperature `t`. -/
noncomputable def mixDuan (R : ℝ) (vol : Bool → ℝ × ℝ → ℝ) (low : Bool) (t p r : ℝ) : MOut :=
  let o := mixDriver R (mixQ low t) t p r (vol low (r, p))
  if low then o
  else
    let l := mixDriver R (mixQ true t) t 2000 r (vol true (r, 2000))
    let h := mixDriver R (mixQ false t) t 2000 r (vol false (r, 2000))
    { o with
      phi := fun i => o.phi i * l.phi i / h.phi i
      lr := fun i => o.lr i + l.lr i - h.lr i }

/-- The volumes the searches find: of the mixture as a function of composition and pressure, and of the two
pure species as functions of temperature and pressure. -/
structure Vols where
  mix : Bool → ℝ × ℝ → ℝ
  pure : Species → Bool → ℝ × ℝ → ℝ

/-- The mole fraction of a species (`fluidPhase.c` 2551-2552). -/
def xs (r : ℝ) : Species → ℝ
  | .h2o => 1 - r
  | .co2 => r

/-- `(p <= 2000.0) ? 1 : 0`. -/
noncomputable def isLow (p : ℝ) : Bool := decide (p ≤ 2000)

/-- The activities of `actFlu` (`fluidPhase.c` 2482-2489).  Simplification: the exponential is never zero in
real numbers, so the test on the fugacity coefficient goes. -/
noncomputable def act (V : Vols) (t p r : ℝ) (i : Species) : ℝ :=
  xs r i * (mixDuan Rg V.mix (isLow p) t p r).phi i / (duan i (V.pure i) (isLow p) t p).phi

/-- The chemical potentials of `actFlu` (`fluidPhase.c` 2493-2494). -/
noncomputable def mu (V : Vols) (t p r : ℝ) (i : Species) : ℝ :=
  Rg * t * Real.log (xs r i * (mixDuan Rg V.mix (isLow p) t p r).phi i / (duan i (V.pure i) (isLow p) t p).phi)

/-- `*gmix` (`fluidPhase.c` 2566; 2504). -/
noncomputable def gmix (V : Vols) (t p r : ℝ) : ℝ :=
  let m := mixDuan Rg V.mix (isLow p) t p r
  Rg * t * (xs r .h2o * Real.log (xs r .h2o * m.phi .h2o / (duan .h2o (V.pure .h2o) (isLow p) t p).phi)
    + xs r .co2 * Real.log (xs r .co2 * m.phi .co2 / (duan .co2 (V.pure .co2) (isLow p) t p).phi))

/-- `dx[0]` of `gmixFlu` (`fluidPhase.c` 2570; 2505). -/
noncomputable def gmixX (V : Vols) (t p r : ℝ) : ℝ :=
  let m := mixDuan Rg V.mix (isLow p) t p r
  Rg * t * (Real.log (xs r .co2 * m.phi .co2 / (duan .co2 (V.pure .co2) (isLow p) t p).phi)
    - Real.log (xs r .h2o * m.phi .h2o / (duan .h2o (V.pure .h2o) (isLow p) t p).phi))

/-- `dx2[0][0]` of `gmixFlu` (`fluidPhase.c` 2577; 2506); `R` as in `mixDriver`. -/
noncomputable def gmixXX (R : ℝ) (V : Vols) (t p r : ℝ) : ℝ :=
  let m := mixDuan R V.mix (isLow p) t p r
  Rg * t * (1 / xs r .co2 + 1 / xs r .h2o - m.lr .h2o + m.lr .co2)

/-- `FR0` (`fluidPhase.c` 20). -/
def fr (r : ℝ) : Species → ℝ
  | .h2o => -r
  | .co2 => 1 - r

/-- `DFR0DR0` (`fluidPhase.c` 21). -/
def dfr : ℝ := -1

/-- `dx[i][0]` of `actFlu` (`fluidPhase.c` 2508-2518); `R` as in `mixDriver`. -/
noncomputable def actX (R : ℝ) (V : Vols) (t p r : ℝ) (i : Species) : ℝ :=
  Real.exp ((gmix V t p r + fr r i * gmixX V t p r) / (Rg * t))
    * (((1 + dfr) * gmixX V t p r + fr r i * gmixXX R V t p r) / (Rg * t))

/-- `*vmix` (`fluidPhase.c` 2804). -/
noncomputable def vmix (V : Vols) (t p r : ℝ) : ℝ :=
  (mixDuan Rg V.mix (isLow p) t p r).v - xs r .h2o * (duan .h2o (V.pure .h2o) (isLow p) t p).v
    - xs r .co2 * (duan .co2 (V.pure .co2) (isLow p) t p).v

/-- `dx[0]` of `vmixFlu` (`fluidPhase.c` 2811). -/
noncomputable def vmixX (V : Vols) (t p r : ℝ) : ℝ :=
  let m := mixDuan Rg V.mix (isLow p) t p r
  Rg * t * (m.lp .co2 - m.lp .h2o)
    - Rg * t * ((duan .co2 (V.pure .co2) (isLow p) t p).lp - (duan .h2o (V.pure .h2o) (isLow p) t p).lp)

/-- `*dp` of `vmixFlu` (`fluidPhase.c` 2841). -/
noncomputable def vmixP (V : Vols) (t p r : ℝ) : ℝ :=
  (mixDuan Rg V.mix (isLow p) t p r).dvdp - xs r .h2o * (duan .h2o (V.pure .h2o) (isLow p) t p).dvdp
    - xs r .co2 * (duan .co2 (V.pure .co2) (isLow p) t p).dvdp

/-! ## The polynomials are the sums the code writes -/

section

variable (q : ℕ → ℝ) (x y : ℝ)

lemma form_one : form 1 q x y = q 0 * x + q 1 * y := by simp only [form]; ring

lemma form_two : form 2 q x y = q 0 * x * x + 2 * q 1 * x * y + q 2 * y * y := by simp only [form]; ring

lemma form_three : form 3 q x y
    = q 0 * x * x * x + 3 * q 1 * x * x * y + 3 * q 2 * x * y * y + q 3 * y * y * y := by
  simp only [form]; ring

lemma form_five : form 5 q x y
    = q 0 * x ^ 5 + 5 * q 1 * x ^ 4 * y + 10 * q 2 * x ^ 3 * y ^ 2 + 10 * q 3 * x ^ 2 * y ^ 3
      + 5 * q 4 * x * y ^ 4 + q 5 * y ^ 5 := by
  simp only [form]; ring

lemma form_six : form 6 q x y
    = q 0 * x ^ 6 + 6 * q 1 * x ^ 5 * y + 15 * q 2 * x ^ 4 * y ^ 2 + 20 * q 3 * x ^ 3 * y ^ 3
      + 15 * q 4 * x ^ 2 * y ^ 4 + 6 * q 5 * x * y ^ 5 + q 6 * y ^ 6 := by
  simp only [form]; ring

/-- Euler's identity. -/
lemma form_euler (n : ℕ) (hn : 0 < n) :
    x * form' n q .h2o x y + y * form' n q .co2 x y = n * form n q x y := by
  obtain ⟨n, rfl⟩ := Nat.exists_eq_succ_of_ne_zero hn.ne'
  simp only [form', Nat.succ_sub_one, shift, Nat.succ_eq_add_one, form]
  ring

end

/-! ## Along a path of amounts -/

section

variable {X Y V : ℝ → ℝ} {x' y' w' s : ℝ}

lemma form_comp (q : ℕ → ℝ) (n : ℕ) {U W : ℝ → ℝ} {u' w' : ℝ} (hU : HasDerivAt U u' s)
    (hW : HasDerivAt W w' s) : HasDerivAt (fun s => form n q (U s) (W s))
      (form' n q .h2o (U s) (W s) * u' + form' n q .co2 (U s) (W s) * w') s := by
  induction n generalizing q with
  | zero => simpa [form, form'] using hasDerivAt_const s (q 0)
  | succ n ih =>
    have h := (hU.mul (ih q)).add (hW.mul (ih fun k => q (k + 1)))
    refine h.congr_deriv ?_
    rcases n with _ | n
    · simp only [form', shift]; simp [form]; ring
    · simp only [form', Nat.add_sub_cancel, shift, form]; push_cast; ring

/-- A polynomial of the mole fractions, as a function of the amounts, at a total of one mole. -/
lemma form_path (q : ℕ → ℝ) (n : ℕ) (hX : HasDerivAt X x' s) (hY : HasDerivAt Y y' s) (h1 : X s + Y s = 1) :
    HasDerivAt (fun s => form n q (X s / (X s + Y s)) (Y s / (X s + Y s)))
      ((form' n q .h2o (X s) (Y s) - n * form n q (X s) (Y s)) * x'
        + (form' n q .co2 (X s) (Y s) - n * form n q (X s) (Y s)) * y') s := by
  have hN := hX.add hY
  have h0 : X s + Y s ≠ 0 := by rw [h1]; exact one_ne_zero
  have h := form_comp q n (hX.div hN h0) (hY.div hN h0)
  have e1 : (X / (X + Y)) s = X s := by simp [h1]
  have e2 : (Y / (X + Y)) s = Y s := by simp [h1]
  rw [e1, e2] at h
  refine h.congr_deriv ?_
  simp only [Pi.add_apply, h1]
  rcases n with _ | n
  · simp [form', form]
  · have e := form_euler q (X s) (Y s) (n + 1) n.succ_pos
    linear_combination (x' + y') * (-e)

lemma form_path' (q : ℕ → ℝ) (n : ℕ) (i : Species) (hX : HasDerivAt X x' s) (hY : HasDerivAt Y y' s)
    (h1 : X s + Y s = 1) :
    HasDerivAt (fun s => form' n q i (X s / (X s + Y s)) (Y s / (X s + Y s)))
      ((form'' n q i .h2o (X s) (Y s) - (n - 1 : ℕ) * form' n q i (X s) (Y s)) * x'
        + (form'' n q i .co2 (X s) (Y s) - (n - 1 : ℕ) * form' n q i (X s) (Y s)) * y') s := by
  refine ((form_path (shift i q) (n - 1) hX hY h1).const_mul (n : ℝ)).congr_deriv ?_
  simp only [form', form'', show n - 1 - 1 = n - 2 by omega]
  ring

end

end Verif.Thermo.Fluid
