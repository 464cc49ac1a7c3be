import Verif.Thermo.Fluid.MixTProps

/-!
# The mixed H2O-CO2 fluid: second temperature and pressure derivatives

Model of the second derivatives of the mixture part of `sources/fluidPhase.c`: `D2powSum` 146-163, the
derivatives `d2k1dt2` 214, 227 and `d2k2dt2` 431, 444, the coefficients' second derivatives `d2bvdt2`,
`d2bvPrimedt2` and alike, the second derivatives of the compressibility factor 1673-1682 and of the fugacity
coefficients 1685-1749, the driver's second derivatives 1757-1775, the join at 2000 bar 1788-1810, the heat
capacity of mixing `cpmixFlu` 2707-2761 (value and composition derivative) and the second derivatives of
`vmixFlu` 2845-2872.

Simplifications: as in `MixT.lean`; the third derivatives are left out (the program takes them by finite
differences).
-/

open Filter Topology

namespace Verif.Thermo.Fluid

open Verif.Thermo.Water

/-- `pow(a, 5.0/3.0)` of the magnitude of `a`, with the sign of the term it divides (`fluidPhase.c` 158-159). -/
noncomputable def c5 (a : ℝ) : ℝ := if 0 ≤ a then a ^ (5 / 3 : ℝ) else -(-a) ^ (5 / 3 : ℝ)

/-- `D2powSum` (`fluidPhase.c` 146-163). -/
noncomputable def D2powSum (a fa b fb da db d2a d2b : ℝ) : ℝ :=
  let sum := (fa * crt a + fb * crt b) / (fa + fb)
  let dsum := (da * fa / c2 a / 3 + db * fb / c2 b / 3) / (fa + fb)
  let d2sum := (d2a * fa / c2 a / 3 + d2b * fb / c2 b / 3 + -2 * da * da * fa / c5 a / 9
    + -2 * db * db * fb / c5 b / 9) / (fa + fb);
  6 * sum * dsum * dsum + 3 * sum * sum * d2sum

/-- The second temperature derivative of the coefficient number `k` (`fluidPhase.c` 345-351 and alike); `kk'`
and `kk''` are the derivatives of the interaction factor, zero where the code has no such terms. -/
noncomputable def mixed'' (n m : ℕ) (a b : T2) (va vb kk kk' kk'' : ℝ) (k : ℕ) : ℝ :=
  if k = 0 then a.dd * va ^ m
  else if k = n then b.dd * vb ^ m
  else (D2powSum a.x ((n : ℝ) - k) b.x k a.d b.d a.dd b.dd * kk
    + 2 * DpowSum a.x ((n : ℝ) - k) b.x k a.d b.d * kk'
    + powSum a.x ((n : ℝ) - k) b.x k * kk'') * powSum va ((n : ℝ) - k) vb k ^ m

/-- `d2k1dt2` (`fluidPhase.c` 214, 227). -/
noncomputable def d2k1 (low : Bool) (t : ℝ) : ℝ :=
  if low then 2 * 1.8641e-6 - 2 * 31.409 / t / t / t
  else 2 * 2.3285e-6 - 2 * 2.4221e3 / t / t / t

/-- `d2k2dt2` (`fluidPhase.c` 431, 444). -/
noncomputable def d2k2 (low : Bool) (t : ℝ) : ℝ :=
  if low then -2 * 1.0892e-5 + 2 * 1.5782e4 / t / t / t
  else -2 * 4.9371e-7 + 2 * 6.6180e2 / t / t / t

/-- The second temperature derivatives of the coefficients of `mixQ` (the last two fields are not used). -/
noncomputable def mixQtt (low : Bool) (t : ℝ) : Q :=
  let k := coef .h2o low
  let l := coef .co2 low
  { b := mixed'' 2 1 (inv k.a1 k.a2 k.a3 k.tc t) (inv l.a1 l.a2 l.a3 l.tc t) k.vc l.vc (k1 low t) (dk1 low t)
      (d2k1 low t)
    c := mixed'' 3 2 (inv k.a4 k.a5 k.a6 k.tc t) (inv l.a4 l.a5 l.a6 l.tc t) k.vc l.vc (k2 low t) (dk2 low t)
      (d2k2 low t)
    d := mixed'' 5 4 (inv k.a7 k.a8 k.a9 k.tc t) (inv l.a7 l.a8 l.a9 l.tc t) k.vc l.vc 1 0 0
    e := mixed'' 6 5 (inv k.a10 k.a11 k.a12 k.tc t) (inv l.a10 l.a11 l.a12 l.tc t) k.vc l.vc 1 0 0
    f := mixed'' 2 2 (inv 0 0 k.a k.tc t) (inv 0 0 l.a l.tc t) k.vc l.vc 1 0 0
    be := fun _ => 0
    g := fun _ => 0 }

/-- `d2zdv2` (`fluidPhase.c` 1673-1678). -/
noncomputable def Loc.zvv (l : Loc) (v : ℝ) : ℝ :=
  2 * l.b / v ^ 3 + 6 * l.c / v ^ 4 + 20 * l.d / v ^ 6 + 30 * l.e / v ^ 7
    + 6 * (l.f / v ^ 4) * (l.be + l.g / v ^ 2) * xp l.g v
    + 14 * (l.f / v ^ 3) * (l.g / v ^ 3) * xp l.g v
    - 14 * (l.f / v ^ 3) * (l.g / v ^ 3) * (l.be + l.g / v ^ 2) * xp l.g v
    - 8 * (l.f / v ^ 2) * (l.g / v ^ 3) * (l.g / v ^ 3) * xp l.g v
    + 4 * (l.f / v ^ 2) * (l.g / v ^ 3) * (l.g / v ^ 3) * (l.be + l.g / v ^ 2) * xp l.g v

/-- `d2zdvdt` (`fluidPhase.c` 1679-1682). -/
noncomputable def Loc.zvt (l d : Loc) (v : ℝ) : ℝ :=
  -d.b / v ^ 2 - 2 * d.c / v ^ 3 - 4 * d.d / v ^ 5 - 5 * d.e / v ^ 6
    - 2 * (d.f / v ^ 3) * (l.be + l.g / v ^ 2) * xp l.g v
    - 2 * (d.f / v ^ 2) * (l.g / v ^ 3) * xp l.g v
    + 2 * (d.f / v ^ 2) * (l.be + l.g / v ^ 2) * (l.g / v ^ 3) * xp l.g v

/-- `d2zdt2` (`fluidPhase.c` 1683); `s` are the second temperature derivatives. -/
noncomputable def Loc.ztt (l s : Loc) (v : ℝ) : ℝ :=
  s.b / v + s.c / v ^ 2 + s.d / v ^ 4 + s.e / v ^ 5 + (s.f / v ^ 2) * (l.be + l.g / v ^ 2) * xp l.g v

/-- `d2lnPhiH2Odv2`, `d2lnPhiCO2dv2` (`fluidPhase.c` 1685-1709). -/
noncomputable def Loc.lnvv (l : Loc) (i : Species) (v : ℝ) : ℝ :=
  l.zv v * l.zv v / l.z v / l.z v - l.zvv v / l.z v
    + 2 * l.b' i / v ^ 3 + 3 * l.c' i / v ^ 4 + 5 * l.d' i / v ^ 6 + 6 * l.e' i / v ^ 7
    + 3 * ((l.f' i * l.be + l.be' i * l.f) / v ^ 4) * xp l.g v
    + -2 * ((l.f' i * l.be * l.g + l.be' i * l.f * l.g) / v ^ 6) * xp l.g v
    + 5 * ((l.f' i * l.g + l.g' i * l.f - l.f * l.be * (l.g' i - l.g)) / v ^ 6) * xp l.g v
    + -2 * ((l.f' i * l.g * l.g + l.g' i * l.f * l.g - l.f * l.be * l.g * (l.g' i - l.g)) / v ^ 8) * xp l.g v
    + -7 * ((l.g' i - l.g) * l.f * l.g / v ^ 8) * xp l.g v
    + 2 * ((l.g' i - l.g) * l.f * l.g * l.g / v ^ 10) * xp l.g v

/-- `d2lnPhiH2Odvdt`, `d2lnPhiCO2dvdt` (`fluidPhase.c` 1711-1729). -/
noncomputable def Loc.lnvt (l d : Loc) (i : Species) (v : ℝ) : ℝ :=
  l.zv v * l.zt d v / l.z v / l.z v - l.zvt d v / l.z v
    + -d.b' i / v ^ 2 + -d.c' i / v ^ 3 + -d.d' i / v ^ 5 + -d.e' i / v ^ 6
    + -((d.f' i * l.be + l.be' i * d.f) / v ^ 3) * xp l.g v
    + -((d.f' i * l.g + l.g' i * d.f - d.f * l.be * (l.g' i - l.g)) / v ^ 5) * xp l.g v
    + ((l.g' i - l.g) * d.f * l.g / v ^ 7) * xp l.g v

/-- `d2lnPhiH2Odt2`, `d2lnPhiCO2dt2` (`fluidPhase.c` 1731-1749). -/
noncomputable def Loc.lntt (l d s : Loc) (i : Species) (v : ℝ) : ℝ :=
  l.zt d v * l.zt d v / l.z v / l.z v - l.ztt s v / l.z v
    + s.b' i / v + s.c' i / 2 / v ^ 2 + s.d' i / 4 / v ^ 4 + s.e' i / 5 / v ^ 5
    + ((s.f' i * l.be + l.be' i * s.f) / 2 / l.g) * (1 - xp l.g v)
    + ((s.f' i * l.g + l.g' i * s.f - s.f * l.be * (l.g' i - l.g)) / 2 / l.g / l.g)
      * (1 - (l.g / v ^ 2 + 1) * xp l.g v)
    + ((l.g' i - l.g) * s.f / 2 / l.g / l.g)
      * (-2 + (l.g * l.g / v ^ 4 + 2 * l.g / v ^ 2 + 2) * xp l.g v)

/-- The second derivatives the driver returns. -/
structure TTOut where
  d2vdt2 : ℝ
  d2vdtdp : ℝ
  d2vdp2 : ℝ
  ltt : Species → ℝ
  ltp : Species → ℝ
  lpp : Species → ℝ

/-- `*d2vdp2` … `d2lnphidp2` of `duanDriver` (`fluidPhase.c` 1757-1775). -/
noncomputable def mixDriverTT (low : Bool) (t p r v : ℝ) : TTOut :=
  let l := (mixQ low t).at (1 - r) r
  let d := (mixQt low t).at (1 - r) r
  let s := (mixQtt low t).at (1 - r) r
  let z := l.z v
  let zv := l.zv v
  let zt := l.zt d v
  let vp := 1 / (p * (zv / z - 1 / v))
  let vt := (1 / t + zt / z) / (1 / v - zv / z)
  let vpp := (p * (1 / v - zv / z) / v - zv / vp / z + 1 / vp / vp / p + p * l.zvv v / z)
    * -(vp * vp * vp)
  let vtp := -vp * (1 / t + zt / z) - p * vpp * (1 / t + zt / z)
    - p * vp * vp * (-zv * zt / z / z + l.zvt d v / z)
  let vtt := -p * vtp * (1 / t + zt / z) + p * vp / t / t + p * vp * zt * (zv * vt + zt) / z / z
    - p * vp * vt * l.zvt d v / z - p * vp * l.ztt s v / z
  { d2vdp2 := vpp
    d2vdtdp := vtp
    d2vdt2 := vtt
    ltt := fun i => l.lnvv i v * vt * vt + 2 * l.lnvt d i v * vt + l.lnv i v * vtt + l.lntt d s i v
    ltp := fun i => l.lnvv i v * vt * vp + l.lnv i v * vtp + l.lnvt d i v * vp
    lpp := fun i => l.lnvv i v * vp * vp + l.lnv i v * vpp }

/-- The same of `duan` (`fluidPhase.c` 1786, 1796-1797, 1806-1807); `vol` as in `mixDuan`. -/
noncomputable def mixDuanTT (vol : Bool → ℝ × ℝ → ℝ) (low : Bool) (t p r : ℝ) : TTOut :=
  let o := mixDriverTT low t p r (vol low (r, p))
  if low then o
  else
    let l := mixDriverTT true t 2000 r (vol true (r, 2000))
    let h := mixDriverTT false t 2000 r (vol false (r, 2000))
    { o with ltt := fun i => o.ltt i + l.ltt i - h.ltt i }

/-- `*cpmix` (`fluidPhase.c` 2733-2738). -/
noncomputable def cpmix (V : Vols) (t p r : ℝ) : ℝ :=
  let n := mixDuanT V.mix (isLow p) t p r
  let m := mixDuanTT V.mix (isLow p) t p r
  let w := duan .h2o (V.pure .h2o) (isLow p) t p
  let c := duan .co2 (V.pure .co2) (isLow p) t p;
  -t * (2 * Rg * (xs r .h2o * n.lt .h2o - xs r .h2o * w.lt + xs r .co2 * n.lt .co2 - xs r .co2 * c.lt)
    + Rg * t * (xs r .h2o * m.ltt .h2o - xs r .h2o * w.ltt + xs r .co2 * m.ltt .co2 - xs r .co2 * c.ltt))

/-- `dx[0]` of `cpmixFlu` (`fluidPhase.c` 2755-2758). -/
noncomputable def cpmixX (V : Vols) (t p r : ℝ) : ℝ :=
  let n := mixDuanT V.mix (isLow p) t p r
  let m := mixDuanTT V.mix (isLow p) t p r
  let w := duan .h2o (V.pure .h2o) (isLow p) t p
  let c := duan .co2 (V.pure .co2) (isLow p) t p;
  -t * (2 * Rg * (-n.lt .h2o + w.lt + n.lt .co2 - c.lt)
    + Rg * t * (-m.ltt .h2o + w.ltt + m.ltt .co2 - c.ltt))

/-- `*dt2` of `vmixFlu` (`fluidPhase.c` 2845). -/
noncomputable def vmixTT (V : Vols) (t p r : ℝ) : ℝ :=
  (mixDuanTT V.mix (isLow p) t p r).d2vdt2 - xs r .h2o * (duan .h2o (V.pure .h2o) (isLow p) t p).d2vdt2
    - xs r .co2 * (duan .co2 (V.pure .co2) (isLow p) t p).d2vdt2

/-- `*dtdp` of `vmixFlu` (`fluidPhase.c` 2849). -/
noncomputable def vmixTP (V : Vols) (t p r : ℝ) : ℝ :=
  (mixDuanTT V.mix (isLow p) t p r).d2vdtdp - xs r .h2o * (duan .h2o (V.pure .h2o) (isLow p) t p).d2vdtdp
    - xs r .co2 * (duan .co2 (V.pure .co2) (isLow p) t p).d2vdtdp

/-- `*dp2` of `vmixFlu` (`fluidPhase.c` 2853). -/
noncomputable def vmixPP (V : Vols) (t p r : ℝ) : ℝ :=
  (mixDuanTT V.mix (isLow p) t p r).d2vdp2 - xs r .h2o * (duan .h2o (V.pure .h2o) (isLow p) t p).d2vdp2
    - xs r .co2 * (duan .co2 (V.pure .co2) (isLow p) t p).d2vdp2

/-- `dxdt[0]` of `vmixFlu` (`fluidPhase.c` 2860-2861). -/
noncomputable def vmixXT (V : Vols) (t p r : ℝ) : ℝ :=
  let n := mixDuan Rg V.mix (isLow p) t p r
  let m := mixDuanTT V.mix (isLow p) t p r
  let w := duan .h2o (V.pure .h2o) (isLow p) t p
  let c := duan .co2 (V.pure .co2) (isLow p) t p;
  Rg * (-n.lp .h2o + w.lp + n.lp .co2 - c.lp) + Rg * t * (-m.ltp .h2o + w.ltp + m.ltp .co2 - c.ltp)

/-- `dxdp[0]` of `vmixFlu` (`fluidPhase.c` 2870). -/
noncomputable def vmixXP (V : Vols) (t p r : ℝ) : ℝ :=
  let m := mixDuanTT V.mix (isLow p) t p r
  let w := duan .h2o (V.pure .h2o) (isLow p) t p
  let c := duan .co2 (V.pure .co2) (isLow p) t p;
  Rg * t * (-m.lpp .h2o + w.lpp + m.lpp .co2 - c.lpp)

/-! ## The coefficients -/

lemma c2_d {a : ℝ} (h : a ≠ 0) : HasDerivAt (fun a => 1 / c2 a) (-2 / 3 / c5 a) a := by
  have key : ∀ x : ℝ, 0 < x → HasDerivAt (fun x : ℝ => 1 / x ^ (2 / 3 : ℝ)) (-2 / 3 / x ^ (5 / 3 : ℝ)) x := by
    intro x hx
    have h := Real.hasDerivAt_rpow_const (x := x) (p := -(2 / 3)) (Or.inl hx.ne')
    refine (h.congr_deriv ?_).congr_of_eventuallyEq ?_
    · rw [show -(2 / 3 : ℝ) - 1 = -(5 / 3) by norm_num, Real.rpow_neg hx.le]
      ring
    · filter_upwards [eventually_gt_nhds hx] with y hy
      rw [Real.rpow_neg hy.le, one_div]
  rcases lt_or_gt_of_ne h with h | h
  · have h1 := (key (-a) (by linarith)).comp a (hasDerivAt_neg a)
    refine (h1.congr_deriv ?_).congr_of_eventuallyEq ?_
    · rw [c5, if_neg (not_le.2 h)]; ring
    · filter_upwards [eventually_lt_nhds h] with x hx
      simp only [c2, not_le.2 hx, if_false, Function.comp]
  · refine ((key a h).congr_deriv ?_).congr_of_eventuallyEq ?_
    · rw [c5, if_pos h.le]
    · filter_upwards [eventually_gt_nhds h] with x hx
      simp only [c2, hx.le, if_true]

lemma DpowSum_eq (a fa b fb da db : ℝ) : DpowSum a fa b fb da db
    = 3 * ((fa * crt a + fb * crt b) / (fa + fb)) ^ 2 * (da * fa * (1 / c2 a) / 3 + db * fb * (1 / c2 b) / 3)
      / (fa + fb) := by
  simp only [DpowSum]
  split_ifs <;> ring

section

variable {A B : ℝ → T2} {K K' : ℝ → ℝ} {k'' t : ℝ}

lemma DpowSum_d (fa fb : ℝ) (hA : T2Ok A t) (hB : T2Ok B t) (ha : (A t).x ≠ 0) (hb : (B t).x ≠ 0) :
    HasDerivAt (fun t => DpowSum (A t).x fa (B t).x fb (A t).d (B t).d)
      (D2powSum (A t).x fa (B t).x fb (A t).d (B t).d (A t).dd (B t).dd) t := by
  have e : (fun t => DpowSum (A t).x fa (B t).x fb (A t).d (B t).d) = fun t =>
      3 * ((fa * crt (A t).x + fb * crt (B t).x) / (fa + fb)) ^ 2
      * ((A t).d * fa * (1 / c2 (A t).x) / 3 + (B t).d * fb * (1 / c2 (B t).x) / 3) / (fa + fb) := by
    funext t; exact DpowSum_eq _ _ _ _ _ _
  rw [e]
  have h1 := (((((crt_d ha).comp t hA.x).const_mul fa).add (((crt_d hb).comp t hB.x).const_mul fb)).div_const
    (fa + fb)).pow 2
  have h2 := ((((hA.d.mul_const fa).mul ((c2_d ha).comp t hA.x)).div_const 3).add
    (((hB.d.mul_const fb).mul ((c2_d hb).comp t hB.x)).div_const 3))
  refine ((((h1.const_mul 3).mul h2).div_const (fa + fb)).congr_deriv ?_).congr_of_eventuallyEq
    (Eventually.of_forall fun x => rfl)
  simp only [D2powSum, Pi.add_apply, Pi.mul_apply, Pi.pow_apply, Function.comp]
  push_cast
  ring

lemma mixed'_d (n m : ℕ) (va vb : ℝ) (k : ℕ) (hA : T2Ok A t) (hB : T2Ok B t)
    (hK : HasDerivAt K (K' t) t) (hK' : HasDerivAt K' k'' t) (ha : (A t).x ≠ 0) (hb : (B t).x ≠ 0) :
    HasDerivAt (fun t => mixed' n m (A t).x (B t).x (A t).d (B t).d va vb (K t) (K' t) k)
      (mixed'' n m (A t) (B t) va vb (K t) (K' t) k'' k) t := by
  simp only [mixed', mixed'']
  split_ifs
  · exact hA.d.mul_const _
  · exact hB.d.mul_const _
  · refine ((((DpowSum_d _ _ hA hB ha hb).mul hK).mul_const _).add
      (((powSum_d _ _ hA.x hB.x ha hb).mul hK').mul_const _)).congr_deriv ?_
    ring

lemma dk1_d (low : Bool) (ht : t ≠ 0) : HasDerivAt (dk1 low) (d2k1 low t) t := by
  have h := hasDerivAt_inv ht
  have h2 := h.mul h
  cases low
  · refine (((((hasDerivAt_id t).const_mul (2 * 2.3285e-6)).const_add (-7.9212e-3)).add
      (h2.const_mul 2.4221e3)).congr_deriv ?_).congr_of_eventuallyEq (Eventually.of_forall fun x => ?_)
    · simp only [d2k1, Bool.false_eq_true, if_false]; field_simp; ring
    · simp only [dk1, Bool.false_eq_true, if_false, Pi.add_apply, Pi.mul_apply, id]; ring
  · refine (((((hasDerivAt_id t).const_mul (2 * 1.8641e-6)).const_add (-5.0624e-3)).add
      (h2.const_mul 31.409)).congr_deriv ?_).congr_of_eventuallyEq (Eventually.of_forall fun x => ?_)
    · simp only [d2k1, if_true]; field_simp; ring
    · simp only [dk1, if_true, Pi.add_apply, Pi.mul_apply, id]; ring

lemma dk2_d (low : Bool) (ht : t ≠ 0) : HasDerivAt (dk2 low) (d2k2 low t) t := by
  have h := hasDerivAt_inv ht
  have h2 := h.mul h
  cases low
  · refine (((((hasDerivAt_id t).const_mul (-(2 * 4.9371e-7))).const_add 1.8756e-3).add
      (h2.const_mul (-6.6180e2))).congr_deriv ?_).congr_of_eventuallyEq (Eventually.of_forall fun x => ?_)
    · simp only [d2k2, Bool.false_eq_true, if_false]; field_simp; ring
    · simp only [dk2, Bool.false_eq_true, if_false, Pi.add_apply, Pi.mul_apply, id]; ring
  · refine (((((hasDerivAt_id t).const_mul (-(2 * 1.0892e-5))).const_add 4.2877e-2).add
      (h2.const_mul (-1.5782e4))).congr_deriv ?_).congr_of_eventuallyEq (Eventually.of_forall fun x => ?_)
    · simp only [d2k2, if_true]; field_simp; ring
    · simp only [dk2, if_true, Pi.add_apply, Pi.mul_apply, id]; ring

end

/-- The rates `mixQt` change with temperature at the rates `mixQtt`. -/
structure Rates2 (low : Bool) (t : ℝ) : Prop where
  b : ∀ k, HasDerivAt (fun t => (mixQt low t).b k) ((mixQtt low t).b k) t
  c : ∀ k, HasDerivAt (fun t => (mixQt low t).c k) ((mixQtt low t).c k) t
  d : ∀ k, HasDerivAt (fun t => (mixQt low t).d k) ((mixQtt low t).d k) t
  e : ∀ k, HasDerivAt (fun t => (mixQt low t).e k) ((mixQtt low t).e k) t
  f : ∀ k, HasDerivAt (fun t => (mixQt low t).f k) ((mixQtt low t).f k) t

lemma inv_ok1 (x y w : ℝ) {t tc : ℝ} (ht : t ≠ 0) (hc : tc ≠ 0) : T2Ok (fun t => inv x y w tc t) t := by
  have h := inv_ok x y w 1 ht hc
  simp only [T2.scale, mul_one] at h
  exact h

lemma rates2 {low : Bool} {t : ℝ} (ht : 0 < t) (h : Regular low t) : Rates2 low t := by
  have h1 := fun s => (tc_pos s low).ne'
  have hi := fun s x y w => inv_ok1 x y w ht.ne' (h1 s)
  have k0 : ∀ a : ℝ, HasDerivAt (fun _ : ℝ => a) 0 t := fun a => hasDerivAt_const _ _
  have fn := fun s => f_ne s low ht
  exact ⟨fun k => mixed'_d 2 1 _ _ k (hi .h2o _ _ _) (hi .co2 _ _ _) (k1_d low ht.ne') (dk1_d low ht.ne') (h .h2o).1 (h .co2).1,
    fun k => mixed'_d 3 2 _ _ k (hi .h2o _ _ _) (hi .co2 _ _ _) (k2_d low ht.ne') (dk2_d low ht.ne') (h .h2o).2.1 (h .co2).2.1,
    fun k => mixed'_d 5 4 _ _ k (hi .h2o _ _ _) (hi .co2 _ _ _) (k0 1) (k0 0) (h .h2o).2.2.1 (h .co2).2.2.1,
    fun k => mixed'_d 6 5 _ _ k (hi .h2o _ _ _) (hi .co2 _ _ _) (k0 1) (k0 0) (h .h2o).2.2.2 (h .co2).2.2.2,
    fun k => mixed'_d 2 2 _ _ k (hi .h2o _ _ _) (hi .co2 _ _ _) (k0 1) (k0 0) (fn .h2o) (fn .co2)⟩

end Verif.Thermo.Fluid
