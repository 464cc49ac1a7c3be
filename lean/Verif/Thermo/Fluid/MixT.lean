import Verif.Thermo.Fluid.MixEnds

/-!
# The mixed H2O-CO2 fluid at changing temperature

Model of the first temperature derivatives of the mixture part of `sources/fluidPhase.c`: `DpowSum` 136-144,
the derivatives `dk1dt` 211, 224 and `dk2dt` 428, 441, the coefficients' derivatives `dbvdt`, `dbvPrimedt` and
alike, `dzdt` 1462, `dlnPhiH2Odt`, `dlnPhiCO2dt` 1653-1671, the driver's `dvdt` and `dlnphidt` 1756, 1762-1763, the
join at 2000 bar 1782-1812, the entropy of mixing `smixFlu` 2639-2703, the enthalpy of mixing
`hmixFlu` 2609-2641 and the temperature derivative of `vmixFlu` 2837.

Simplifications: as in `Mix.lean`; the second temperature derivatives, and so `cpmixFlu`, are left out.
-/

open Filter Topology

namespace Verif.Thermo.Fluid

open Verif.Thermo.Water

/-- `pow(a, 2.0/3.0)` of the magnitude of `a` (`fluidPhase.c` 141-142). -/
noncomputable def c2 (a : ℝ) : ℝ := if 0 ≤ a then a ^ (2 / 3 : ℝ) else (-a) ^ (2 / 3 : ℝ)

/-- `DpowSum` (`fluidPhase.c` 136-144). -/
noncomputable def DpowSum (a fa b fb da db : ℝ) : ℝ :=
  let sum := fa * crt a + fb * crt b
  let sq := if 0 ≤ sum then (sum / (fa + fb)) ^ 2 else (-sum / (fa + fb)) ^ 2
  let dsum := da * fa / c2 a / 3 + db * fb / c2 b / 3;
  3 * sq * dsum / (fa + fb)

/-- The temperature derivative of the coefficient number `k` (`fluidPhase.c` 338-341 and alike); `kk'` is the
derivative of the interaction factor, zero where the code has no such term. -/
noncomputable def mixed' (n m : ℕ) (a b da db va vb kk kk' : ℝ) (k : ℕ) : ℝ :=
  if k = 0 then da * va ^ m
  else if k = n then db * vb ^ m
  else DpowSum a ((n : ℝ) - k) b k da db * kk * powSum va ((n : ℝ) - k) vb k ^ m
    + powSum a ((n : ℝ) - k) b k * kk' * powSum va ((n : ℝ) - k) vb k ^ m

/-- `dk1dt` (`fluidPhase.c` 211, 224). -/
noncomputable def dk1 (low : Bool) (t : ℝ) : ℝ :=
  if low then -5.0624e-3 + 2 * 1.8641e-6 * t + 31.409 / t / t
  else -7.9212e-3 + 2 * 2.3285e-6 * t + 2.4221e3 / t / t

/-- `dk2dt` (`fluidPhase.c` 428, 441). -/
noncomputable def dk2 (low : Bool) (t : ℝ) : ℝ :=
  if low then 4.2877e-2 - 2 * 1.0892e-5 * t - 1.5782e4 / t / t
  else 1.8756e-3 - 2 * 4.9371e-7 * t - 6.6180e2 / t / t

/-- The temperature derivatives of the coefficients of `mixQ`; the last two polynomials do not depend on
temperature (their fields here are not used). -/
noncomputable def mixQt (low : Bool) (t : ℝ) : Q :=
  let k := coef .h2o low
  let l := coef .co2 low
  { b := mixed' 2 1 (inv k.a1 k.a2 k.a3 k.tc t).x (inv l.a1 l.a2 l.a3 l.tc t).x
      (inv k.a1 k.a2 k.a3 k.tc t).d (inv l.a1 l.a2 l.a3 l.tc t).d k.vc l.vc (k1 low t) (dk1 low t)
    c := mixed' 3 2 (inv k.a4 k.a5 k.a6 k.tc t).x (inv l.a4 l.a5 l.a6 l.tc t).x
      (inv k.a4 k.a5 k.a6 k.tc t).d (inv l.a4 l.a5 l.a6 l.tc t).d k.vc l.vc (k2 low t) (dk2 low t)
    d := mixed' 5 4 (inv k.a7 k.a8 k.a9 k.tc t).x (inv l.a7 l.a8 l.a9 l.tc t).x
      (inv k.a7 k.a8 k.a9 k.tc t).d (inv l.a7 l.a8 l.a9 l.tc t).d k.vc l.vc 1 0
    e := mixed' 6 5 (inv k.a10 k.a11 k.a12 k.tc t).x (inv l.a10 l.a11 l.a12 l.tc t).x
      (inv k.a10 k.a11 k.a12 k.tc t).d (inv l.a10 l.a11 l.a12 l.tc t).d k.vc l.vc 1 0
    f := mixed' 2 2 (inv 0 0 k.a k.tc t).x (inv 0 0 l.a l.tc t).x
      (inv 0 0 k.a k.tc t).d (inv 0 0 l.a l.tc t).d k.vc l.vc 1 0
    be := fun _ => 0
    g := fun _ => 0 }

/-- `dzdt` (`fluidPhase.c` 1462); `d` are the temperature derivatives. -/
noncomputable def Loc.zt (l d : Loc) (v : ℝ) : ℝ :=
  d.b / v + d.c / v ^ 2 + d.d / v ^ 4 + d.e / v ^ 5 + (d.f / v ^ 2) * (l.be + l.g / v ^ 2) * xp l.g v

/-- `dlnPhiH2Odt`, `dlnPhiCO2dt` (`fluidPhase.c` 1653-1671). -/
noncomputable def Loc.lnt (l d : Loc) (i : Species) (v : ℝ) : ℝ :=
  -l.zt d v / l.z v + d.b' i / v + d.c' i / 2 / v ^ 2 + d.d' i / 4 / v ^ 4 + d.e' i / 5 / v ^ 5
    + ((d.f' i * l.be + l.be' i * d.f) / 2 / l.g) * (1 - xp l.g v)
    + ((d.f' i * l.g + l.g' i * d.f - d.f * l.be * (l.g' i - l.g)) / 2 / l.g / l.g)
      * (1 - (l.g / v ^ 2 + 1) * xp l.g v)
    + ((l.g' i - l.g) * d.f / 2 / l.g / l.g)
      * (-2 + (l.g * l.g / v ^ 4 + 2 * l.g / v ^ 2 + 2) * xp l.g v)

/-- The first temperature derivatives the driver returns. -/
structure TOut where
  dvdt : ℝ
  lt : Species → ℝ

/-- `*dvdt` and `dlnphidt` of `duanDriver` (`fluidPhase.c` 1756, 1762-1763). -/
noncomputable def mixDriverT (low : Bool) (t r v : ℝ) : TOut :=
  let l := (mixQ low t).at (1 - r) r
  let d := (mixQt low t).at (1 - r) r
  let vt := (1 / t + l.zt d v / l.z v) / (1 / v - l.zv v / l.z v)
  { dvdt := vt
    lt := fun i => l.lnv i v * vt + l.lnt d i v }

/-- The same of `duan` (`fluidPhase.c` 1786, 1794-1795, 1804-1805); `vol` as in `mixDuan`. -/
noncomputable def mixDuanT (vol : Bool → ℝ × ℝ → ℝ) (low : Bool) (t p r : ℝ) : TOut :=
  let o := mixDriverT low t r (vol low (r, p))
  if low then o
  else
    let l := mixDriverT true t r (vol true (r, 2000))
    let h := mixDriverT false t r (vol false (r, 2000))
    { o with lt := fun i => o.lt i + l.lt i - h.lt i }

/-- `*smix` (`fluidPhase.c` 2668-2670). -/
noncomputable def smix (V : Vols) (t p r : ℝ) : ℝ :=
  let m := mixDuan Rg V.mix (isLow p) t p r
  let n := mixDuanT V.mix (isLow p) t p r
  let w := duan .h2o (V.pure .h2o) (isLow p) t p
  let c := duan .co2 (V.pure .co2) (isLow p) t p;
  (Rg * (xs r .h2o * Real.log (xs r .h2o) + xs r .h2o * Real.log (m.phi .h2o) - xs r .h2o * Real.log w.phi
      + xs r .co2 * Real.log (xs r .co2) + xs r .co2 * Real.log (m.phi .co2) - xs r .co2 * Real.log c.phi)
    + Rg * t * (xs r .h2o * n.lt .h2o - xs r .h2o * w.lt + xs r .co2 * n.lt .co2 - xs r .co2 * c.lt)) * -1

/-- `dx[0]` of `smixFlu` (`fluidPhase.c` 2678-2681). -/
noncomputable def smixX (V : Vols) (t p r : ℝ) : ℝ :=
  let m := mixDuan Rg V.mix (isLow p) t p r
  let n := mixDuanT V.mix (isLow p) t p r
  let w := duan .h2o (V.pure .h2o) (isLow p) t p
  let c := duan .co2 (V.pure .co2) (isLow p) t p;
  -(Rg * (-Real.log (xs r .h2o) - Real.log (m.phi .h2o) + Real.log w.phi
      + Real.log (xs r .co2) + Real.log (m.phi .co2) - Real.log c.phi)
    + Rg * t * (-n.lt .h2o + w.lt + n.lt .co2 - c.lt))

/-- `*hmix` (`fluidPhase.c` 2632-2635). -/
noncomputable def hmix (V : Vols) (t p r : ℝ) : ℝ :=
  let m := mixDuan Rg V.mix (isLow p) t p r
  let n := mixDuanT V.mix (isLow p) t p r
  let w := duan .h2o (V.pure .h2o) (isLow p) t p
  let c := duan .co2 (V.pure .co2) (isLow p) t p;
  (Rg * (xs r .h2o * Real.log (xs r .h2o) + xs r .h2o * Real.log (m.phi .h2o) - xs r .h2o * Real.log w.phi
      + xs r .co2 * Real.log (xs r .co2) + xs r .co2 * Real.log (m.phi .co2) - xs r .co2 * Real.log c.phi)
    + Rg * t * (xs r .h2o * n.lt .h2o - xs r .h2o * w.lt + xs r .co2 * n.lt .co2 - xs r .co2 * c.lt)) * -t
    + Rg * t * (xs r .h2o * Real.log (xs r .h2o * m.phi .h2o / w.phi)
      + xs r .co2 * Real.log (xs r .co2 * m.phi .co2 / c.phi))

/-- `*dt` of `vmixFlu` (`fluidPhase.c` 2837). -/
noncomputable def vmixT (V : Vols) (t p r : ℝ) : ℝ :=
  (mixDuanT V.mix (isLow p) t p r).dvdt - xs r .h2o * (duan .h2o (V.pure .h2o) (isLow p) t p).dvdt
    - xs r .co2 * (duan .co2 (V.pure .co2) (isLow p) t p).dvdt

/-! ## The coefficients and their derivatives -/

lemma c2_pos {a : ℝ} (h : a ≠ 0) : 0 < c2 a := by
  unfold c2
  split_ifs with h0
  · exact Real.rpow_pos_of_pos (lt_of_le_of_ne h0 h.symm) _
  · exact Real.rpow_pos_of_pos (by linarith) _

lemma crt_d {a : ℝ} (h : a ≠ 0) : HasDerivAt crt (1 / c2 a / 3) a := by
  have key : ∀ x : ℝ, 0 < x → HasDerivAt (fun x : ℝ => x ^ (1 / 3 : ℝ)) (1 / x ^ (2 / 3 : ℝ) / 3) x := by
    intro x hx
    refine (Real.hasDerivAt_rpow_const (p := 1 / 3) (Or.inl hx.ne')).congr_deriv ?_
    rw [show (1 / 3 : ℝ) - 1 = -(2 / 3) by norm_num, Real.rpow_neg hx.le]
    ring
  rcases lt_or_gt_of_ne h with h | h
  · have h1 := (key (-a) (by linarith)).comp a (hasDerivAt_neg a)
    refine (h1.neg.congr_deriv ?_).congr_of_eventuallyEq ?_
    · rw [c2, if_neg (not_le.2 h)]; ring
    · filter_upwards [eventually_lt_nhds h] with x hx
      simp only [crt, not_le.2 hx, if_false, Pi.neg_apply, Function.comp]
  · refine ((key a h).congr_deriv ?_).congr_of_eventuallyEq ?_
    · rw [c2, if_pos h.le]
    · filter_upwards [eventually_gt_nhds h] with x hx
      simp only [crt, hx.le, if_true]

lemma crt_c {a : ℝ} (h : a ≠ 0) : ContDiffAt ℝ 1 crt a := by
  rcases lt_or_gt_of_ne h with h | h
  · have h1 : ContDiffAt ℝ 1 (fun x : ℝ => -(-x) ^ (1 / 3 : ℝ)) a :=
      (contDiffAt_id.neg.rpow_const_of_ne (by simp only [id]; linarith)).neg
    refine h1.congr_of_eventuallyEq ?_
    filter_upwards [eventually_lt_nhds h] with x hx
    simp only [crt, not_le.2 hx, if_false]
  · have h1 : ContDiffAt ℝ 1 (fun x : ℝ => x ^ (1 / 3 : ℝ)) a :=
      contDiffAt_id.rpow_const_of_ne (by simp only [id]; linarith)
    refine h1.congr_of_eventuallyEq ?_
    filter_upwards [eventually_gt_nhds h] with x hx
    simp only [crt, hx.le, if_true]

lemma powSum_eq (a fa b fb : ℝ) : powSum a fa b fb = ((fa * crt a + fb * crt b) / (fa + fb)) ^ 3 := by
  simp only [powSum]
  split_ifs
  · rfl
  · ring

section

variable {A B K : ℝ → ℝ} {a' b' k' t : ℝ}

lemma powSum_d (fa fb : ℝ) (hA : HasDerivAt A a' t) (hB : HasDerivAt B b' t) (ha : A t ≠ 0) (hb : B t ≠ 0) :
    HasDerivAt (fun t => powSum (A t) fa (B t) fb) (DpowSum (A t) fa (B t) fb a' b') t := by
  simp only [powSum_eq]
  have h := (((((crt_d ha).comp t hA).const_mul fa).add (((crt_d hb).comp t hB).const_mul fb)).div_const
    (fa + fb)).pow 3
  refine (h.congr_deriv ?_).congr_of_eventuallyEq (Eventually.of_forall fun x => rfl)
  have e : ∀ s : ℝ, (if 0 ≤ s then (s / (fa + fb)) ^ 2 else (-s / (fa + fb)) ^ 2) = (s / (fa + fb)) ^ 2 := by
    intro s; split_ifs
    · rfl
    · ring
  simp only [DpowSum, e, Pi.add_apply, Function.comp]
  push_cast
  ring

lemma powSum_c (fa fb : ℝ) (hA : ContDiffAt ℝ 1 A t) (hB : ContDiffAt ℝ 1 B t) (ha : A t ≠ 0) (hb : B t ≠ 0) :
    ContDiffAt ℝ 1 (fun t => powSum (A t) fa (B t) fb) t := by
  simp only [powSum_eq]
  have h1 : ContDiffAt ℝ 1 (fun t => crt (A t)) t := (crt_c ha).comp t hA
  have h2 : ContDiffAt ℝ 1 (fun t => crt (B t)) t := (crt_c hb).comp t hB
  exact (((contDiffAt_const.mul h1).add (contDiffAt_const.mul h2)).div_const _).pow 3

lemma mixed_d (n m : ℕ) (va vb : ℝ) (k : ℕ) (hA : HasDerivAt A a' t) (hB : HasDerivAt B b' t)
    (hK : HasDerivAt K k' t) (ha : A t ≠ 0) (hb : B t ≠ 0) :
    HasDerivAt (fun t => mixed n m (A t) (B t) va vb (K t) k) (mixed' n m (A t) (B t) a' b' va vb (K t) k' k) t := by
  simp only [mixed, mixed']
  split_ifs
  · exact hA.mul_const _
  · exact hB.mul_const _
  · refine (((powSum_d _ _ hA hB ha hb).mul hK).mul_const _).congr_deriv ?_
    ring

lemma mixed_c (n m : ℕ) (va vb : ℝ) (k : ℕ) (hA : ContDiffAt ℝ 1 A t) (hB : ContDiffAt ℝ 1 B t)
    (hK : ContDiffAt ℝ 1 K t) (ha : A t ≠ 0) (hb : B t ≠ 0) :
    ContDiffAt ℝ 1 (fun t => mixed n m (A t) (B t) va vb (K t) k) t := by
  simp only [mixed]
  split_ifs
  · exact hA.mul contDiffAt_const
  · exact hB.mul contDiffAt_const
  · exact ((powSum_c _ _ hA hB ha hb).mul hK).mul contDiffAt_const

lemma inv_c (x y w : ℝ) {tc : ℝ} (ht : t ≠ 0) (hc : tc ≠ 0) : ContDiffAt ℝ 1 (fun t => (inv x y w tc t).x) t := by
  have h : ∀ n : ℕ, (t / tc) ^ n ≠ 0 := fun n => pow_ne_zero n (div_ne_zero ht hc)
  have e : ContDiffAt ℝ 1 (fun t : ℝ => t / tc) t := contDiffAt_id.div_const _
  simp only [inv]
  exact ((contDiffAt_const.add (contDiffAt_const.div (e.pow 2) (h 2))).add
    (contDiffAt_const.div (e.pow 3) (h 3)))

lemma k1_d (low : Bool) (ht : t ≠ 0) : HasDerivAt (k1 low) (dk1 low t) t := by
  cases low
  · have h := ((((hasDerivAt_id t).const_mul 7.9212e-3).const_sub 9.034).add
      (((hasDerivAt_id t).const_mul 2.3285e-6).mul (hasDerivAt_id t))).sub ((hasDerivAt_inv ht).const_mul 2.4221e3)
    refine (h.congr_deriv ?_).congr_of_eventuallyEq (Eventually.of_forall fun x => ?_)
    · simp only [dk1, id, Bool.false_eq_true, if_false, if_true]; ring
    · simp [k1, div_eq_mul_inv]
  · have h := ((((hasDerivAt_id t).const_mul 5.0624e-3).const_sub 3.131).add
      (((hasDerivAt_id t).const_mul 1.8641e-6).mul (hasDerivAt_id t))).sub ((hasDerivAt_inv ht).const_mul 31.409)
    refine (h.congr_deriv ?_).congr_of_eventuallyEq (Eventually.of_forall fun x => ?_)
    · simp only [dk1, id, Bool.false_eq_true, if_false, if_true]; ring
    · simp [k1, div_eq_mul_inv]

lemma k2_d (low : Bool) (ht : t ≠ 0) : HasDerivAt (k2 low) (dk2 low t) t := by
  cases low
  · have h := ((((hasDerivAt_id t).const_mul 1.8756e-3).const_add (-1.068)).sub
      (((hasDerivAt_id t).const_mul 4.9371e-7).mul (hasDerivAt_id t))).add ((hasDerivAt_inv ht).const_mul 6.6180e2)
    refine (h.congr_deriv ?_).congr_of_eventuallyEq (Eventually.of_forall fun x => ?_)
    · simp only [dk2, id, Bool.false_eq_true, if_false, if_true]; ring
    · simp [k2, div_eq_mul_inv]
  · have h := ((((hasDerivAt_id t).const_mul 4.2877e-2).const_add (-46.646)).sub
      (((hasDerivAt_id t).const_mul 1.0892e-5).mul (hasDerivAt_id t))).add ((hasDerivAt_inv ht).const_mul 1.5782e4)
    refine (h.congr_deriv ?_).congr_of_eventuallyEq (Eventually.of_forall fun x => ?_)
    · simp only [dk2, id, Bool.false_eq_true, if_false, if_true]; ring
    · simp [k2, div_eq_mul_inv]

lemma k1_c (low : Bool) (ht : t ≠ 0) : ContDiffAt ℝ 1 (k1 low) t := by
  have h : ∀ a b c d : ℝ, ContDiffAt ℝ 1 (fun t : ℝ => a - b * t + c * t * t - d / t) t := fun a b c d => by
    fun_prop (disch := exact ht)
  cases low
  · exact h 9.034 7.9212e-3 2.3285e-6 2.4221e3
  · exact h 3.131 5.0624e-3 1.8641e-6 31.409

lemma k2_c (low : Bool) (ht : t ≠ 0) : ContDiffAt ℝ 1 (k2 low) t := by
  have h : ∀ a b c d : ℝ, ContDiffAt ℝ 1 (fun t : ℝ => a + b * t - c * t * t + d / t) t := fun a b c d => by
    fun_prop (disch := exact ht)
  cases low
  · exact h (-1.068) 1.8756e-3 4.9371e-7 6.6180e2
  · exact h (-46.646) 4.2877e-2 1.0892e-5 1.5782e4

end

/-- No end-member coefficient vanishes at the temperature (where one does the program divides by zero in
`DpowSum`). -/
def Regular (low : Bool) (t : ℝ) : Prop :=
  ∀ s : Species, (inv (coef s low).a1 (coef s low).a2 (coef s low).a3 (coef s low).tc t).x ≠ 0
    ∧ (inv (coef s low).a4 (coef s low).a5 (coef s low).a6 (coef s low).tc t).x ≠ 0
    ∧ (inv (coef s low).a7 (coef s low).a8 (coef s low).a9 (coef s low).tc t).x ≠ 0
    ∧ (inv (coef s low).a10 (coef s low).a11 (coef s low).a12 (coef s low).tc t).x ≠ 0

lemma tc_pos (s : Species) (low : Bool) : 0 < (coef s low).tc := by
  cases s <;> cases low <;> simp only [coef] <;> norm_num

lemma f_ne (s : Species) (low : Bool) {t : ℝ} (ht : 0 < t) :
    (inv 0 0 (coef s low).a (coef s low).tc t).x ≠ 0 := by
  have := tc_pos s low
  have ha : (coef s low).a ≠ 0 := by cases s <;> cases low <;> simp only [coef] <;> norm_num
  simp only [inv, zero_div, zero_add]
  positivity

/-- The coefficients `q` of the mixture change with temperature at the rates `q'`. -/
structure Rates (low : Bool) (t : ℝ) : Prop where
  b : ∀ k, HasDerivAt (fun t => (mixQ low t).b k) ((mixQt low t).b k) t
  c : ∀ k, HasDerivAt (fun t => (mixQ low t).c k) ((mixQt low t).c k) t
  d : ∀ k, HasDerivAt (fun t => (mixQ low t).d k) ((mixQt low t).d k) t
  e : ∀ k, HasDerivAt (fun t => (mixQ low t).e k) ((mixQt low t).e k) t
  f : ∀ k, HasDerivAt (fun t => (mixQ low t).f k) ((mixQt low t).f k) t
  cb : ∀ k, ContDiffAt ℝ 1 (fun t => (mixQ low t).b k) t
  cc : ∀ k, ContDiffAt ℝ 1 (fun t => (mixQ low t).c k) t
  cd : ∀ k, ContDiffAt ℝ 1 (fun t => (mixQ low t).d k) t
  ce : ∀ k, ContDiffAt ℝ 1 (fun t => (mixQ low t).e k) t
  cf : ∀ k, ContDiffAt ℝ 1 (fun t => (mixQ low t).f k) t

lemma rates {low : Bool} {t : ℝ} (ht : 0 < t) (h : Regular low t) : Rates low t := by
  have h1 := fun s => (tc_pos s low).ne'
  have hi := fun s x y w => inv_d x y w ht.ne' (h1 s)
  have hc := fun s x y w => inv_c x y w ht.ne' (h1 s)
  have k0 : HasDerivAt (fun _ : ℝ => (1 : ℝ)) 0 t := hasDerivAt_const _ _
  have c0 : ContDiffAt ℝ 1 (fun _ : ℝ => (1 : ℝ)) t := contDiffAt_const
  have fn := fun s => f_ne s low ht
  exact ⟨fun k => mixed_d 2 1 _ _ k (hi .h2o _ _ _) (hi .co2 _ _ _) (k1_d low ht.ne') (h .h2o).1 (h .co2).1,
    fun k => mixed_d 3 2 _ _ k (hi .h2o _ _ _) (hi .co2 _ _ _) (k2_d low ht.ne') (h .h2o).2.1 (h .co2).2.1,
    fun k => mixed_d 5 4 _ _ k (hi .h2o _ _ _) (hi .co2 _ _ _) k0 (h .h2o).2.2.1 (h .co2).2.2.1,
    fun k => mixed_d 6 5 _ _ k (hi .h2o _ _ _) (hi .co2 _ _ _) k0 (h .h2o).2.2.2 (h .co2).2.2.2,
    fun k => mixed_d 2 2 _ _ k (hi .h2o _ _ _) (hi .co2 _ _ _) k0 (fn .h2o) (fn .co2),
    fun k => mixed_c 2 1 _ _ k (hc .h2o _ _ _) (hc .co2 _ _ _) (k1_c low ht.ne') (h .h2o).1 (h .co2).1,
    fun k => mixed_c 3 2 _ _ k (hc .h2o _ _ _) (hc .co2 _ _ _) (k2_c low ht.ne') (h .h2o).2.1 (h .co2).2.1,
    fun k => mixed_c 5 4 _ _ k (hc .h2o _ _ _) (hc .co2 _ _ _) c0 (h .h2o).2.2.1 (h .co2).2.2.1,
    fun k => mixed_c 6 5 _ _ k (hc .h2o _ _ _) (hc .co2 _ _ _) c0 (h .h2o).2.2.2 (h .co2).2.2.2,
    fun k => mixed_c 2 2 _ _ k (hc .h2o _ _ _) (hc .co2 _ _ _) c0 (fn .h2o) (fn .co2)⟩

section

variable {q : ℝ → ℕ → ℝ} {q' : ℕ → ℝ} {t x y : ℝ}

lemma form_t : ∀ (n : ℕ) {q : ℝ → ℕ → ℝ} {q' : ℕ → ℝ}, (∀ k, HasDerivAt (fun t => q t k) (q' k) t) →
    HasDerivAt (fun t => form n (q t) x y) (form n q' x y) t
  | 0, _, _, h => h 0
  | n + 1, q, q', h => by
    have h1 := form_t n h
    have h2 := form_t n (q := fun t k => q t (k + 1)) (q' := fun k => q' (k + 1)) fun k => h (k + 1)
    exact (h1.const_mul x).add (h2.const_mul y)

lemma form_tc : ∀ (n : ℕ) {q : ℝ → ℕ → ℝ}, (∀ k, ContDiffAt ℝ 1 (fun t => q t k) t) →
    ContDiffAt ℝ 1 (fun t => form n (q t) x y) t
  | 0, _, h => h 0
  | n + 1, q, h => by
    have h1 := form_tc n h
    have h2 := form_tc n (q := fun t k => q t (k + 1)) fun k => h (k + 1)
    exact (contDiffAt_const.mul h1).add (contDiffAt_const.mul h2)

lemma form'_t (n : ℕ) (i : Species) (h : ∀ k, HasDerivAt (fun t => q t k) (q' k) t) :
    HasDerivAt (fun t => form' n (q t) i x y) (form' n q' i x y) t := by
  refine (form_t (n - 1) (q := fun t => shift i (q t)) (q' := shift i q') ?_).const_mul (n : ℝ)
  intro k
  cases i
  · exact h k
  · exact h (k + 1)

lemma form'_tc (n : ℕ) (i : Species) (h : ∀ k, ContDiffAt ℝ 1 (fun t => q t k) t) :
    ContDiffAt ℝ 1 (fun t => form' n (q t) i x y) t := by
  refine contDiffAt_const.mul (form_tc (n - 1) (q := fun t => shift i (q t)) ?_)
  intro k
  cases i
  · exact h k
  · exact h (k + 1)

end

/-! ## The compressibility factor and the fugacity coefficients as functions of temperature and volume -/

section

variable {low : Bool} {t x y v : ℝ}

lemma on_fst {f : ℝ → ℝ} (h : ContDiffAt ℝ 1 f t) : ContDiffAt ℝ 1 (fun w : ℝ × ℝ => f w.1) (t, v) :=
  h.comp (t, v) contDiffAt_fst

lemma mixT_z_c (h : Rates low t) (hv : v ≠ 0) :
    ContDiffAt ℝ 1 (fun w : ℝ × ℝ => ((mixQ low w.1).at x y).z w.2) (t, v) := by
  have d1 := on_fst (v := v) (form_tc (x := x) (y := y) 2 h.cb)
  have d2 := on_fst (v := v) (form_tc (x := x) (y := y) 3 h.cc)
  have d3 := on_fst (v := v) (form_tc (x := x) (y := y) 5 h.cd)
  have d4 := on_fst (v := v) (form_tc (x := x) (y := y) 6 h.ce)
  have d5 := on_fst (v := v) (form_tc (x := x) (y := y) 2 h.cf)
  obtain ⟨A, hA⟩ : ∃ A, ∀ w, form 1 (mixQ low w).be x y = A := ⟨form 1 (mixQ low t).be x y, fun _ => rfl⟩
  obtain ⟨G, hG⟩ : ∃ G, ∀ w, form 3 (mixQ low w).g x y = G := ⟨form 3 (mixQ low t).g x y, fun _ => rfl⟩
  have hp : ∀ n : ℕ, v ^ n ≠ 0 := fun n => pow_ne_zero n hv
  simp only [Loc.z, Q.at, xp, hA, hG]
  fun_prop (disch := first | exact hp _ | exact hv)

lemma mixT_z_D (h : Rates low t) (hv : v ≠ 0) :
    D (fun w : ℝ × ℝ => ((mixQ low w.1).at x y).z w.2)
      (((mixQ low t).at x y).zt ((mixQt low t).at x y) v) (((mixQ low t).at x y).zv v) (t, v) := by
  refine D.of ((mixT_z_c h hv).differentiableAt one_ne_zero) ?_ ?_
  · have hz := z_path (form_t (x := x) (y := y) 2 h.b) (form_t (x := x) (y := y) 3 h.c)
      (form_t (x := x) (y := y) 5 h.d) (form_t (x := x) (y := y) 6 h.e) (form_t (x := x) (y := y) 2 h.f)
      (hasDerivAt_const t (form 1 (mixQ low t).be x y)) (hasDerivAt_const t (form 3 (mixQ low t).g x y))
      (hasDerivAt_const t v⁻¹)
    simp only [loc_z]
    refine (hz.congr_deriv ?_).congr_of_eventuallyEq (Eventually.of_forall fun s => rfl)
    simp only [Loc.zt, Q.at, xp, div_eq_mul_inv, inv_pow]
    ring
  · have hz := z_path (hasDerivAt_const v (form 2 (mixQ low t).b x y)) (hasDerivAt_const v (form 3 (mixQ low t).c x y))
      (hasDerivAt_const v (form 5 (mixQ low t).d x y)) (hasDerivAt_const v (form 6 (mixQ low t).e x y))
      (hasDerivAt_const v (form 2 (mixQ low t).f x y)) (hasDerivAt_const v (form 1 (mixQ low t).be x y))
      (hasDerivAt_const v (form 3 (mixQ low t).g x y)) (hasDerivAt_inv hv)
    simp only [loc_z]
    refine (hz.congr_deriv ?_).congr_of_eventuallyEq (Eventually.of_forall fun s => rfl)
    simp only [Loc.zv, Q.at, xp, div_eq_mul_inv, inv_pow]
    ring

lemma mixT_ln_D (h : Rates low t) (i : Species) (h1 : x + y = 1) (hv : v ≠ 0) (hz : ((mixQ low t).at x y).z v ≠ 0)
    (hg : ((mixQ low t).at x y).g ≠ 0) :
    D (fun w : ℝ × ℝ => ((mixQ low w.1).at x y).ln i w.2)
      (((mixQ low t).at x y).lnt ((mixQt low t).at x y) i v) (((mixQ low t).at x y).lnv i v) (t, v) := by
  refine D.of ?_ ?_ ?_
  · have h0 : DifferentiableAt ℝ (fun w : ℝ × ℝ => Real.log (((mixQ low w.1).at x y).z w.2)) (t, v) :=
      ((mixT_z_c (x := x) (y := y) h hv).differentiableAt one_ne_zero).log hz
    obtain ⟨Y, hY⟩ : ∃ Y : ℝ × ℝ → ℝ, ∀ w : ℝ × ℝ, Real.log (((mixQ low w.1).at x y).z w.2) = Y w := ⟨_, fun _ => rfl⟩
    simp only [hY] at h0
    have e : ∀ {f : ℝ → ℝ}, ContDiffAt ℝ 1 f t → DifferentiableAt ℝ (fun w : ℝ × ℝ => f w.1) (t, v) := fun hf =>
      (on_fst (v := v) hf).differentiableAt one_ne_zero
    have d1 := e (form'_tc (x := x) (y := y) 2 i h.cb)
    have d2 := e (form'_tc (x := x) (y := y) 3 i h.cc)
    have d3 := e (form'_tc (x := x) (y := y) 5 i h.cd)
    have d4 := e (form'_tc (x := x) (y := y) 6 i h.ce)
    have d5 := e (form'_tc (x := x) (y := y) 2 i h.cf)
    have d6 := e (form_tc (x := x) (y := y) 2 h.cf)
    obtain ⟨A, hA⟩ : ∃ A, ∀ w, form 1 (mixQ low w).be x y = A := ⟨form 1 (mixQ low t).be x y, fun _ => rfl⟩
    obtain ⟨G, hG⟩ : ∃ G, ∀ w, form 3 (mixQ low w).g x y = G := ⟨form 3 (mixQ low t).g x y, fun _ => rfl⟩
    obtain ⟨A', hA'⟩ : ∃ A, ∀ w, form' 1 (mixQ low w).be i x y = A := ⟨form' 1 (mixQ low t).be i x y, fun _ => rfl⟩
    obtain ⟨G', hG'⟩ : ∃ G, ∀ w, form' 3 (mixQ low w).g i x y = G := ⟨form' 3 (mixQ low t).g i x y, fun _ => rfl⟩
    have hp : ∀ n : ℕ, v ^ n ≠ 0 := fun n => pow_ne_zero n hv
    simp only [Loc.ln, hY]
    simp only [Q.at, xp, hA, hG, hA', hG']
    fun_prop (disch := first | exact hp _ | exact hv)
  · have hl := ((mixT_z_D (x := x) (y := y) h hv).left.log hz).neg
    have hg' : (fun _ : ℝ => form 3 (mixQ low t).g x y) t ≠ 0 := hg
    have ht := tail_path (κ := form' 1 (mixQ low t).be i x y) (form'_t (x := x) (y := y) 2 i h.b)
      (form'_t (x := x) (y := y) 3 i h.c) (form'_t (x := x) (y := y) 5 i h.d)
      (form'_t (x := x) (y := y) 6 i h.e) (form_t (x := x) (y := y) 2 h.f) (form'_t (x := x) (y := y) 2 i h.f)
      (hasDerivAt_const t (form 1 (mixQ low t).be x y)) (hasDerivAt_const t (form 3 (mixQ low t).g x y))
      (hasDerivAt_const t (form' 3 (mixQ low t).g i x y)) (hasDerivAt_const t v⁻¹) hg'
    refine ((hl.add ht).congr_deriv ?_).congr_of_eventuallyEq (Eventually.of_forall fun s => ?_)
    · simp only [Loc.lnt]
      simp only [Q.at, xp, div_eq_mul_inv, inv_pow]
      ring
    · have e1 : form 1 (mixQ low s).be x y = form 1 (mixQ low t).be x y := rfl
      have e2 : form 3 (mixQ low s).g x y = form 3 (mixQ low t).g x y := rfl
      have e3 : form' 1 (mixQ low s).be i x y = form' 1 (mixQ low t).be i x y := rfl
      have e4 : form' 3 (mixQ low s).g i x y = form' 3 (mixQ low t).g i x y := rfl
      simp only [Loc.ln, Q.at, xp, Pi.add_apply, Pi.neg_apply]
      rw [e1, e2, e3, e4]
      simp only [div_eq_mul_inv, inv_pow]
      ring
  · have h2 := mix_ln_path (q := mixQ low t) i (hasDerivAt_const v x) (hasDerivAt_const v y) (hasDerivAt_id v) h1
      hv hz hg
    refine (h2.congr_deriv ?_).congr_of_eventuallyEq (Eventually.of_forall fun s => ?_)
    · simp only [id]; ring
    · simp only [id, Q.mol, h1, div_one]

end

end Verif.Thermo.Fluid
