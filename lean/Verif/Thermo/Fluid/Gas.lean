import Verif.Thermo.Fluid.Pure
import Verif.Thermo.Fluid.Search
import Mathlib.Analysis.Calculus.InverseFunctionTheorem.FDeriv
import Mathlib.Analysis.Calculus.ContDiff.RCLike

/-!
# Pure fluids: volumes that solve the equation of state exist (C80)
-/

open Filter Topology

namespace Verif.Thermo.Fluid

open Verif.Thermo.Water
open Verif.Thermo.StdState (Std Consistent)

/-- The pressure of the equation of state. -/
noncomputable def Coef.press (k : Coef) (t v : ℝ) : ℝ := k.z t v * Rv * t / v

/-- **C80.**  Wherever the pressure of the equation of state is positive and responds to the volume, there
is a solution of the equation of state nearby of the kind the theorems on the reported properties ask
for. -/
theorem C80_volume_exists {k : Coef} (hk : k.Good) {t v : ℝ} (ht : 0 < t) (hv : 0 < v) (hz : 0 < k.z t v)
    (hs : k.zv t v / k.z t v ≠ 1 / v) :
    ∃ vol : ℝ × ℝ → ℝ, vol (t, k.press t v) = v ∧ 0 < k.press t v ∧ Solves k vol t (k.press t v) := by
  have hR : (0 : ℝ) < Rv := by norm_num [Rv]
  have hP : 0 < k.press t v := by unfold Coef.press; positivity
  set a : ℝ × ℝ → ℝ := fun w => (k.zt w.1 w.2 * Rv * w.1 + k.z w.1 w.2 * Rv) / w.2 with ha
  set b : ℝ × ℝ → ℝ := fun w => (k.zv w.1 w.2 * Rv * w.1 * w.2 - k.z w.1 w.2 * Rv * w.1) / w.2 ^ 2 with hb
  have e1 : ∀ᶠ w : ℝ × ℝ in 𝓝 (t, v), 0 < w.1 := continuousAt_fst.eventually_const_lt ht
  have e2 : ∀ᶠ w : ℝ × ℝ in 𝓝 (t, v), 0 < w.2 := continuousAt_snd.eventually_const_lt hv
  have hder : ∀ᶠ w : ℝ × ℝ in 𝓝 (t, v), HasFDerivAt (fun w : ℝ × ℝ => k.press w.1 w.2)
      (a w • ContinuousLinearMap.fst ℝ ℝ ℝ + b w • ContinuousLinearMap.snd ℝ ℝ ℝ) w := by
    filter_upwards [e1, e2] with w a1 a2
    have dz := z_D k hk.tc (t := w.1) (v := w.2) a1.ne' a2.ne'
    exact (((dz.mul (D.const Rv)).mul D.fst).div D.snd a2.ne').to
      (by simp only [ha]; field_simp; ring) (by simp only [hb]; ring)
  have cD : ∀ {f : ℝ × ℝ → ℝ} {x y : ℝ}, D f x y (t, v) → ContinuousAt f (t, v) :=
    fun h => HasFDerivAt.continuousAt h
  have cz := cD (z_D k hk.tc ht.ne' hv.ne')
  have czt := cD (zt_D k hk.tc ht.ne' hv.ne')
  have czv := cD (zv_D k hk.tc ht.ne' hv.ne')
  have c1 : ContinuousAt (fun w : ℝ × ℝ => w.1) (t, v) := continuousAt_fst
  have c2 : ContinuousAt (fun w : ℝ × ℝ => w.2) (t, v) := continuousAt_snd
  have ca : ContinuousAt a (t, v) :=
    (((czt.mul_const Rv).mul c1).add (cz.mul_const Rv)).div c2 hv.ne'
  have cb : ContinuousAt b (t, v) :=
    ((((czv.mul_const Rv).mul c1).mul c2).sub ((cz.mul_const Rv).mul c1)).div (c2.pow 2)
      (pow_ne_zero 2 hv.ne')
  have hcont : ContinuousAt (fun w : ℝ × ℝ => a w • ContinuousLinearMap.fst ℝ ℝ ℝ
      + b w • ContinuousLinearMap.snd ℝ ℝ ℝ) (t, v) := by fun_prop
  have hstrict := hasStrictFDerivAt_fst.prodMk
    (hasStrictFDerivAt_of_hasFDerivAt_of_continuousAt hder hcont)
  have hbn : b (t, v) ≠ 0 := by
    simp only [hb]
    intro h
    apply hs
    rw [div_eq_zero_iff] at h
    rcases h with h | h
    · have : (k.zv t v * v - k.z t v) * (Rv * t) = 0 := by linear_combination h
      rcases mul_eq_zero.1 this with h | h
      · rw [div_eq_div_iff hz.ne' hv.ne']; linarith
      · exact absurd h (by positivity)
    · exact absurd h (by positivity)
  have hs' : HasStrictFDerivAt (fun w : ℝ × ℝ => (w.1, k.press w.1 w.2))
      (shear (a (t, v)) (b (t, v)) hbn : ℝ × ℝ →L[ℝ] ℝ × ℝ) (t, v) := hstrict
  have himg : (hs'.localInverse _ _ _) (t, k.press t v) = (t, v) := hs'.localInverse_apply_image
  have himg2 : ((hs'.localInverse _ _ _) (t, k.press t v)).2 = v := by rw [himg]
  have hcn : ContinuousAt (fun w => ((hs'.localInverse _ _ _) w).2) (t, k.press t v) :=
    continuousAt_snd.comp hs'.localInverse_continuousAt
  refine ⟨fun w => ((hs'.localInverse _ _ _) w).2, himg2, hP, hcn, hv.trans_eq himg2.symm, ?_, ?_⟩
  · have hpos : ∀ᶠ w in 𝓝 (t, k.press t v), 0 < ((hs'.localInverse _ _ _) w).2 :=
      hcn.eventually_const_lt (hv.trans_eq himg2.symm)
    filter_upwards [hs'.eventually_right_inverse, hpos] with w hw p1
    have w1 : ((hs'.localInverse (fun w : ℝ × ℝ => (w.1, k.press w.1 w.2)) _ _) w).1 = w.1 :=
      (Prod.ext_iff.1 hw).1
    have w2 : k.press ((hs'.localInverse (fun w : ℝ × ℝ => (w.1, k.press w.1 w.2)) _ _) w).1
        ((hs'.localInverse (fun w : ℝ × ℝ => (w.1, k.press w.1 w.2)) _ _) w).2 = w.2 :=
      (Prod.ext_iff.1 hw).2
    rw [w1] at w2
    have hlast : ∀ x q : ℝ, 0 < x → k.press w.1 x = q → k.z w.1 x * Rv * w.1 = q * x := fun x q hx hq => by
      rw [← hq, Coef.press, div_mul_cancel₀ _ hx.ne']
    exact hlast _ _ p1 w2
  · simp only [himg2]
    exact hs

/-! ## The ideal gas limit -/

/-- **C80.**  At every temperature the fugacity coefficient tends to one and the compressibility factor to
one as the volume grows without bound: the equation of state becomes that of the ideal gas, and with the
pressure derivative of `C80_fugacity` this determines the fugacity coefficient. -/
theorem C80_ideal (s : Species) (low : Bool) (t : ℝ) :
    Tendsto (fun v => (coef s low).z t v) atTop (𝓝 1)
    ∧ Tendsto (fun v => Real.exp ((coef s low).ln t v)) atTop (𝓝 1) := by
  set k := coef s low
  have hp : ∀ (c : ℝ) (n : ℕ), n ≠ 0 → Tendsto (fun v : ℝ => c / v ^ n) atTop (𝓝 0) := fun c n hn =>
    tendsto_const_nhds.div_atTop (tendsto_pow_atTop hn)
  have h1 : ∀ c : ℝ, Tendsto (fun v : ℝ => c / v) atTop (𝓝 0) := fun c => by simpa using hp c 1 one_ne_zero
  have hex : Tendsto k.ex atTop (𝓝 1) := by
    have := (hp (-k.gam) 2 two_ne_zero).rexp
    rw [Real.exp_zero] at this
    exact this
  have hz : Tendsto (fun v => k.z t v) atTop (𝓝 1) := by
    have := ((((((tendsto_const_nhds (x := (1 : ℝ))).add (h1 (k.B t).x)).add (hp (k.C t).x 2 (by norm_num))).add
      (hp (k.Dd t).x 4 (by norm_num))).add (hp (k.E t).x 5 (by norm_num))).add
      (((hp (k.F t).x 2 (by norm_num)).mul ((hp k.gam 2 (by norm_num)).const_add k.b)).mul hex))
    simpa [Coef.z] using this
  refine ⟨hz, ?_⟩
  have hln : Tendsto (fun v => k.ln t v) atTop (𝓝 0) := by
    have a1 := (hz.log one_ne_zero).neg
    have hg := k.gam
    have a2 := (((((((h1 (2 * (k.B t).x)).add (hp (3 * (k.C t).x / 2) 2 (by norm_num))).add
      (hp (5 * (k.Dd t).x / 4) 4 (by norm_num))).add (hp (6 * (k.E t).x / 5) 5 (by norm_num))).add
      ((hex.const_sub 1).const_mul ((2 * (k.F t).x * k.b + k.b * (k.F t).x) / 2 / k.gam))).add
      (((((hp k.gam 2 (by norm_num)).add_const 1).mul hex).const_sub 1).const_mul
        ((2 * (k.F t).x * k.gam + 3 * k.gam * (k.F t).x - (k.F t).x * k.b * (3 * k.gam - k.gam))
          / 2 / k.gam / k.gam))).add
      ((((((hp (k.gam * k.gam) 4 (by norm_num)).add (hp (2 * k.gam) 2 (by norm_num))).add_const 2).mul
        hex).const_add (-2)).const_mul ((3 * k.gam - k.gam) * (k.F t).x / 2 / k.gam / k.gam)))
    have a3 := a1.add a2
    have e0 : -Real.log 1 + (0 + 0 + 0 + 0
        + (2 * (k.F t).x * k.b + k.b * (k.F t).x) / 2 / k.gam * (1 - 1)
        + (2 * (k.F t).x * k.gam + 3 * k.gam * (k.F t).x - (k.F t).x * k.b * (3 * k.gam - k.gam))
          / 2 / k.gam / k.gam * (1 - (0 + 1) * 1)
        + (3 * k.gam - k.gam) * (k.F t).x / 2 / k.gam / k.gam * (-2 + (0 + 0 + 2) * 1)) = (0 : ℝ) := by
      rw [Real.log_one]; ring
    rw [e0] at a3
    exact a3
  simpa using hln.rexp

/-- **C80.**  The pressure derivative of the logarithm of the fugacity coefficient, as reported, is its
derivative, and it is `(z - 1)/p`. -/
theorem C80_fugacity {k : Coef} {vol : ℝ × ℝ → ℝ} {t p : ℝ} (hk : k.Good) (ht : 0 < t) (hp : 0 < p)
    (h : Solves k vol t p) :
    HasDerivAt (fun p' => Real.log (driver k t p' (vol (t, p'))).phi) (driver k t p (vol (t, p))).lp p
    ∧ (driver k t p (vol (t, p))).lp = ((driver k t p (vol (t, p))).z - 1) / p
    ∧ HasDerivAt (fun t' => Real.log (driver k t' p (vol (t', p))).phi) (driver k t p (vol (t, p))).lt t
    ∧ HasDerivAt (fun t' => (driver k t' p (vol (t', p))).lt) (driver k t p (vol (t, p))).ltt t
    ∧ HasDerivAt (fun p' => (driver k t p' (vol (t, p'))).lt) (driver k t p (vol (t, p))).ltp p
    ∧ HasDerivAt (fun p' => (driver k t p' (vol (t, p'))).lp) (driver k t p (vol (t, p))).lpp p :=
  have o := driver_ok hk ht hp h
  ⟨o.ln.right, o.gas.self_of_nhds, o.ln.left, o.lt.left, o.lt.right, o.lp.right⟩

/-! ## The dilute gas -/

lemma mulb {x y X Y : ℝ} (hx : |x| ≤ X) (hy : |y| ≤ Y) : |x * y| ≤ X * Y := by
  rw [abs_mul]
  exact mul_le_mul hx hy (abs_nonneg _) ((abs_nonneg _).trans hx)

lemma addb {x y X Y : ℝ} (hx : |x| ≤ X) (hy : |y| ≤ Y) : |x + y| ≤ X + Y :=
  (abs_add_le x y).trans (add_le_add hx hy)

lemma inv_bound (x y w : ℝ) {tc t : ℝ} (hc : 0 < tc) (ht : tc ≤ t) :
    |(inv x y w tc t).x| ≤ |x| + |y| + |w| := by
  have h1 : 1 ≤ t / tc := (one_le_div hc).2 ht
  have hq : ∀ (c : ℝ) (n : ℕ), |c / (t / tc) ^ n| ≤ |c| := fun c n => by
    rw [abs_div, abs_of_pos (pow_pos (by positivity) n : (0 : ℝ) < (t / tc) ^ n)]
    exact div_le_self (abs_nonneg _) (one_le_pow₀ h1)
  exact addb (addb le_rfl (hq y 2)) (hq w 3)

/-- The equation of state in terms of `r = Vc / v`. -/
lemma low_bounds (s : Species) {t v : ℝ} (ht : (coef s true).tc ≤ t) (hv : 50 * (coef s true).vc ≤ v) :
    |(coef s true).z t v - 1| ≤ 2 * (coef s true).vc / v
    ∧ |(coef s true).zv t v| ≤ 2 * (coef s true).vc / v ^ 2 := by
  set k := coef s true with hk
  have htc : 0 < k.tc := by cases s <;> simp only [hk, coef] <;> norm_num
  have hvc : 0 < k.vc := by cases s <;> simp only [hk, coef, Coef.vc, Rv] <;> norm_num
  have hv0 : 0 < v := by linarith
  obtain ⟨r, hr⟩ : ∃ r, r = k.vc / v := ⟨_, rfl⟩
  have hr0 : 0 < r := by rw [hr]; positivity
  have hr1 : r ≤ 1 / 50 := by rw [hr, div_le_iff₀ hv0]; linarith
  have ar : |r| ≤ 1 / 50 := by rw [abs_of_pos hr0]; exact hr1
  obtain ⟨b, hb⟩ : ∃ b, b = (inv k.a1 k.a2 k.a3 k.tc t).x := ⟨_, rfl⟩
  obtain ⟨c, hc⟩ : ∃ c, c = (inv k.a4 k.a5 k.a6 k.tc t).x := ⟨_, rfl⟩
  obtain ⟨d, hd⟩ : ∃ d, d = (inv k.a7 k.a8 k.a9 k.tc t).x := ⟨_, rfl⟩
  obtain ⟨e, he⟩ : ∃ e, e = (inv k.a10 k.a11 k.a12 k.tc t).x := ⟨_, rfl⟩
  obtain ⟨f, hf⟩ : ∃ f, f = (inv 0 0 k.a k.tc t).x := ⟨_, rfl⟩
  have bb : |b| ≤ 1.78 := by
    rw [hb]; refine (inv_bound _ _ _ htc ht).trans ?_
    cases s <;> simp only [hk, coef] <;> norm_num [abs_of_pos, abs_of_neg]
  have bc : |c| ≤ 0.19 := by
    rw [hc]; refine (inv_bound _ _ _ htc ht).trans ?_
    cases s <;> simp only [hk, coef] <;> norm_num [abs_of_pos, abs_of_neg]
  have bd : |d| ≤ 0.02 := by
    rw [hd]; refine (inv_bound _ _ _ htc ht).trans ?_
    cases s <;> simp only [hk, coef] <;> norm_num [abs_of_pos, abs_of_neg]
  have be : |e| ≤ 0.003 := by
    rw [he]; refine (inv_bound _ _ _ htc ht).trans ?_
    cases s <;> simp only [hk, coef] <;> norm_num [abs_of_pos, abs_of_neg]
  have bf : |f| ≤ 0.008 := by
    rw [hf]; refine (inv_bound _ _ _ htc ht).trans ?_
    cases s <;> simp only [hk, coef] <;> norm_num [abs_of_pos, abs_of_neg]
  have bβ : |k.b| ≤ 4.3 := by cases s <;> simp only [hk, coef] <;> norm_num [abs_of_pos, abs_of_neg]
  have bγ : |k.c| ≤ 0.16 := by cases s <;> simp only [hk, coef] <;> norm_num [abs_of_pos, abs_of_neg]
  have hγ : 0 < k.c := by cases s <;> simp only [hk, coef] <;> norm_num
  have bx : |k.ex v| ≤ 1 := by
    unfold Coef.ex Coef.gam
    rw [abs_of_pos (Real.exp_pos _), Real.exp_le_one_iff, neg_div]
    have : 0 ≤ k.c * k.vc ^ 2 / v ^ 2 := by positivity
    linarith
  have one : |(1 : ℝ)| ≤ 1 := by norm_num
  have two : |(2 : ℝ)| ≤ 2 := by norm_num
  have mtwo : |(-2 : ℝ)| ≤ 2 := by norm_num
  have four : |(4 : ℝ)| ≤ 4 := by norm_num
  have five : |(5 : ℝ)| ≤ 5 := by norm_num
  have ar2 := mulb ar ar
  have ar3 := mulb ar2 ar
  have bbr := addb bβ (mulb bγ ar2)
  have hz : k.z t v - 1 = r * (b + c * r + d * (r * r * r) + e * (r * r * (r * r))
      + f * r * (k.b + k.c * (r * r)) * k.ex v) := by
    simp only [Coef.z, Coef.B, Coef.C, Coef.Dd, Coef.E, Coef.F, T2.scale, Coef.gam, ← hb, ← hc, ← hd, ← he,
      ← hf, hr]
    ring
  have hzv : k.zv t v = -(r * r / k.vc) * (b + 2 * (c * r) + 4 * (d * (r * r * r)) + 5 * (e * (r * r * (r * r)))
      + f * r * (2 * (k.b + k.c * (r * r)) + 2 * (k.c * (r * r))
        + -2 * ((k.b + k.c * (r * r)) * (k.c * (r * r)))) * k.ex v) := by
    simp only [Coef.zv, Coef.B, Coef.C, Coef.Dd, Coef.E, Coef.F, T2.scale, Coef.gam, ← hb, ← hc, ← hd, ← he,
      ← hf, hr]
    field_simp
    ring
  constructor
  · rw [hz, abs_mul, abs_of_pos hr0]
    have := addb (addb (addb (addb bb (mulb bc ar)) (mulb bd ar3)) (mulb be (mulb ar2 ar2)))
      (mulb (mulb (mulb bf ar) bbr) bx)
    have h2 : |b + c * r + d * (r * r * r) + e * (r * r * (r * r))
      + f * r * (k.b + k.c * (r * r)) * k.ex v| ≤ 2 := this.trans (by norm_num)
    calc _ ≤ r * 2 := mul_le_mul_of_nonneg_left h2 hr0.le
      _ = 2 * k.vc / v := by rw [hr]; ring
  · rw [hzv, abs_mul, abs_neg, abs_of_pos (by positivity : 0 < r * r / k.vc)]
    have := addb (addb (addb (addb bb (mulb two (mulb bc ar))) (mulb four (mulb bd ar3)))
      (mulb five (mulb be (mulb ar2 ar2)))) (mulb (mulb (mulb bf ar)
        (addb (addb (mulb two bbr) (mulb two (mulb bγ ar2))) (mulb mtwo (mulb bbr (mulb bγ ar2))))) bx)
    have h2 := this.trans (show _ ≤ (2 : ℝ) by norm_num)
    calc _ ≤ r * r / k.vc * 2 := mul_le_mul_of_nonneg_left h2 (by positivity)
      _ = 2 * k.vc / v ^ 2 := by rw [hr]; field_simp

/-- **C80.**  The search at low pressure (one hundredth of the critical pressure times the reduced
temperature, above the critical temperature; for both species this includes 1 bar at every temperature
above 650 K): it starts at the volume of the ideal gas, stops by its tolerance without a message, and the
volume it returns lies within 4 per cent of the start and satisfies the equation of state to 100 machine
epsilons.  There is exactly one volume of at least half the start that solves the equation of state, and
the volume returned differs from it by less than 115 machine epsilons of itself; there the pressure falls
with volume. -/
theorem C80_search_dilute (s : Species) {t p : ℝ} (ht : (coef s true).tc ≤ t) (hp : 0 < p)
    (hd : 100 * (p * (coef s true).tc) ≤ (coef s true).pc * t) :
    ∃ v, search (fun v => (coef s true).z t v * Rv * t / p) (Rv * t / p) = some v
      ∧ |(coef s true).z t v * Rv * t / p - v| ≤ v * 100 * eps
      ∧ |v - Rv * t / p| ≤ Rv * t / p / 25
      ∧ ∃! x, Rv * t / p / 2 ≤ x ∧ (coef s true).z t x * Rv * t = p * x
        ∧ |v - x| ≤ 115 * eps * v
        ∧ 0 < (coef s true).z t x ∧ (coef s true).zv t x / (coef s true).z t x < 1 / x := by
  set k := coef s true with hk
  have htc : 0 < k.tc := by cases s <;> simp only [hk, coef] <;> norm_num
  have hpc : 0 < k.pc := by cases s <;> simp only [hk, coef] <;> norm_num
  have hR : (0 : ℝ) < Rv := by norm_num [Rv]
  have ht0 : 0 < t := htc.trans_le ht
  have hvc : 0 < k.vc := by unfold Coef.vc; positivity
  obtain ⟨v0, hv0⟩ : ∃ v0, v0 = Rv * t / p := ⟨_, rfl⟩
  have v0p : 0 < v0 := by rw [hv0]; positivity
  have hv100 : 100 * k.vc ≤ v0 := by
    rw [hv0, Coef.vc, le_div_iff₀ hp]
    rw [show 100 * (Rv * k.tc / k.pc) * p = Rv * (100 * (p * k.tc)) / k.pc by ring, div_le_iff₀ hpc]
    have := mul_le_mul_of_nonneg_left hd hR.le
    linarith
  rw [← hv0]
  set h : ℝ → ℝ := fun v => k.z t v * Rv * t / p with hh
  have hv : ∀ v, h v = k.z t v * v0 := fun v => by simp only [hh, hv0]; ring
  have hder : ∀ x, v0 / 2 ≤ x → HasDerivAt h (k.zv t x * v0) x := fun x hx => by
    have hx0 : x ≠ 0 := by linarith
    have := ((z_D k htc.ne' ht0.ne' hx0).right).mul_const v0
    exact this.congr_of_eventuallyEq (Eventually.of_forall fun y => hv y)
  have hslope : ∀ x, v0 / 2 ≤ x → |k.zv t x * v0| ≤ 3 / 25 := fun x hx => by
    have hx0 : 0 < x := by linarith
    rw [abs_mul, abs_of_pos v0p]
    have h1 := (low_bounds s ht (by linarith : 50 * k.vc ≤ x)).2
    have h2 : 2 * k.vc / x ^ 2 * v0 ≤ 3 / 25 := by
      rw [div_mul_eq_mul_div, div_le_iff₀ (by positivity)]
      nlinarith
    exact (mul_le_mul_of_nonneg_right h1 v0p.le).trans h2
  have hl : ∀ x y, v0 / 2 ≤ x → v0 / 2 ≤ y → |h x - h y| ≤ 3 / 25 * |x - y| := by
    intro x y hx hy
    have := (convex_Ici (v0 / 2)).norm_image_sub_le_of_norm_hasDerivWithin_le (f := h)
      (f' := fun x => k.zv t x * v0) (C := 3 / 25) (fun z hz => (hder z hz).hasDerivWithinAt)
      (fun z hz => by rw [Real.norm_eq_abs]; exact hslope z hz) (Set.mem_Ici.2 hy) (Set.mem_Ici.2 hx)
    simpa [Real.norm_eq_abs] using this
  have h0 : |h v0 - v0| ≤ v0 / 50 := by
    have h1 := (low_bounds s ht (by linarith : 50 * k.vc ≤ v0)).1
    rw [hv, show k.z t v0 * v0 - v0 = (k.z t v0 - 1) * v0 by ring, abs_mul, abs_of_pos v0p]
    have h2 : 2 * k.vc / v0 * v0 ≤ v0 / 50 := by
      rw [div_mul_cancel₀ _ v0p.ne']; linarith
    exact (mul_le_mul_of_nonneg_right h1 v0p.le).trans h2
  obtain ⟨a, b, d, hav, hda, hde, ha⟩ := avg_contract v0p h0 hl
  have ha' := abs_le.1 ha
  have hsearch : search h v0 = some a := by
    unfold search
    rw [hav]
    simp only
    rw [if_neg (not_lt.2 hda.le)]
  -- the fixed point
  have hfix : ∃ x, v0 / 2 ≤ x ∧ h x = x := by
    have hcont : ContinuousOn (fun x => h x - x) (Set.Icc (v0 / 2) (2 * v0)) := fun x hx =>
      ((hder x hx.1).continuousAt.sub continuousAt_id).continuousWithinAt
    have hlow := hl (v0 / 2) v0 le_rfl (by linarith)
    have hup := hl (2 * v0) v0 (by linarith) (by linarith)
    rw [show v0 / 2 - v0 = -(v0 / 2) by ring, abs_neg, abs_of_pos (by positivity : 0 < v0 / 2)] at hlow
    rw [show 2 * v0 - v0 = v0 by ring, abs_of_pos v0p] at hup
    have i0 := abs_le.1 h0
    have i1 := abs_le.1 hlow
    have i2 := abs_le.1 hup
    have := intermediate_value_Icc' (by linarith : v0 / 2 ≤ 2 * v0) hcont
    obtain ⟨x, hx, hx0⟩ := this (show (0 : ℝ) ∈ _ from ⟨by linarith, by linarith⟩)
    exact ⟨x, hx.1, by simpa [sub_eq_zero] using hx0⟩
  obtain ⟨x, hx, hxe⟩ := hfix
  have hx0 : 0 < x := by linarith
  have heq : ∀ y, k.z t y * Rv * t = p * y ↔ h y = y := fun y => by
    simp only [hh]
    rw [div_eq_iff hp.ne', mul_comm p y]
  refine ⟨a, hsearch, ?_, ha, x, ⟨hx, (heq x).2 hxe, ?_, ?_, ?_⟩, ?_⟩
  · rw [← hde]; exact hda.le
  · have h1 := hl a x (by linarith [ha'.1]) hx
    rw [hxe] at h1
    have h2 : |a - x| ≤ |d| + 3 / 25 * |a - x| := by
      have : a - x = -(h a - a) + (h a - x) := by ring
      calc |a - x| = |-(h a - a) + (h a - x)| := by rw [← this]
        _ ≤ |h a - a| + |h a - x| := by rw [← abs_neg (h a - a)]; exact abs_add_le _ _
        _ ≤ _ := by rw [← hde]; linarith
    have e0 := eps_pos
    have apos : 0 < a := by linarith [ha'.1]
    have : 0 < a * eps := by positivity
    nlinarith
  · have : 0 < k.z t x * v0 := by rw [← hv, hxe]; exact hx0
    exact pos_of_mul_pos_left this v0p.le
  · have hz : 0 < k.z t x := pos_of_mul_pos_left (by rw [← hv, hxe]; exact hx0 : 0 < k.z t x * v0) v0p.le
    rw [div_lt_div_iff₀ hz hx0]
    have h1 := (abs_le.1 (hslope x hx)).2
    have h2 : k.z t x * v0 = x := by rw [← hv, hxe]
    have : k.zv t x * x * v0 < 1 * k.z t x * v0 := by nlinarith
    exact lt_of_mul_lt_mul_right this v0p.le
  · rintro y ⟨hy, hye, -⟩
    have hy' := (heq y).1 hye
    have h1 := hl y x hy hx
    rw [hy', hxe] at h1
    have : |y - x| ≤ 0 := by linarith [abs_nonneg (y - x)]
    have := abs_nonpos_iff.1 this
    linarith

/-- **C80.**  The hypotheses of the theorems on the reported properties are met at 1 bar and every
temperature from 650 K on, by both species, along the volume the search finds to within 115 machine
epsilons. -/
theorem C80_one_bar (s : Species) {t : ℝ} (ht : 650 ≤ t) :
    ∃ (vol : Bool → ℝ × ℝ → ℝ) (v : ℝ), Found s vol true t 1
      ∧ search (fun v => (coef s true).z t v * Rv * t / 1) (Rv * t / 1) = some v
      ∧ |v - vol true (t, 1)| ≤ 115 * eps * v := by
  have htc : (coef s true).tc ≤ t := by cases s <;> simp only [coef] <;> linarith
  have hd : 100 * ((1 : ℝ) * (coef s true).tc) ≤ (coef s true).pc * t := by
    cases s <;> simp only [coef] <;> linarith
  obtain ⟨v, h1, -, -, x, ⟨hx, hxe, hvx, hz, hst⟩, -⟩ := C80_search_dilute s htc one_pos hd
  have ht0 : 0 < t := by linarith
  have hR : (0 : ℝ) < Rv := by norm_num [Rv]
  have hx0 : 0 < x := lt_of_lt_of_le (by positivity) hx
  obtain ⟨vol, e1, -, hsol⟩ := C80_volume_exists (coef_good s true) ht0 hx0 hz hst.ne
  have e2 : (coef s true).press t x = 1 := by
    unfold Coef.press
    rw [hxe]
    field_simp
  rw [e2] at e1 hsol
  exact ⟨fun _ => vol, v, ⟨hsol, fun h => by simp at h⟩, h1, by show |v - vol (t, 1)| ≤ _; rw [e1]; exact hvx⟩

/-- **C80.**  Dissolved CO2: the properties of the pure gas at 1 bar that `gibbs.c` 1072 puts into the
liquid's CO2 meet the hypotheses of the theorem on that component, so the liquid's CO2 is consistent too
(with the exact derivative of the heat capacity in the place of the difference quotient). -/
theorem C80_dissolved {vol : Bool → ℝ × ℝ → ℝ} {t : ℝ} (δ p : ℝ) (ht : 0 < t) (h : Found .co2 vol true t 1) :
    Consistent (Verif.Thermo.StdState.co2 fun t' => { pureProps .co2 vol δ t' 1 with
      dcpdt := deriv (fun t' => (pureProps .co2 vol δ t' 1).cp) t }) t p := by
  have hc := C80_pure (s := .co2) (vol := vol) δ ht one_pos (by norm_num)
    (by rw [show decide ((1 : ℝ) ≤ 2000) = true by norm_num]; exact h)
  refine Verif.Thermo.StdState.co2_consistent p ht ⟨?_, hc.heat, hc.heatS, hc.dcpdt⟩
  exact Eventually.of_forall fun t' => by simp only [pureProps]; ring

/-! ## Above 2000 bar -/

/-- Two solutions at different pressures and the same temperature, of the two sets of coefficients, make
up what the code finds above 2000 bar. -/
lemma found_above (s : Species) {t q v v1 v2 : ℝ} (ht : 0 < t) (hv : 0 < v) (h1 : 0 < v1) (h2 : 0 < v2)
    (hz : 0 < (coef s false).z t v) (hs : (coef s false).zv t v / (coef s false).z t v ≠ 1 / v)
    (hq : (coef s false).press t v = q) (hp : 2000 < q)
    (a1 : 0 < (coef s true).z t v1) (a2 : (coef s true).zv t v1 / (coef s true).z t v1 ≠ 1 / v1)
    (a3 : (coef s true).press t v1 = 2000)
    (b1 : 0 < (coef s false).z t v2) (b2 : (coef s false).zv t v2 / (coef s false).z t v2 ≠ 1 / v2)
    (b3 : (coef s false).press t v2 = 2000) :
    ∃ vol, Found s vol false t q ∧ vol false (t, q) = v ∧ vol true (t, 2000) = v1
      ∧ vol false (t, 2000) = v2 := by
  obtain ⟨f, f1, -, f3⟩ := C80_volume_exists (coef_good s false) ht hv hz hs
  obtain ⟨g, g1, -, g3⟩ := C80_volume_exists (coef_good s true) ht h1 a1 a2
  obtain ⟨h, h1', -, h3⟩ := C80_volume_exists (coef_good s false) ht h2 b1 b2
  rw [hq] at f1 f3
  rw [a3] at g1 g3
  rw [b3] at h3 h1'
  classical
  refine ⟨fun low w => if low then g w else if w.2 < (2000 + q) / 2 then h w else f w,
    ⟨?_, fun _ => ⟨g3, ?_⟩⟩, ?_, g1, ?_⟩
  · have ev : ∀ᶠ w : ℝ × ℝ in 𝓝 (t, q), ¬w.2 < (2000 + q) / 2 :=
      ((continuousAt_snd : ContinuousAt Prod.snd (t, q)).eventually_const_lt
        (show (2000 + q) / 2 < q by linarith)).mono fun w hw => not_lt.2 hw.le
    have e0 := ev.self_of_nhds
    simp only at e0
    refine ⟨f3.cont.congr (ev.mono fun w hw => by simp [hw]), by simp [e0, f3.pos], ?_, by simpa [e0] using f3.stable⟩
    filter_upwards [ev, f3.eos] with w hw hw'
    simpa [hw] using hw'
  · have ev : ∀ᶠ w : ℝ × ℝ in 𝓝 (t, 2000), w.2 < (2000 + q) / 2 :=
      (continuousAt_snd : ContinuousAt Prod.snd (t, (2000 : ℝ))).eventually_lt_const (show (2000 : ℝ) < (2000 + q) / 2 by linarith)
    have e0 := ev.self_of_nhds
    simp only at e0
    refine ⟨h3.cont.congr (ev.mono fun w hw => by simp [hw]), by simp [e0, h3.pos], ?_, by simpa [e0] using h3.stable⟩
    filter_upwards [ev, h3.eos] with w hw hw'
    simpa [hw] using hw'
  · have : ¬q < (2000 + q) / 2 := not_lt.2 (by linarith)
    simp [this, f1]
  · have : (2000 : ℝ) < (2000 + q) / 2 := by linarith
    simp [this, h1']

/-- The exponential as a function of `r = Vc/v`. -/
noncomputable def ee (k : Coef) (r : ℝ) : ℝ := Real.exp (-(k.c * r ^ 2))

/-- The compressibility factor as a function of `r = Vc/v`. -/
noncomputable def zr (k : Coef) (t r : ℝ) : ℝ :=
  1 + (inv k.a1 k.a2 k.a3 k.tc t).x * r + (inv k.a4 k.a5 k.a6 k.tc t).x * r ^ 2
    + (inv k.a7 k.a8 k.a9 k.tc t).x * r ^ 4 + (inv k.a10 k.a11 k.a12 k.tc t).x * r ^ 5
    + (inv 0 0 k.a k.tc t).x * r ^ 2 * (k.b + k.c * r ^ 2) * ee k r

/-- The derivative of `r z(r)`. -/
noncomputable def dr (k : Coef) (t r : ℝ) : ℝ :=
  1 + 2 * (inv k.a1 k.a2 k.a3 k.tc t).x * r + 3 * (inv k.a4 k.a5 k.a6 k.tc t).x * r ^ 2
    + 5 * (inv k.a7 k.a8 k.a9 k.tc t).x * r ^ 4 + 6 * (inv k.a10 k.a11 k.a12 k.tc t).x * r ^ 5
    + (inv 0 0 k.a k.tc t).x * r ^ 2 * (3 * (k.b + k.c * r ^ 2) + 2 * (k.c * r ^ 2)
      - 2 * (k.c * r ^ 2) * (k.b + k.c * r ^ 2)) * ee k r

lemma reduced {k : Coef} {t r : ℝ} (hv : k.vc ≠ 0) (hr : r ≠ 0) :
    k.z t (k.vc / r) = zr k t r ∧ k.z t (k.vc / r) - k.zv t (k.vc / r) * (k.vc / r) = dr k t r := by
  have he : k.ex (k.vc / r) = ee k r := by
    unfold Coef.ex ee Coef.gam
    congr 1
    field_simp
  constructor
  · simp only [Coef.z, zr, he, Coef.B, Coef.C, Coef.Dd, Coef.E, Coef.F, T2.scale, Coef.gam]
    field_simp
  · simp only [Coef.z, Coef.zv, dr, he, Coef.B, Coef.C, Coef.Dd, Coef.E, Coef.F, T2.scale, Coef.gam]
    field_simp
    ring

/-- The ends of an interval of `r` at four times the critical temperature. -/
noncomputable def lo : Species → ℝ
  | .h2o => 2
  | .co2 => 7 / 2

/-- See `lo`. -/
noncomputable def hi : Species → ℝ
  | .h2o => 5 / 2
  | .co2 => 11 / 2

lemma ee_mem (s : Species) (low : Bool) (r : ℝ) : 0 < ee (coef s low) r ∧ ee (coef s low) r ≤ 1 := by
  refine ⟨Real.exp_pos _, Real.exp_le_one_iff.2 ?_⟩
  have : 0 < (coef s low).c := by cases s <;> cases low <;> simp only [coef] <;> norm_num
  have := mul_nonneg this.le (sq_nonneg r)
  linarith

/-- The coefficients at four times the critical temperature. -/
lemma inv4 (x y w : ℝ) {tc : ℝ} (h : 0 < tc) : (inv x y w tc (4 * tc)).x = x + y / 16 + w / 64 := by
  simp only [inv]
  rw [mul_div_assoc, div_self h.ne']
  norm_num

lemma dr_pos (s : Species) (low : Bool) {r : ℝ} (h1 : lo s ≤ r) (h2 : r ≤ hi s) :
    0 < dr (coef s low) (4 * (coef s low).tc) r := by
  have htc : 0 < (coef s low).tc := by cases s <;> cases low <;> simp only [coef] <;> norm_num
  obtain ⟨e0, e1⟩ := ee_mem s low r
  unfold dr
  rw [inv4 _ _ _ htc, inv4 _ _ _ htc, inv4 _ _ _ htc, inv4 _ _ _ htc, inv4 _ _ _ htc]
  generalize ee (coef s low) r = e at *
  have hr : 0 < r := by cases s <;> simp only [lo] at h1 <;> linarith
  obtain ⟨q, hq⟩ : ∃ q, q = r ^ 2 := ⟨_, rfl⟩
  have q0 : 0 < q := by rw [hq]; positivity
  have hq4 : r ^ 4 = q ^ 2 := by rw [hq]; ring
  have hq5 : r ^ 5 = q ^ 2 * r := by rw [hq]; ring
  rw [hq4, hq5, ← hq]
  have hG : ∀ {f β γ X : ℝ}, |f| * X * (3 * (|β| + γ * X) + 2 * (γ * X) + 2 * (γ * X) * (|β| + γ * X)) ≤ 1 / 2 →
      0 ≤ γ → q ≤ X → -(1 / 2) ≤ f * q * (3 * (β + γ * q) + 2 * (γ * q) - 2 * (γ * q) * (β + γ * q)) * e := by
    intro f β γ X h hγ hX
    have aq : |q| ≤ X := by rw [abs_of_pos q0]; exact hX
    have aγ : |γ| ≤ γ := (abs_of_nonneg hγ).le
    have ae : |e| ≤ 1 := by rw [abs_of_pos e0]; exact e1
    have b1 : |γ * q| ≤ γ * X := mulb aγ aq
    have b2 : |β + γ * q| ≤ |β| + γ * X := addb le_rfl b1
    have b3 : |3 * (β + γ * q) + 2 * (γ * q) + -(2 * (γ * q) * (β + γ * q))|
        ≤ 3 * (|β| + γ * X) + 2 * (γ * X) + 2 * (γ * X) * (|β| + γ * X) :=
      addb (addb (mulb (by norm_num) b2) (mulb (by norm_num) b1))
        (by rw [abs_neg]; exact mulb (mulb (by norm_num) b1) b2)
    have b4 := mulb (mulb (mulb (le_refl |f|) aq) b3) ae
    have := (abs_le.1 b4).1
    rw [← sub_eq_add_neg] at this
    linarith
  have hD : ∀ {d e' R : ℝ}, 0 ≤ d → 0 ≤ 5 * d + 6 * e' * R → r ≤ R → 0 ≤ 5 * d * q ^ 2 + 6 * e' * (q ^ 2 * r) := by
    intro d e' R hd hR h
    have : 0 ≤ 5 * d + 6 * e' * r := by
      rcases le_total 0 e' with h' | h'
      · positivity
      · nlinarith
    have := mul_nonneg (sq_nonneg q) this
    linarith
  have hB : ∀ {b c : ℝ}, 0 ≤ b → 0 ≤ c → 1 / 2 < 1 + 2 * b * r + 3 * c * q := by
    intro b c hb hc
    have : 0 ≤ 2 * b * r + 3 * c * q := by positivity
    linarith
  have sum : ∀ {A1 A2 A3 A4 A5 : ℝ}, 1 / 2 < 1 + A1 + A2 → 0 ≤ A3 + A4 → -(1 / 2) ≤ A5 →
      0 < 1 + A1 + A2 + A3 + A4 + A5 := by intros; linarith
  cases s <;> cases low <;> simp only [lo, hi, coef] at *
  · exact sum (hB (by norm_num) (by norm_num)) (hD (R := 5 / 2) (by norm_num) (by norm_num) h2)
      (hG (X := 25 / 4) (by norm_num [abs_of_pos, abs_of_neg]) (by norm_num) (by rw [hq]; nlinarith))
  · exact sum (hB (by norm_num) (by norm_num)) (hD (R := 5 / 2) (by norm_num) (by norm_num) h2)
      (hG (X := 25 / 4) (by norm_num [abs_of_pos, abs_of_neg]) (by norm_num) (by rw [hq]; nlinarith))
  · refine sum ?_ (hD (R := 11 / 2) (by norm_num) (by norm_num) h2) ?_
    · rw [hq]
      norm_num
      nlinarith [sq_nonneg (r - 8 / 5)]
    · have hX : q ≤ 30.25 := by rw [hq]; nlinarith
      have n1 : (-8.47988634 : ℝ) + 2.8e-2 * q ≤ -7.6 := by norm_num at hX ⊢; linarith
      have n2 : (-8.47988634 : ℝ) ≤ -8.47988634 + 2.8e-2 * q := by
        have : (0 : ℝ) ≤ 2.8e-2 * q := mul_nonneg (by norm_num) q0.le
        linarith
      have n3 : (0 : ℝ) ≤ 2.8e-2 * q := mul_nonneg (by norm_num) q0.le
      have n4 : (2.8e-2 : ℝ) * q ≤ 0.85 := by norm_num at hX ⊢; linarith
      generalize (2.8e-2 : ℝ) * q = g at *
      generalize (-8.47988634 : ℝ) + g = y at *
      have n5 : 3 * y + 2 * g - 2 * g * y ≤ 0 := by norm_num at *; nlinarith
      have n6 : ((0 : ℝ) + 0 / 16 + -4.13039220e-1 / 64) * q ≤ 0 :=
        mul_nonpos_of_nonpos_of_nonneg (by norm_num) q0.le
      have := mul_nonneg (mul_nonneg_of_nonpos_of_nonpos n6 n5) e0.le
      linarith
  · exact sum (hB (by norm_num) (by norm_num)) (hD (R := 11 / 2) (by norm_num) (by norm_num) h2)
      (hG (X := 121 / 4) (by norm_num [abs_of_pos, abs_of_neg]) (by norm_num) (by rw [hq]; nlinarith))

lemma ends (s : Species) (low : Bool) :
    (coef s low).pc * 4 * (lo s * zr (coef s low) (4 * (coef s low).tc) (lo s)) < 2000
    ∧ 2200 < (coef s low).pc * 4 * (hi s * zr (coef s low) (4 * (coef s low).tc) (hi s)) := by
  have htc : 0 < (coef s low).tc := by cases s <;> cases low <;> simp only [coef] <;> norm_num
  obtain ⟨a0, a1⟩ := ee_mem s low (lo s)
  obtain ⟨b0, b1⟩ := ee_mem s low (hi s)
  simp only [zr, inv4 _ _ _ htc]
  generalize ee (coef s low) (lo s) = x at *
  generalize ee (coef s low) (hi s) = y at *
  cases s <;> cases low <;> simp only [lo, hi, coef] <;> norm_num <;> constructor <;> linarith

/-- A transversal solution of each equation of state at four times the critical temperature. -/
lemma above_key (s : Species) : ∀ low q, 2000 ≤ q → q ≤ 2200 → ∃ v, 0 < v
    ∧ 0 < (coef s low).z (4 * (coef s low).tc) v
    ∧ (coef s low).zv (4 * (coef s low).tc) v / (coef s low).z (4 * (coef s low).tc) v ≠ 1 / v
    ∧ (coef s low).press (4 * (coef s low).tc) v = q := by
  intro low q h1 h2
  have hd := fun r => dr_pos s low (r := r)
  have hends := ends s low
  have l0 : 0 < lo s := by cases s <;> norm_num [lo]
  have lh : lo s ≤ hi s := by cases s <;> norm_num [lo, hi]
  have htc : 0 < (coef s low).tc := by cases s <;> cases low <;> simp only [coef] <;> norm_num
  have hpc : 0 < (coef s low).pc := by cases s <;> cases low <;> simp only [coef] <;> norm_num
  generalize coef s low = k at *
  have hR : (0 : ℝ) < Rv := by norm_num [Rv]
  have hvc : 0 < k.vc := by unfold Coef.vc; positivity
  have hc : Continuous fun r => k.pc * 4 * (r * zr k (4 * k.tc) r) := by
    unfold zr ee
    fun_prop
  obtain ⟨r, ⟨r1, r2⟩, hr⟩ := intermediate_value_Icc lh hc.continuousOn
    (show q ∈ _ from ⟨hends.1.le.trans h1, h2.trans hends.2.le⟩)
  have r0 : 0 < r := l0.trans_le r1
  obtain ⟨ez, ed⟩ := reduced (k := k) (t := 4 * k.tc) hvc.ne' r0.ne'
  have hz : 0 < k.z (4 * k.tc) (k.vc / r) := by
    rw [ez]
    have h3 : 0 < k.pc * 4 * (r * zr k (4 * k.tc) r) := by
      simp only at hr
      rw [hr]; linarith
    exact pos_of_mul_pos_right (pos_of_mul_pos_right h3 (by positivity)) r0.le
  have hv : 0 < k.vc / r := by positivity
  refine ⟨k.vc / r, hv, hz, ?_, ?_⟩
  · intro h
    rw [div_eq_div_iff hz.ne' hv.ne', one_mul] at h
    have := hd r r1 r2
    rw [← ed] at this
    linarith
  · rw [Coef.press, ez, ← hr, Coef.vc]
    field_simp

/-- **C80.**  Above 2000 bar too the hypotheses of the theorems on the reported properties are met: at four
times the critical temperature (2589 K for H2O, 1216.5 K for CO2) and every pressure from 2000 to 2200 bar. -/
theorem C80_above (s : Species) {p : ℝ} (hp : 2000 < p) (hp' : p ≤ 2200) :
    ∃ vol, Found s vol false (4 * (coef s false).tc) p := by
  have key := above_key s
  have htc : (coef s true).tc = (coef s false).tc := by cases s <;> rfl
  have htp : 0 < (coef s false).tc := by cases s <;> simp only [coef] <;> norm_num
  obtain ⟨v, c0, c1, c2, c3⟩ := key false p hp.le hp'
  obtain ⟨v1, a0, a1, a2, a3⟩ := key true 2000 le_rfl (by norm_num)
  obtain ⟨v2, b0, b1, b2, b3⟩ := key false 2000 le_rfl (by norm_num)
  rw [htc] at a1 a2 a3
  obtain ⟨vol, h, -⟩ := found_above s (by positivity) c0 a0 b0 c1 c2 c3 hp a1 a2 a3 b1 b2 b3
  exact ⟨vol, h⟩

/-- The fluid's properties at 1216.5 K and 2100 bar, CO2: the theorems on the reported properties apply. -/
example : ∃ vol : Bool → ℝ × ℝ → ℝ,
    Found .co2 vol false (4 * 304.1282) 2100
    ∧ deriv (fun p' => (pureProps .co2 vol 1 (4 * 304.1282) p').g) 2100
        < (pureProps .co2 vol 1 (4 * 304.1282) 2100).v := by
  obtain ⟨vol, h⟩ := C80_above .co2 (p := 2100) (by norm_num) (by norm_num)
  exact ⟨vol, h, (C80_volume_error (s := .co2) (vol := vol) (t := 4 * 304.1282) (p := 2100) 1 (by norm_num)
    (by norm_num) (by norm_num)
    (by rw [show decide ((2100 : ℝ) ≤ 2000) = false by norm_num]; exact h)).2⟩

end Verif.Thermo.Fluid
