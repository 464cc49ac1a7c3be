import Verif.Thermo.Fluid.MixGibbs

/-!
# C81: the mixing properties of the H2O-CO2 fluid
-/

open Filter Topology

namespace Verif.Thermo.Fluid

open Verif.Thermo.Water
open Verif.Thermo.StdState (Std)

/-- **C81.**  At every temperature and composition, in both pressure ranges: there is one residual energy
`A` of the amounts of the two species and the volume such that the pressure is its volume derivative (`z - 1`
times the number of moles over the volume, with the sign of a pressure), it vanishes in the limit of
the ideal gas, it is proportional to the amount of fluid, and each species' fugacity coefficient times the
compressibility factor is the exponential of its derivative with respect to the amount of that species. -/
theorem C81_one_energy (low : Bool) (t : ℝ) :
    ∃ A : ℝ → ℝ → ℝ → ℝ,
      (∀ x y V k : ℝ, k ≠ 0 → A (k * x) (k * y) (k * V) = k * A x y V)
      ∧ ∀ x y V : ℝ, 0 ≤ x → 0 ≤ y → x + y = 1 → 0 < V →
        HasDerivAt (A x y) (-(((mixQ low t).at x y).z V - 1) / V) V
        ∧ Tendsto (A x y) atTop (𝓝 0)
        ∧ (((mixQ low t).at x y).z V ≠ 0 →
          HasDerivAt (fun n => A n y V)
            (((mixQ low t).at x y).ln .h2o V + Real.log (((mixQ low t).at x y).z V)) x
          ∧ HasDerivAt (fun n => A x n V)
            (((mixQ low t).at x y).ln .co2 V + Real.log (((mixQ low t).at x y).z V)) y) := by
  refine ⟨resid (mixQ low t), fun x y V k hk => resid_scale _ _ _ _ hk, fun x y V hx hy h1 hV => ?_⟩
  have hg : ((mixQ low t).at x y).g ≠ 0 := by
    have := (gam_pos low t hy (by linarith : y ≤ 1)).ne'
    rwa [show 1 - y = x by linarith] at this
  refine ⟨?_, ?_, fun _ => ⟨?_, ?_⟩⟩
  · have h := resid_path (q := mixQ low t) (hasDerivAt_const V x) (hasDerivAt_const V y) (hasDerivAt_id V) h1
      hV.ne' hg
    exact h.congr_deriv (by simp only [id]; ring)
  · have e : resid (mixQ low t) x y = fun V => ((mixQ low t).at x y).a V := by
      funext V
      simp [resid, Q.mol, h1]
    rw [e]
    generalize (mixQ low t).at x y = l
    have hp : ∀ n : ℕ, n ≠ 0 → ∀ c : ℝ, Tendsto (fun v : ℝ => c / v ^ n) atTop (𝓝 0) := fun n hn c =>
      tendsto_const_nhds.div_atTop (tendsto_pow_atTop hn)
    have hx : Tendsto (fun v => xp l.g v) atTop (𝓝 1) := by
      have := (Real.continuous_exp.tendsto 0).comp (hp 2 two_ne_zero (-l.g))
      simpa [xp, Function.comp_def] using this
    have h1 : Tendsto (fun v : ℝ => l.b / v) atTop (𝓝 0) := by simpa using hp 1 one_ne_zero l.b
    have h := ((((h1.add (hp 2 two_ne_zero (l.c / 2))).add (hp 4 (by norm_num) (l.d / 4))).add
      (hp 5 (by norm_num) (l.e / 5))).add ((((hx.const_sub 1).const_mul l.be).add_const 1 |>.sub
        (((hp 2 two_ne_zero l.g).const_add 1).mul hx)).const_mul (l.f / 2 / l.g)))
    simpa [Loc.a] using h
  · have h := resid_path (q := mixQ low t) (hasDerivAt_id x) (hasDerivAt_const x y) (hasDerivAt_const x V) h1
      hV.ne' hg
    exact h.congr_deriv (by simp only [id]; ring)
  · have h := resid_path (q := mixQ low t) (hasDerivAt_const y x) (hasDerivAt_id y) (hasDerivAt_const y V) h1
      hV.ne' hg
    exact h.congr_deriv (by simp only [id]; ring)

/-- **C81.**  The four derivatives of the fugacity coefficients with respect to amounts that the code writes
out are those derivatives, at one mole and constant volume. -/
theorem C81_amounts (low : Bool) (t : ℝ) (i : Species) {x y V : ℝ} (hx : 0 ≤ x) (hy : 0 ≤ y) (h1 : x + y = 1)
    (hV : 0 < V) (hz : ((mixQ low t).at x y).z V ≠ 0) :
    HasDerivAt (fun n => ((mixQ low t).at (n / (n + y)) (y / (n + y))).ln i (V / (n + y)))
      (((mixQ low t).at x y).lnn i .h2o V) x
    ∧ HasDerivAt (fun n => ((mixQ low t).at (x / (x + n)) (n / (x + n))).ln i (V / (x + n)))
      (((mixQ low t).at x y).lnn i .co2 V) y := by
  have hg : ((mixQ low t).at x y).g ≠ 0 := by
    have := (gam_pos low t hy (by linarith : y ≤ 1)).ne'
    rwa [show 1 - y = x by linarith] at this
  constructor
  · exact (mix_ln_path (q := mixQ low t) i (hasDerivAt_id x) (hasDerivAt_const x y) (hasDerivAt_const x V) h1
      hV.ne' hz hg).congr_deriv (by simp only [id]; ring)
  · exact (mix_ln_path (q := mixQ low t) i (hasDerivAt_const y x) (hasDerivAt_id y) (hasDerivAt_const y V) h1
      hV.ne' hz hg).congr_deriv (by simp only [id]; ring)

/-! ## Both pressure ranges -/

/-- The volumes of the mixture the properties at `(r, p)` rest on solve the equation of state. -/
def MixFound (V : Vols) (t r p : ℝ) : Prop :=
  MixSolves (isLow p) t (V.mix (isLow p)) r p
    ∧ (isLow p = false → MixSolves true t (V.mix true) r 2000 ∧ MixSolves false t (V.mix false) r 2000)

/-- The volumes of the two pure species do, at `(t, p)`. -/
def PureFound (V : Vols) (t p : ℝ) : Prop := ∀ s, Found s (V.pure s) (isLow p) t p

lemma mix_duan_ok {V : Vols} {t r p : ℝ} {low : Bool} (ht : 0 < t) (hp : 0 < p) (h0 : 0 ≤ r) (h1 : r ≤ 1)
    (h : MixSolves low t (V.mix low) r p)
    (h' : low = false → MixSolves true t (V.mix true) r 2000 ∧ MixSolves false t (V.mix false) r 2000) :
    MixOk (fun w => mixDuan Rv V.mix low t w.2 w.1) t r p := by
  have o := mix_driver_ok ht hp h0 h1 h
  cases low
  · obtain ⟨a1, a2⟩ := h' rfl
    have l := mix_driver_ok ht (by norm_num) h0 h1 a1
    have k := mix_driver_ok ht (by norm_num) h0 h1 a2
    have F : D (fun w : ℝ × ℝ => w.1) 1 0 (r, p) := D.fst
    refine ⟨fun w i => ?_, o.v, fun i => ?_, o.eos, o.gas, ?_⟩
    · simp only [mixDuan, mixDriver, Bool.false_eq_true, if_false]
      positivity
    · refine (((o.ln i).add (D.comp (f := fun w : ℝ × ℝ => w.1) (l.ln i).left F)).sub
        (D.comp (f := fun w : ℝ × ℝ => w.1) (k.ln i).left F)).to ?_ ?_ |>.congr
        (Eventually.of_forall fun w => ?_)
      · simp [mixDuan]
      · simp [mixDuan]
      · simp only [mixDuan, Bool.false_eq_true, if_false]
        rw [Real.log_div (mul_ne_zero (o.phi w i).ne' (l.phi (w.1, 2000) i).ne')
          (k.phi (w.1, 2000) i).ne', Real.log_mul (o.phi w i).ne' (l.phi (w.1, 2000) i).ne']
    · have e1 := o.duhem
      have e2 := l.duhem
      have e3 := k.duhem
      simp only [mixDuan, Bool.false_eq_true, if_false] at e1 e2 e3 ⊢
      linear_combination e1 + e2 - e3
  · exact o

/-- The gas constant enters only the composition derivatives. -/
lemma duan_R (R R' : ℝ) (vol : Bool → ℝ × ℝ → ℝ) (low : Bool) (t p r : ℝ) :
    { mixDuan R vol low t p r with lr := (mixDuan R' vol low t p r).lr } = mixDuan R' vol low t p r := by
  cases low <;> rfl

lemma phi_R (R R' : ℝ) (vol : Bool → ℝ × ℝ → ℝ) (low : Bool) (t p r : ℝ) :
    (mixDuan R vol low t p r).phi = (mixDuan R' vol low t p r).phi := by
  cases low <;> rfl

lemma phi_pos (R : ℝ) (vol : Bool → ℝ × ℝ → ℝ) (low : Bool) (t p r : ℝ) (i : Species) :
    0 < (mixDuan R vol low t p r).phi i := by
  cases low <;> simp only [mixDuan, mixDriver, Bool.false_eq_true, if_false, if_true] <;> positivity

lemma pure_phi_pos (s : Species) (vol : Bool → ℝ × ℝ → ℝ) (low : Bool) (t p : ℝ) :
    0 < (duan s vol low t p).phi := by
  cases low <;> simp only [duan, driver, Bool.false_eq_true, if_false, if_true] <;> positivity

lemma xs_pos {r : ℝ} (h0 : 0 < r) (h1 : r < 1) (i : Species) : 0 < xs r i := by
  cases i <;> simp only [xs] <;> linarith

/-- The logarithm of an activity. -/
noncomputable def lact (V : Vols) (t p r : ℝ) (i : Species) : ℝ :=
  Real.log (xs r i) + Real.log ((mixDuan Rv V.mix (isLow p) t p r).phi i)
    - Real.log (duan i (V.pure i) (isLow p) t p).phi

lemma log_act {V : Vols} {t p r : ℝ} (h0 : 0 < r) (h1 : r < 1) (i : Species) :
    Real.log (xs r i * (mixDuan Rg V.mix (isLow p) t p r).phi i / (duan i (V.pure i) (isLow p) t p).phi)
      = lact V t p r i := by
  rw [Real.log_div (mul_ne_zero (xs_pos h0 h1 i).ne' (phi_pos _ _ _ _ _ _ _).ne') (pure_phi_pos _ _ _ _ _).ne',
    Real.log_mul (xs_pos h0 h1 i).ne' (phi_pos _ _ _ _ _ _ _).ne', lact, phi_R Rg Rv]

lemma gmix_eq {V : Vols} {t p r : ℝ} (h0 : 0 < r) (h1 : r < 1) :
    gmix V t p r = Rg * t * ((1 - r) * lact V t p r .h2o + r * lact V t p r .co2) := by
  simp only [gmix, log_act h0 h1]
  simp only [xs]

lemma gmixX_eq {V : Vols} {t p r : ℝ} (h0 : 0 < r) (h1 : r < 1) :
    gmixX V t p r = Rg * t * (lact V t p r .co2 - lact V t p r .h2o) := by
  simp only [gmixX, log_act h0 h1]

/-- The sign with which the mole fraction of a species follows the composition variable. -/
def dxs : Species → ℝ
  | .h2o => -1
  | .co2 => 1

lemma lact_r {V : Vols} {t r p : ℝ} (ht : 0 < t) (hp : 0 < p) (h0 : 0 < r) (h1 : r < 1) (h : MixFound V t r p)
    (i : Species) :
    HasDerivAt (fun r => lact V t p r i) (dxs i / xs r i + (mixDuan Rv V.mix (isLow p) t p r).lr i) r := by
  have o := mix_duan_ok ht hp h0.le h1.le h.1 h.2
  have hx : HasDerivAt (fun r => xs r i) (dxs i) r := by
    cases i
    · exact (hasDerivAt_id r).const_sub 1
    · exact hasDerivAt_id r
  exact ((hx.log (xs_pos h0 h1 i).ne').add (o.ln i).left).sub_const _

/-- **C81.**  The reported composition derivative of the Gibbs energy of mixing is the derivative of the
reported Gibbs energy of mixing, below and above the change of coefficients at 2000 bar. -/
theorem C81_slope {V : Vols} {t r p : ℝ} (ht : 0 < t) (hp : 0 < p) (h0 : 0 < r) (h1 : r < 1)
    (h : MixFound V t r p) : HasDerivAt (gmix V t p) (gmixX V t p r) r := by
  have o := mix_duan_ok ht hp h0.le h1.le h.1 h.2
  have e1 : ∀ᶠ r in 𝓝 r, 0 < r := eventually_gt_nhds h0
  have e2 : ∀ᶠ r in 𝓝 r, r < 1 := eventually_lt_nhds h1
  have d := ((((hasDerivAt_id r).const_sub 1).mul (lact_r ht hp h0 h1 h .h2o)).add
    ((hasDerivAt_id r).mul (lact_r ht hp h0 h1 h .co2))).const_mul (Rg * t)
  refine (d.congr_deriv ?_).congr_of_eventuallyEq ?_
  · have hd := o.duhem
    have := sub_pos.2 h1
    rw [gmixX_eq h0 h1]
    simp only at hd
    simp only [xs, dxs, id]
    field_simp
    linear_combination Rg * hd
  · filter_upwards [e1, e2] with r a1 a2
    rw [gmix_eq a1 a2]
    rfl

/-- **C81.**  The Gibbs-Duhem relation: the composition derivatives of the logarithms of the two fugacity
coefficients exist and their mean over the fluid is zero. -/
theorem C81_gibbs_duhem {V : Vols} {t r p : ℝ} (ht : 0 < t) (hp : 0 < p) (h0 : 0 < r) (h1 : r < 1)
    (h : MixFound V t r p) : ∃ l : Species → ℝ,
      (∀ i, HasDerivAt (fun r => Real.log ((mixDuan Rg V.mix (isLow p) t p r).phi i)) (l i) r)
      ∧ (1 - r) * l .h2o + r * l .co2 = 0 := by
  have o := mix_duan_ok ht hp h0.le h1.le h.1 h.2
  refine ⟨(mixDuan Rv V.mix (isLow p) t p r).lr, fun i => ?_, o.duhem⟩
  simp only [phi_R Rg Rv]
  exact (o.ln i).left

/-- **C81.**  With the gas constant of the equation of state in the last two lines of the driver, where the
program has the other one, the reported second composition derivative is the derivative of the first. -/
theorem C81_curvature {V : Vols} {t r p : ℝ} (ht : 0 < t) (hp : 0 < p) (h0 : 0 < r) (h1 : r < 1)
    (h : MixFound V t r p) : HasDerivAt (gmixX V t p) (gmixXX Rv V t p r) r := by
  have e1 : ∀ᶠ r in 𝓝 r, 0 < r := eventually_gt_nhds h0
  have e2 : ∀ᶠ r in 𝓝 r, r < 1 := eventually_lt_nhds h1
  have d := ((lact_r ht hp h0 h1 h .co2).sub (lact_r ht hp h0 h1 h .h2o)).const_mul (Rg * t)
  refine (d.congr_deriv ?_).congr_of_eventuallyEq ?_
  · simp only [gmixXX, dxs]; ring
  · filter_upwards [e1, e2] with r a1 a2
    rw [gmixX_eq a1 a2]
    rfl

/-- **C81.**  What the program's gas constant does to it, up to 2000 bar: wherever the pressure falls with the
volume the reported second derivative is at least the derivative, and it is larger by exactly
this. -/
theorem C81_curvature_error {V : Vols} {t r p : ℝ} (ht : 0 < t) (hp : 0 < p) (hp' : p ≤ 2000)
    (h0 : 0 < r) (h1 : r < 1) (h : MixFound V t r p) :
    let m := mixDuan Rg V.mix (isLow p) t p r
    gmixXX Rg V t p r = gmixXX Rv V t p r + Rg * t ^ 2 * (Rg - Rv) * (m.lp .co2 - m.lp .h2o) ^ 2 / m.dvdp
    ∧ (m.dvdp < 0 → gmixXX Rv V t p r ≤ gmixXX Rg V t p r) := by
  have hl : isLow p = true := decide_eq_true hp'
  intro m
  have hm := h.1
  rw [hl] at hm
  have hvp : m.dvdp ≠ 0 := by
    simp only [m, hl, mixDuan, if_true, mixDriver]
    refine one_div_ne_zero (mul_ne_zero hp.ne' fun hh => hm.stable (by linarith))
  have e : gmixXX Rg V t p r
      = gmixXX Rv V t p r + Rg * t ^ 2 * (Rg - Rv) * (m.lp .co2 - m.lp .h2o) ^ 2 / m.dvdp := by
    have e2 : ∀ i, ((mixQ true t).at (1 - r) r).lnv i (V.mix true (r, p)) = m.lp i / m.dvdp := fun i => by
      rw [eq_div_iff hvp]
      simp only [m, hl, mixDuan, if_true, mixDriver]
    simp only [gmixXX, hl, mixDuan, if_true]
    simp only [m, hl, mixDuan, if_true] at e2 hvp ⊢
    have e3 : ∀ (R : ℝ) (i : Species), (mixDriver R (mixQ true t) t p r (V.mix true (r, p))).lr i
        = ((mixQ true t).at (1 - r) r).lnv i (V.mix true (r, p)) * R * t
          * ((mixDriver Rg (mixQ true t) t p r (V.mix true (r, p))).lp .co2
            - (mixDriver Rg (mixQ true t) t p r (V.mix true (r, p))).lp .h2o)
          - ((mixQ true t).at (1 - r) r).lnn i .h2o (V.mix true (r, p))
          + ((mixQ true t).at (1 - r) r).lnn i .co2 (V.mix true (r, p)) := fun _ _ => rfl
    rw [e3, e3, e3, e3, e2, e2]
    field_simp
    ring
  refine ⟨e, fun hn => ?_⟩
  rw [e]
  have : 0 ≤ Rg * t ^ 2 * (Rg - Rv) * (m.lp .co2 - m.lp .h2o) ^ 2 / m.dvdp := by
    refine div_nonneg_of_nonpos ?_ hn.le
    have hR : Rg - Rv ≤ 0 := by norm_num [Rg, Rv]
    have : 0 ≤ Rg * t ^ 2 := by have : (0 : ℝ) < Rg := by norm_num [Rg]
                                positivity
    exact mul_nonpos_of_nonpos_of_nonneg (mul_nonpos_of_nonneg_of_nonpos this hR) (sq_nonneg _)
  linarith

/-! ## The volume of mixing -/

lemma low_near {p : ℝ} (hp : p ≠ 2000) : ∀ᶠ q in 𝓝 p, isLow q = isLow p := by
  rcases lt_or_gt_of_ne hp with h | h
  · filter_upwards [eventually_lt_nhds h] with q hq
    simp only [isLow, hq.le, h.le]
  · filter_upwards [eventually_gt_nhds h] with q hq
    simp only [isLow, not_le.2 hq, not_le.2 h]

/-- **C81.**  The pressure derivative of the Gibbs energy of mixing is the reported volume of mixing times the
ratio of the program's two gas constants. -/
theorem C81_volume {V : Vols} {t r p : ℝ} (ht : 0 < t) (hp : 0 < p) (hp' : p ≠ 2000) (h0 : 0 < r) (h1 : r < 1)
    (h : MixFound V t r p) (hpure : PureFound V t p) :
    HasDerivAt (fun p => gmix V t p r) (Rg / Rv * vmix V t p r) p := by
  have o := mix_duan_ok ht hp h0.le h1.le h.1 h.2
  have c := fun s => duan_ok ht hp (hpure s)
  have d := fun i : Species => ((hasDerivAt_const p (Real.log (xs r i))).add (o.ln i).right).sub (c i).ln.right
  have dd := (((d .h2o).const_mul (1 - r)).add ((d .co2).const_mul r)).const_mul (Rg * t)
  refine (dd.congr_deriv ?_).congr_of_eventuallyEq ?_
  · have g0 := o.gas
    have g1 := (c .h2o).gas.self_of_nhds
    have g2 := (c .co2).gas.self_of_nhds
    have z0 := o.eos
    have z1 := (c .h2o).eos.self_of_nhds
    have z2 := (c .co2).eos.self_of_nhds
    simp only at g0 g1 g2 z0 z1 z2 ⊢
    have hR : (Rv : ℝ) ≠ 0 := by norm_num [Rv]
    have v0 := eq_div_of_mul_eq hp.ne' ((mul_comm _ _).trans z0.symm)
    have v1 := eq_div_of_mul_eq hp.ne' ((mul_comm _ _).trans z1.symm)
    have v2 := eq_div_of_mul_eq hp.ne' ((mul_comm _ _).trans z2.symm)
    have ev : (mixDuan Rg V.mix (isLow p) t p r).v = (mixDuan Rv V.mix (isLow p) t p r).v := by
      cases isLow p <;> rfl
    rw [vmix, ev, v0, v1, v2, g1, g2]
    simp only [xs]
    have : ∀ a b c d : ℝ, (1 - r) * (0 + a - c) + r * (0 + b - d)
        = ((1 - r) * a + r * b) - (1 - r) * c - r * d := fun a b c d => by ring
    rw [this, g0]
    field_simp
    ring
  · filter_upwards [low_near hp'] with q hq
    rw [gmix_eq h0 h1]
    simp only [lact, hq]
    rfl

/-- **C81.**  The reported composition derivative of the volume of mixing, times the ratio of the two gas
constants the other way, and the reported pressure derivative are the derivatives of the reported volume of
mixing. -/
theorem C81_volume_slopes {V : Vols} {t r p : ℝ} (ht : 0 < t) (hp : 0 < p) (h0 : 0 < r) (h1 : r < 1)
    (h : MixFound V t r p) (hpure : PureFound V t p) :
    HasDerivAt (vmix V t p) (Rv / Rg * vmixX V t p r) r
    ∧ (p ≠ 2000 → HasDerivAt (fun p => vmix V t p r) (vmixP V t p r) p) := by
  have o := mix_duan_ok ht hp h0.le h1.le h.1 h.2
  have c := fun s => duan_ok ht hp (hpure s)
  have ev : ∀ p r, (mixDuan Rg V.mix (isLow p) t p r).v = (mixDuan Rv V.mix (isLow p) t p r).v := fun p r => by
    cases isLow p <;> rfl
  have elp : (mixDuan Rg V.mix (isLow p) t p r).lp = (mixDuan Rv V.mix (isLow p) t p r).lp := by
    cases isLow p <;> rfl
  have evp : (mixDuan Rg V.mix (isLow p) t p r).dvdp = (mixDuan Rv V.mix (isLow p) t p r).dvdp := by
    cases isLow p <;> rfl
  constructor
  · have d := (o.v.left.sub (((hasDerivAt_id r).const_sub 1).mul_const
      (duan .h2o (V.pure .h2o) (isLow p) t p).v)).sub ((hasDerivAt_id r).mul_const
      (duan .co2 (V.pure .co2) (isLow p) t p).v)
    refine (d.congr_deriv ?_).congr_of_eventuallyEq (Eventually.of_forall fun r => ?_)
    · have g1 := (c .h2o).gas.self_of_nhds
      have g2 := (c .co2).gas.self_of_nhds
      have z1 := (c .h2o).eos.self_of_nhds
      have z2 := (c .co2).eos.self_of_nhds
      simp only at g1 g2 z1 z2 ⊢
      have v1 := eq_div_of_mul_eq hp.ne' ((mul_comm _ _).trans z1.symm)
      have v2 := eq_div_of_mul_eq hp.ne' ((mul_comm _ _).trans z2.symm)
      have hR : (Rv : ℝ) ≠ 0 := by norm_num [Rv]
      have hR2 : (Rg : ℝ) ≠ 0 := by norm_num [Rg]
      simp only [vmixX, elp]
      rw [v1, v2, g1, g2]
      field_simp
      ring
    · simp only [vmix, ev, xs, Pi.sub_apply, id]
  · intro hp'
    have d := (o.v.right.sub ((c .h2o).v.right.const_mul (xs r .h2o))).sub
      ((c .co2).v.right.const_mul (xs r .co2))
    refine (d.congr_deriv ?_).congr_of_eventuallyEq ?_
    · simp only [vmixP, evp]
    · filter_upwards [low_near hp'] with q hq
      rw [vmix, ev]
      simp only [hq, Pi.sub_apply]

/-! ## Activities -/

/-- **C81.**  The reported chemical potentials are `R T` times the logarithm of the reported activities, their
mean is the reported Gibbs energy of mixing, and each is the tangent intercept of that energy. -/
theorem C81_activity {V : Vols} {t r p : ℝ} (ht : 0 < t) (h0 : 0 < r) (h1 : r < 1) :
    (∀ i, 0 < act V t p r i ∧ mu V t p r i = Rg * t * Real.log (act V t p r i)
      ∧ act V t p r i = Real.exp (mu V t p r i / (Rg * t)))
    ∧ (1 - r) * mu V t p r .h2o + r * mu V t p r .co2 = gmix V t p r
    ∧ mu V t p r .h2o = gmix V t p r - r * gmixX V t p r
    ∧ mu V t p r .co2 = gmix V t p r + (1 - r) * gmixX V t p r := by
  have hR : Rg * t ≠ 0 := mul_ne_zero (by norm_num [Rg]) ht.ne'
  have hpos : ∀ i, 0 < act V t p r i := fun i =>
    div_pos (mul_pos (xs_pos h0 h1 i) (phi_pos _ _ _ _ _ _ _)) (pure_phi_pos _ _ _ _ _)
  refine ⟨fun i => ⟨hpos i, rfl, ?_⟩, ?_, ?_, ?_⟩
  · rw [show mu V t p r i = Rg * t * Real.log (act V t p r i) from rfl, mul_div_cancel_left₀ _ hR,
      Real.exp_log (hpos i)]
  · simp only [mu, gmix, xs]; ring
  · simp only [mu, gmix, gmixX, xs]; ring
  · simp only [mu, gmix, gmixX, xs]; ring

/-- **C81.**  The reported composition derivatives of the activities are their derivatives, again with the gas
constant of the equation of state in the driver. -/
theorem C81_activity_slope {V : Vols} {t r p : ℝ} (ht : 0 < t) (hp : 0 < p) (h0 : 0 < r) (h1 : r < 1)
    (h : MixFound V t r p) (i : Species) :
    HasDerivAt (fun r => act V t p r i) (actX Rv V t p r i) r := by
  have hR : Rg * t ≠ 0 := mul_ne_zero (by norm_num [Rg]) ht.ne'
  have hpos : ∀ r, 0 < r → r < 1 → act V t p r i = Real.exp (lact V t p r i) := fun r a b => by
    rw [← log_act a b, Real.exp_log]
    · rfl
    · exact div_pos (mul_pos (xs_pos a b i) (phi_pos _ _ _ _ _ _ _)) (pure_phi_pos _ _ _ _ _)
  have e1 : ∀ᶠ r in 𝓝 r, 0 < r := eventually_gt_nhds h0
  have e2 : ∀ᶠ r in 𝓝 r, r < 1 := eventually_lt_nhds h1
  have o := mix_duan_ok ht hp h0.le h1.le h.1 h.2
  have d := (lact_r ht hp h0 h1 h i).exp
  refine (d.congr_deriv ?_).congr_of_eventuallyEq ?_
  · have hd := o.duhem
    have h3 := sub_pos.2 h1
    rw [actX, gmix_eq h0 h1, gmixX_eq h0 h1]
    simp only [gmixXX, dfr, xs]
    generalize (mixDuan Rv V.mix (isLow p) t p r).lr = L at *
    cases i
    · have a1 : (Rg * t * ((1 - r) * lact V t p r .h2o + r * lact V t p r .co2)
          + fr r .h2o * (Rg * t * (lact V t p r .co2 - lact V t p r .h2o))) / (Rg * t)
          = lact V t p r .h2o := by
        rw [div_eq_iff hR]; simp only [fr]; ring
      rw [a1]
      congr 1
      rw [eq_div_iff hR]
      simp only [fr, dxs, xs]
      field_simp
      linear_combination (Rg * (1 - r)) * hd
    · have a1 : (Rg * t * ((1 - r) * lact V t p r .h2o + r * lact V t p r .co2)
          + fr r .co2 * (Rg * t * (lact V t p r .co2 - lact V t p r .h2o))) / (Rg * t)
          = lact V t p r .co2 := by
        rw [div_eq_iff hR]; simp only [fr]; ring
      rw [a1]
      congr 1
      rw [eq_div_iff hR]
      simp only [fr, dxs, xs]
      field_simp
      linear_combination (Rg * r) * hd
  · filter_upwards [e1, e2] with r a1 a2
    exact hpos r a1 a2

end Verif.Thermo.Fluid
