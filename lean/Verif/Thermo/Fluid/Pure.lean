import Verif.Thermo.Fluid.Props
import Verif.Thermo.LiquidStd
import Mathlib.Analysis.Calculus.Deriv.Slope

/-!
# Pure H2O and pure CO2: consistency of the reported properties (C80)
-/

open Filter Topology

namespace Verif.Thermo.Fluid

open Verif.Thermo.Water
open Verif.Thermo.StdState (Std Consistent)

/-! ## The ideal gas -/

section

variable {t : ℝ} (s : Species) (ht : 0 < t)
include ht

lemma d_pow (n : ℕ) : HasDerivAt (fun t : ℝ => (t / 1000) ^ n) (n * (t / 1000) ^ (n - 1) / 1000) t := by
  have h : HasDerivAt (fun t : ℝ => t / 1000) (1 / 1000) t := (hasDerivAt_id t).div_const 1000
  exact (h.fun_pow n).congr_deriv (by ring)

lemma d_ipow' (n : ℕ) : HasDerivAt (fun t : ℝ => 1 / (t / 1000) ^ n)
    (-n / (t / 1000) ^ (n + 1) / 1000) t :=
  (d_tau n ht.ne' (by norm_num : (1000 : ℝ) ≠ 0)).congr_deriv (by ring)

lemma d_lg : HasDerivAt (fun t : ℝ => Real.log (t / 1000)) (1 / t) t := by
  have h : HasDerivAt (fun t : ℝ => t / 1000) (1 / 1000) t := (hasDerivAt_id t).div_const 1000
  exact (h.log (by positivity)).congr_deriv (by field_simp)

lemma ideal_cp : HasDerivAt (idealCp s) (idealDcp s t) t := by
  have h := ((HasDerivAt.fun_sum (u := Finset.range 7) fun i _ => (d_pow ht i).const_mul (ic s i)).add
    (HasDerivAt.fun_sum (u := Finset.Ico 7 13) fun i _ => (d_ipow' ht (i - 6)).const_mul (ic s i))).const_mul
    8.31451
  refine (h.congr_deriv ?_).congr_of_eventuallyEq (Eventually.of_forall fun x => ?_)
  · simp only [idealDcp, Finset.sum_Ico_eq_sum_range, Finset.sum_range_succ, Finset.sum_range_zero]
    norm_num
    ring
  · simp only [idealCp, Pi.add_apply]
    congr 2
    exact Finset.sum_congr rfl fun i _ => by ring

lemma ideal_h : HasDerivAt (idealH s) (idealCp s t) t := by
  have h := ((((HasDerivAt.fun_sum (u := Finset.range 7) fun i _ => (d_pow ht (i + 1)).const_mul
    (ic s i / ((i : ℝ) + 1))).add ((d_lg ht).const_mul (ic s 7))).add
    (HasDerivAt.fun_sum (u := Finset.Ico 8 13) fun i _ => (d_ipow' ht (i - 7)).const_mul
      (ic s i / (7 - (i : ℝ))))).const_mul (8.31451 * 1000)).add_const
      (match s with | .h2o => -355665.4136 | .co2 => -385358.2260)
  refine (h.congr_deriv ?_).congr_of_eventuallyEq (Eventually.of_forall fun x => ?_)
  · simp only [idealCp, Finset.sum_Ico_eq_sum_range, Finset.sum_range_succ, Finset.sum_range_zero]
    norm_num
    field_simp
    ring
  · simp only [idealH, Pi.add_apply]
    congr 4
    · exact Finset.sum_congr rfl fun i _ => by ring
    · exact funext fun i => by ring

lemma ideal_s : HasDerivAt (idealS s) (idealCp s t / t) t := by
  have h := (((((d_lg ht).const_mul (ic s 0)).add (HasDerivAt.fun_sum (u := Finset.Ico 1 7) fun i _ =>
    (d_pow ht i).const_mul (ic s i / (i : ℝ)))).add
    (HasDerivAt.fun_sum (u := Finset.Ico 7 13) fun i _ => (d_ipow' ht (i - 6)).const_mul
      (ic s i / (6 - (i : ℝ))))).const_mul 8.31451).add_const
      (match s with | .h2o => 359.6505 | .co2 => 210.0304)
  refine (h.congr_deriv ?_).congr_of_eventuallyEq (Eventually.of_forall fun x => ?_)
  · simp only [idealCp, Finset.sum_Ico_eq_sum_range, Finset.sum_range_succ, Finset.sum_range_zero]
    norm_num
    field_simp
    ring
  · simp only [idealS, Pi.add_apply]
    congr 4
    · exact Finset.sum_congr rfl fun i _ => by ring
    · exact funext fun i => by ring

end

/-! ## Both pressure ranges -/

/-- The volumes the properties at `(t, p)` rest on solve the equation of state: the volume at `(t, p)`
with the coefficients of its pressure range and, above 2000 bar, the two reference volumes at 2000 bar. -/
def Found (s : Species) (vol : Bool → ℝ × ℝ → ℝ) (low : Bool) (t p : ℝ) : Prop :=
  Solves (coef s low) (vol low) t p
    ∧ (low = false → Solves (coef s true) (vol true) t 2000 ∧ Solves (coef s false) (vol false) t 2000)

lemma duan_ok {s : Species} {vol : Bool → ℝ × ℝ → ℝ} {low : Bool} {t p : ℝ} (ht : 0 < t) (hp : 0 < p)
    (h : Found s vol low t p) : OutOk (fun w => duan s vol low w.1 w.2) t p := by
  have o := driver_ok (coef_good s low) ht hp h.1
  cases low
  · obtain ⟨h1, h2⟩ := h.2 rfl
    have l := driver_ok (coef_good s true) ht (by norm_num) h1
    have r := driver_ok (coef_good s false) ht (by norm_num) h2
    have F : D (fun w : ℝ × ℝ => w.1) 1 0 (t, p) := D.fst
    refine ⟨fun w => ?_, o.v, o.vt, o.vp, ?_, ?_, o.lp, ?_, o.eos, o.gas⟩
    · simp only [duan, driver, Bool.false_eq_true, if_false]
      positivity
    · refine ((o.ln.add (D.comp (f := fun w : ℝ × ℝ => w.1) l.ln.left F)).sub
        (D.comp (f := fun w : ℝ × ℝ => w.1) r.ln.left F)).to ?_ ?_ |>.congr
        (Eventually.of_forall fun w => ?_)
      · simp [duan]
      · simp [duan]
      · simp only [duan, Bool.false_eq_true, if_false]
        rw [Real.log_div (mul_ne_zero (o.phi w).ne' (l.phi (w.1, 2000)).ne') (r.phi (w.1, 2000)).ne',
          Real.log_mul (o.phi w).ne' (l.phi (w.1, 2000)).ne']
    · refine ((o.lt.add (D.comp (f := fun w : ℝ × ℝ => w.1) l.lt.left F)).sub
        (D.comp (f := fun w : ℝ × ℝ => w.1) r.lt.left F)).to ?_ ?_
      · simp [duan]
      · simp [duan]
    · have hl : ∀ {f : ℝ × ℝ → ℝ}, DifferentiableAt ℝ f (t, 2000) →
          DifferentiableAt ℝ (fun w : ℝ × ℝ => f (w.1, 2000)) (t, p) := fun {f} hf => by
        have hg : DifferentiableAt ℝ (fun w : ℝ × ℝ => (w.1, (2000 : ℝ))) (t, p) := by fun_prop
        exact DifferentiableAt.comp (t, p) (f := fun w : ℝ × ℝ => (w.1, (2000 : ℝ))) hf hg
      exact (o.ltt.fun_add (hl l.ltt)).fun_sub (hl r.ltt)
  · exact o

/-- The same properties with the five volume quantities multiplied by `κ` and another temperature
derivative of the heat capacity (specification). -/
noncomputable def amend (κ dcp : ℝ) (x : Std) : Std :=
  { x with
    v := κ * x.v
    dvdt := κ * x.dvdt
    dvdp := κ * x.dvdp
    d2vdt2 := κ * x.d2vdt2
    d2vdp2 := κ * x.d2vdp2
    d2vdtdp := κ * x.d2vdtdp
    dcpdt := dcp }

/-- The properties for a given answer of the equation of state (`fluidPhase.c` 2169-2181). -/
noncomputable def ofOut (s : Species) (o o' : Out) (δ t p : ℝ) : Std :=
  let lttt := (o'.ltt - o.ltt) / t / δ
  { g := idealH s t - t * idealS s t + Rg * t * Real.log (o.phi * p)
    s := idealS s t - (Rg * Real.log (o.phi * p) + Rg * t * o.lt)
    h := idealH s t + (Rg * t * Real.log (o.phi * p)
      - t * (Rg * Real.log (o.phi * p) + Rg * t * o.lt))
    cp := idealCp s t + -t * (2 * Rg * o.lt + Rg * t * o.ltt)
    dcpdt := idealDcp s t + (-(2 * Rg * o.lt + Rg * t * o.ltt) - t * (3 * Rg * o.ltt + Rg * t * lttt))
    v := o.v
    dvdt := o.dvdt
    dvdp := o.dvdp
    d2vdt2 := o.d2vdt2
    d2vdp2 := o.d2vdp2
    d2vdtdp := o.d2vdtdp }

lemma pure_near (s : Species) (vol : Bool → ℝ × ℝ → ℝ) (δ : ℝ) {p : ℝ} (hp : p ≠ 2000) :
    ∀ᶠ p' in 𝓝 p, ∀ t, pureProps s vol δ t p' = ofOut s (duan s vol (decide (p ≤ 2000)) t p')
      (duan s vol (decide (p ≤ 2000)) (t * (1 + δ)) p') δ t p' := by
  rcases lt_or_gt_of_ne hp with h | h
  · filter_upwards [Iio_mem_nhds h] with p' hp' t
    have h1 : p' ≤ 2000 := le_of_lt hp'
    simp only [pureProps, ofOut, h1, h.le]
  · filter_upwards [Ioi_mem_nhds h] with p' hp' t
    have h1 : ¬p' ≤ 2000 := not_le.2 hp'
    simp only [pureProps, ofOut, h1, not_le.2 h]

lemma out_consistent {s : Species} {o : ℝ × ℝ → Out} {t p : ℝ} (δ : ℝ) (ht : 0 < t) (hp : 0 < p)
    (h : OutOk o t p) :
    Consistent (fun t' p' => amend (Rg / Rv)
      (deriv (fun t' => (ofOut s (o (t', p)) (o (t' * (1 + δ), p)) δ t' p).cp) t)
      (ofOut s (o (t', p')) (o (t' * (1 + δ), p')) δ t' p')) t p := by
  have hR : (0 : ℝ) < Rv := by norm_num [Rv]
  have F : D (fun w : ℝ × ℝ => w.1) 1 0 (t, p) := D.fst
  have S : D (fun w : ℝ × ℝ => w.2) 0 1 (t, p) := D.snd
  have dh : D (fun w : ℝ × ℝ => idealH s w.1) _ _ (t, p) :=
    D.comp (f := fun w : ℝ × ℝ => w.1) (ideal_h s ht) F
  have ds : D (fun w : ℝ × ℝ => idealS s w.1) _ _ (t, p) :=
    D.comp (f := fun w : ℝ × ℝ => w.1) (ideal_s s ht) F
  have dl : D (fun w : ℝ × ℝ => Real.log ((o w).phi * w.2)) (o (t, p)).lt ((o (t, p)).lp + 1 / p) (t, p) := by
    refine (h.ln.add (D.comp (f := fun w : ℝ × ℝ => w.2) (Real.hasDerivAt_log hp.ne') S)).to ?_ ?_ |>.congr
      ((continuousAt_snd.eventually_ne hp.ne' : ∀ᶠ w : ℝ × ℝ in 𝓝 (t, p), w.2 ≠ 0).mono fun w hw =>
        Real.log_mul (h.phi w).ne' hw)
    · ring
    · rw [one_div]; ring
  have eos := h.eos.self_of_nhds
  have gas := h.gas.self_of_nhds
  simp only at eos gas
  -- the volume equation near the point
  have hvol : ∀ᶠ w in 𝓝 (t, p), Rg / Rv * (o w).v = Rg * w.1 * ((o w).lp + 1 / w.2) := by
    filter_upwards [h.eos, h.gas, (continuousAt_snd.eventually_ne hp.ne' :
      ∀ᶠ w : ℝ × ℝ in 𝓝 (t, p), w.2 ≠ 0)] with w e1 e2 e3
    rw [e2]
    have : (o w).v = (o w).z * Rv * w.1 / w.2 := by rw [e1]; field_simp
    rw [this]
    field_simp
    ring
  have hv0 := hvol.self_of_nhds
  simp only at hv0
  -- the mixed derivative
  have dmix : D (fun w : ℝ × ℝ => Rg * w.1 * ((o w).lp + 1 / w.2)) _ _ (t, p) :=
    ((D.const Rg).mul F).mul (h.lp.add ((D.const 1).div S hp.ne'))
  have emix : Rg / Rv * (o (t, p)).dvdt = Rg * ((o (t, p)).lp + 1 / p) + Rg * t * (o (t, p)).ltp := by
    have a1 := ((((D.const (Rg / Rv)).mul h.v).congr (g := fun w : ℝ × ℝ => Rg * w.1 * ((o w).lp + 1 / w.2))
      (hvol.mono fun w hw => hw.symm)).left).unique dmix.left
    simp only [zero_mul, zero_add, mul_zero, mul_one, add_zero, sub_zero, zero_div] at a1
    linear_combination a1
  have dG : D (fun w => (ofOut s (o w) (o (w.1 * (1 + δ), w.2)) δ w.1 w.2).g) _ _ (t, p) :=
    (dh.sub (F.mul ds)).add (((D.const Rg).mul F).mul dl)
  have dS : D (fun w => (ofOut s (o w) (o (w.1 * (1 + δ), w.2)) δ w.1 w.2).s) _ _ (t, p) :=
    ds.sub (((D.const Rg).mul dl).add (((D.const Rg).mul F).mul h.lt))
  have dH : D (fun w => (ofOut s (o w) (o (w.1 * (1 + δ), w.2)) δ w.1 w.2).h) _ _ (t, p) :=
    dh.add ((((D.const Rg).mul F).mul dl).sub (F.mul (((D.const Rg).mul dl).add
      (((D.const Rg).mul F).mul h.lt))))
  have hcp : DifferentiableAt ℝ (fun t' => (ofOut s (o (t', p)) (o (t' * (1 + δ), p)) δ t' p).cp) t := by
    have a1 : DifferentiableAt ℝ (fun t' => (o (t', p)).lt) t := h.lt.left.differentiableAt
    have a2 : DifferentiableAt ℝ (fun t' => (o (t', p)).ltt) t := by
      have hg : DifferentiableAt ℝ (fun t' : ℝ => (t', p)) t := by fun_prop
      exact DifferentiableAt.comp t (f := fun t' : ℝ => (t', p)) h.ltt hg
    have a3 := (ideal_cp s ht).differentiableAt
    generalize e1 : (fun t' => (o (t', p)).lt) = f1 at a1
    generalize e2 : (fun t' => (o (t', p)).ltt) = f2 at a2
    have g1 : ∀ t', (o (t', p)).lt = f1 t' := fun t' => by rw [← e1]
    have g2 : ∀ t', (o (t', p)).ltt = f2 t' := fun t' => by rw [← e2]
    simp only [ofOut, g1, g2]
    fun_prop
  constructor
  · simp only [amend, ofOut]; ring
  · refine dG.left.congr_deriv ?_
    simp only [amend, ofOut]
    field_simp
    ring
  · refine dG.right.congr_deriv ?_
    simp only [amend, ofOut]
    rw [hv0]
    ring
  · refine dH.left.congr_deriv ?_
    simp only [amend, ofOut]
    ring
  · refine dS.left.congr_deriv ?_
    simp only [amend, ofOut]
    field_simp
    ring
  · refine dS.right.congr_deriv ?_
    simp only [amend, ofOut]
    rw [emix]
    ring
  · exact hcp.hasDerivAt
  · exact h.v.left.const_mul _
  · exact h.v.right.const_mul _
  · exact h.vt.left.const_mul _
  · exact h.vp.right.const_mul _
  · exact h.vt.right.const_mul _
  · exact h.vp.left.const_mul _

/-- **C80.**  Pure H2O and pure CO2 of the mixed fluid, at every temperature and at every pressure but
2000 bar, along volumes that solve the equation of state: the entropy is minus the temperature derivative
of the free energy, the enthalpy is `G + TS`, the heat capacity is the temperature derivative of the
enthalpy and `T` times that of the entropy, and the four expansions are the derivatives of the volume —
all with the volume and its derivatives multiplied by `8.3143/8.314467` (the program uses one gas
constant for the volume and another for the energy), and with the exact temperature derivative of the heat
capacity in the place of the difference quotient the program reports. -/
theorem C80_pure {s : Species} {vol : Bool → ℝ × ℝ → ℝ} {t p : ℝ} (δ : ℝ) (ht : 0 < t) (hp : 0 < p)
    (hp' : p ≠ 2000) (h : Found s vol (decide (p ≤ 2000)) t p) :
    Consistent (fun t' p' => amend (8.3143 / 8.314467) (deriv (fun t' => (pureProps s vol δ t' p).cp) t)
      (pureProps s vol δ t' p')) t p := by
  have hn := pure_near s vol δ hp'
  have h0 := hn.self_of_nhds
  have hc := out_consistent (s := s) δ ht hp (duan_ok ht hp h)
  have e : (fun t' => (pureProps s vol δ t' p).cp) = fun t' => (ofOut s
      (duan s vol (decide (p ≤ 2000)) t' p) (duan s vol (decide (p ≤ 2000)) (t' * (1 + δ)) p) δ t' p).cp :=
    funext fun t' => by rw [h0]
  rw [e]
  refine hc.congr ?_ ?_
  · exact Eventually.of_forall fun t' => by rw [h0]; rfl
  · filter_upwards [hn] with p' hp''
    rw [hp'']; rfl

/-- **C80.**  The volume reported for a pure fluid is not the pressure derivative of the free energy
reported with it: it is that derivative times `8.314467/8.3143`, so it is too large by a factor of
1.00002. -/
theorem C80_volume_error {s : Species} {vol : Bool → ℝ × ℝ → ℝ} {t p : ℝ} (δ : ℝ) (ht : 0 < t) (hp : 0 < p)
    (hp' : p ≠ 2000) (h : Found s vol (decide (p ≤ 2000)) t p) :
    (pureProps s vol δ t p).v
        = 8.314467 / 8.3143 * deriv (fun p' => (pureProps s vol δ t p').g) p
      ∧ deriv (fun p' => (pureProps s vol δ t p').g) p < (pureProps s vol δ t p).v := by
  have hc := (C80_pure δ ht hp hp' h).volume.deriv
  have hc' : deriv (fun p' => (pureProps s vol δ t p').g) p
      = 8.3143 / 8.314467 * (pureProps s vol δ t p).v := hc
  have hv : 0 < (pureProps s vol δ t p).v := by
    have := h.1.pos
    simp only [pureProps, duan, driver]
    split <;> exact this
  rw [hc']
  constructor
  · ring
  · norm_num at *
    linarith

/-- **C80.**  The temperature derivative of the heat capacity is a difference quotient; it tends to the
derivative as the step tends to zero. -/
theorem C80_dcpdt {s : Species} {vol : Bool → ℝ × ℝ → ℝ} {t p : ℝ} (ht : 0 < t) (hp : 0 < p)
    (h : Found s vol (decide (p ≤ 2000)) t p) :
    Tendsto (fun δ => (pureProps s vol δ t p).dcpdt) (𝓝[≠] 0)
      (𝓝 (deriv (fun t' => (pureProps s vol 0 t' p).cp) t)) := by
  have ok := duan_ok ht hp h
  have a1 := ok.lt.left
  have a2 : DifferentiableAt ℝ (fun t' => (duan s vol (decide (p ≤ 2000)) t' p).ltt) t := by
    have hg : DifferentiableAt ℝ (fun t' : ℝ => (t', p)) t := by fun_prop
    exact DifferentiableAt.comp t (f := fun t' : ℝ => (t', p)) ok.ltt hg
  have a3 := a2.hasDerivAt
  generalize deriv (fun t' => (duan s vol (decide (p ≤ 2000)) t' p).ltt) t = m at a3
  have hcp : HasDerivAt (fun t' => (pureProps s vol 0 t' p).cp)
      (idealDcp s t + (-(2 * Rg * (duan s vol (decide (p ≤ 2000)) t p).lt
        + Rg * t * (duan s vol (decide (p ≤ 2000)) t p).ltt)
        - t * (3 * Rg * (duan s vol (decide (p ≤ 2000)) t p).ltt + Rg * t * m))) t := by
    have hh := (ideal_cp s ht).add ((hasDerivAt_id t).neg.mul ((a1.const_mul (2 * Rg)).add
      (((hasDerivAt_id t).const_mul Rg).mul a3)))
    refine hh.congr_deriv ?_
    simp only [Pi.add_apply, Pi.mul_apply, Pi.neg_apply, id]
    ring
  rw [hcp.deriv]
  have hq : Tendsto (fun δ => ((duan s vol (decide (p ≤ 2000)) (t * (1 + δ)) p).ltt
      - (duan s vol (decide (p ≤ 2000)) t p).ltt) / t / δ) (𝓝[≠] 0) (𝓝 m) := by
    have hl : HasDerivAt (fun δ : ℝ => t * (1 + δ)) t 0 := by
      simpa using ((hasDerivAt_id (0 : ℝ)).const_add 1).const_mul t
    have a4 : HasDerivAt (fun t' => (duan s vol (decide (p ≤ 2000)) t' p).ltt) m
        ((fun δ : ℝ => t * (1 + δ)) 0) := by simpa using a3
    have a5 := (a4.comp 0 hl).tendsto_slope
    have a6 := a5.const_mul (1 / t)
    refine (a6.congr fun δ => ?_).trans ?_
    · simp only [slope_def_field, Function.comp, add_zero, mul_one, sub_zero]
      ring
    · rw [show 1 / t * (m * t) = m by field_simp]
  have := ((((hq.const_mul (Rg * t)).const_add (3 * Rg * (duan s vol (decide (p ≤ 2000)) t p).ltt)).const_mul
    t).const_sub (-(2 * Rg * (duan s vol (decide (p ≤ 2000)) t p).lt
        + Rg * t * (duan s vol (decide (p ≤ 2000)) t p).ltt))).const_add (idealDcp s t)
  exact this

/-- **C80.**  Nothing but the volume jumps where the program changes the coefficients: as the pressure
falls to 2000 bar the free energy, the entropy, the enthalpy and the heat capacity tend to the values
reported at 2000 bar, and the volume tends to the one of the high-pressure coefficients. -/
theorem C80_joint {s : Species} {vol : Bool → ℝ × ℝ → ℝ} {t : ℝ} (δ : ℝ) (ht : 0 < t)
    (h1 : Solves (coef s true) (vol true) t 2000) (h2 : Solves (coef s false) (vol false) t 2000) :
    Tendsto (fun p => (pureProps s vol δ t p).g) (𝓝[>] 2000) (𝓝 (pureProps s vol δ t 2000).g)
    ∧ Tendsto (fun p => (pureProps s vol δ t p).s) (𝓝[>] 2000) (𝓝 (pureProps s vol δ t 2000).s)
    ∧ Tendsto (fun p => (pureProps s vol δ t p).h) (𝓝[>] 2000) (𝓝 (pureProps s vol δ t 2000).h)
    ∧ Tendsto (fun p => (pureProps s vol δ t p).cp) (𝓝[>] 2000) (𝓝 (pureProps s vol δ t 2000).cp)
    ∧ Tendsto (fun p => (pureProps s vol δ t p).v) (𝓝[>] 2000) (𝓝 (vol false (t, 2000)))
    ∧ (pureProps s vol δ t 2000).v = vol true (t, 2000) := by
  have l := driver_ok (coef_good s true) ht (by norm_num) h1
  have r := driver_ok (coef_good s false) ht (by norm_num) h2
  have hi : ∀ p ∈ Set.Ioi (2000 : ℝ), pureProps s vol δ t p
      = ofOut s (duan s vol false t p) (duan s vol false (t * (1 + δ)) p) δ t p := fun p hp => by
    have : ¬p ≤ 2000 := not_le.2 hp
    simp only [pureProps, ofOut, this, decide_false]
  have lo : pureProps s vol δ t 2000
      = ofOut s (duan s vol true t 2000) (duan s vol true (t * (1 + δ)) 2000) δ t 2000 := by
    simp only [pureProps, ofOut, le_refl, decide_true]
  have hph : 0 < (driver (coef s false) t 2000 (vol false (t, 2000))).phi := r.phi (t, 2000)
  have hpl : 0 < (driver (coef s true) t 2000 (vol true (t, 2000))).phi := l.phi (t, 2000)
  have line : ContinuousAt (fun p : ℝ => (t, p)) 2000 := by fun_prop
  have cphi : ContinuousAt (fun p => (duan s vol false t p).phi) 2000 := by
    have c1 : ContinuousAt (fun p => Real.log (driver (coef s false) t p (vol false (t, p))).phi) 2000 :=
      r.ln.right.continuousAt
    have c2 := c1.rexp
    have c3 : ContinuousAt (fun p => (driver (coef s false) t p (vol false (t, p))).phi) 2000 :=
      c2.congr (Eventually.of_forall fun p => Real.exp_log (r.phi (t, p)))
    simp only [duan, Bool.false_eq_true, if_false]
    exact (c3.mul_const _).div_const _
  have clt : ContinuousAt (fun p => (duan s vol false t p).lt) 2000 := by
    have c1 : ContinuousAt (fun p => (driver (coef s false) t p (vol false (t, p))).lt) 2000 :=
      r.lt.right.continuousAt
    simp only [duan, Bool.false_eq_true, if_false]
    exact (c1.add_const _).sub_const _
  have cltt : ContinuousAt (fun p => (duan s vol false t p).ltt) 2000 := by
    have c1 : ContinuousAt (fun p => (driver (coef s false) t p (vol false (t, p))).ltt) 2000 :=
      ContinuousAt.comp (f := fun p : ℝ => (t, p)) r.ltt.continuousAt line
    simp only [duan, Bool.false_eq_true, if_false]
    exact (c1.add_const _).sub_const _
  have ephi : (duan s vol false t 2000).phi = (duan s vol true t 2000).phi := by
    simp only [duan, Bool.false_eq_true, if_false, if_true]
    field_simp
  have elt : (duan s vol false t 2000).lt = (duan s vol true t 2000).lt := by
    simp [duan]
  have eltt : (duan s vol false t 2000).ltt = (duan s vol true t 2000).ltt := by
    simp [duan]
  have pphi : 0 < (duan s vol false t 2000).phi := by rw [ephi]; exact hpl
  have clog : ContinuousAt (fun p => Real.log ((duan s vol false t p).phi * p)) 2000 :=
    (cphi.mul continuousAt_id).log (mul_pos pphi (by norm_num)).ne'
  have lim : ∀ {f : Std → ℝ} {c : ℝ}, f (pureProps s vol δ t 2000) = c →
      ContinuousAt (fun p => f (ofOut s (duan s vol false t p) (duan s vol false (t * (1 + δ)) p) δ t p)) 2000 →
      f (ofOut s (duan s vol false t 2000) (duan s vol false (t * (1 + δ)) 2000) δ t 2000) = c →
      Tendsto (fun p => f (pureProps s vol δ t p)) (𝓝[>] 2000) (𝓝 c) := by
    intro f c _ hcont he
    have := (hcont.tendsto.mono_left (nhdsWithin_le_nhds (s := Set.Ioi 2000)))
    rw [he] at this
    exact this.congr' (by filter_upwards [self_mem_nhdsWithin] with p hp; rw [hi p hp])
  refine ⟨?_, ?_, ?_, ?_, ?_, ?_⟩
  · refine lim (f := Std.g) rfl ?_ ?_
    · simp only [ofOut]; fun_prop
    · rw [lo]; simp only [ofOut, ephi]
  · refine lim (f := Std.s) rfl ?_ ?_
    · simp only [ofOut]; fun_prop
    · rw [lo]; simp only [ofOut, ephi, elt]
  · refine lim (f := Std.h) rfl ?_ ?_
    · simp only [ofOut]; fun_prop
    · rw [lo]; simp only [ofOut, ephi, elt]
  · refine lim (f := Std.cp) rfl ?_ ?_
    · simp only [ofOut]; fun_prop
    · rw [lo]; simp only [ofOut, elt, eltt]
  · have c1 : ContinuousAt (fun p => vol false (t, p)) 2000 :=
      ContinuousAt.comp (f := fun p : ℝ => (t, p)) h2.cont line
    refine (c1.tendsto.mono_left (nhdsWithin_le_nhds (s := Set.Ioi 2000))).congr' ?_
    filter_upwards [self_mem_nhdsWithin] with p hp
    rw [hi p hp]
    simp [ofOut, duan, driver]
  · rw [lo]; simp [ofOut, duan, driver]

end Verif.Thermo.Fluid
