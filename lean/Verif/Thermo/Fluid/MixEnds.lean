import Verif.Thermo.Fluid.MixProps
import Verif.Thermo.Fluid.Gas
import Mathlib.Analysis.SpecialFunctions.Log.NegMulLog

/-!
# C81: pure compositions, and states of the mixture that meet the hypotheses
-/

open Filter Topology

namespace Verif.Thermo.Fluid

open Verif.Thermo.Water

/-- The pure composition of a species: mole fraction of H2O, then of CO2. -/
def Species.x : Species → ℝ × ℝ
  | .h2o => (1, 0)
  | .co2 => (0, 1)

section

variable (low : Bool) (t v : ℝ)

lemma pure_z (s : Species) : ((mixQ low t).at s.x.1 s.x.2).z v = (coef s low).z t v := by
  cases s <;> simp [Loc.z, Q.at, Species.x, mixQ, form, mixed, Coef.z, Coef.B, Coef.C, Coef.Dd, Coef.E, Coef.F,
    Coef.gam, Coef.ex, T2.scale, xp]

lemma pure_zv (s : Species) : ((mixQ low t).at s.x.1 s.x.2).zv v = (coef s low).zv t v := by
  cases s <;> simp [Loc.zv, Q.at, Species.x, mixQ, form, mixed, Coef.zv, Coef.B, Coef.C, Coef.Dd, Coef.E, Coef.F,
    Coef.gam, Coef.ex, T2.scale, xp]

lemma pure_ln (s : Species) : ((mixQ low t).at s.x.1 s.x.2).ln s v = (coef s low).ln t v := by
  have h := pure_z low t v s
  cases s <;> rw [Loc.ln, Coef.ln, h] <;> simp [Q.at, Species.x, mixQ, form, form', shift, mixed, Coef.lnTail,
    Coef.B, Coef.C, Coef.Dd, Coef.E, Coef.F, Coef.gam, Coef.ex, T2.scale, xp] <;> ring

end

/-- **C81.**  At a pure composition the mixture is the pure species: the same volumes solve the equation of
state, and at them the compressibility factor and the fugacity coefficient of that species are those of the
pure fluid. -/
theorem C81_pure (low : Bool) (t v : ℝ) (s : Species) :
    ((mixQ low t).at s.x.1 s.x.2).z v = (coef s low).z t v
    ∧ ((mixQ low t).at s.x.1 s.x.2).ln s v = (coef s low).ln t v :=
  ⟨pure_z low t v s, pure_ln low t v s⟩

/-! ## The ends of the composition range and the change of coefficients -/

/-- The searches return, at a pure composition, the volume of the pure species. -/
def AtPure (V : Vols) (t p : ℝ) (s : Species) : Prop :=
  V.mix (isLow p) (s.x.2, p) = V.pure s (isLow p) (t, p)
    ∧ (isLow p = false → ∀ low, V.mix low (s.x.2, 2000) = V.pure s low (t, 2000))

lemma pure_phi {V : Vols} {t p : ℝ} {s : Species} (h : AtPure V t p s) :
    (mixDuan Rv V.mix (isLow p) t p s.x.2).phi s = (duan s (V.pure s) (isLow p) t p).phi := by
  have e1 : (1 - s.x.2, s.x.2) = s.x := by cases s <;> simp [Species.x]
  have e2 : 1 - s.x.2 = s.x.1 := (Prod.ext_iff.1 e1).1
  obtain ⟨a, b⟩ := h
  have k := fun low v => pure_ln low t v s
  generalize isLow p = low at *
  cases low
  · have b1 := b rfl true
    have b2 := b rfl false
    simp only [mixDuan, mixDriver, duan, driver, Bool.false_eq_true, if_false, a, b1, b2, e2, k]
  · simp only [mixDuan, mixDriver, duan, driver, if_true, a, e2, k]

/-- **C81.**  The answer zero at the ends of the composition range is right: the reported Gibbs energy of mixing
tends to zero as the composition tends to a pure species, and so does the logarithm of that species'
activity. -/
theorem C81_ends {V : Vols} {t p : ℝ} {s : Species} (ht : 0 < t) (hp : 0 < p) (h : MixFound V t s.x.2 p)
    (hs : AtPure V t p s) :
    Tendsto (gmix V t p) (𝓝[Set.Ioo 0 1] s.x.2) (𝓝 0)
    ∧ Tendsto (fun r => act V t p r s) (𝓝[Set.Ioo 0 1] s.x.2) (𝓝 1) := by
  have h0 : 0 ≤ s.x.2 := by cases s <;> simp [Species.x]
  have h1 : s.x.2 ≤ 1 := by cases s <;> simp [Species.x]
  have o := mix_duan_ok ht hp h0 h1 h.1 h.2
  have c := fun i => HasDerivAt.continuousAt ((o.ln i).left)
  have cx : ∀ i, Continuous fun r => xs r i := fun i => by cases i <;> simp only [xs] <;> fun_prop
  have e := pure_phi hs
  have ex : xs s.x.2 s = 1 := by cases s <;> simp [xs, Species.x]
  have cl : ∀ i, ContinuousAt (fun r => xs r i * Real.log (xs r i) + xs r i *
      (Real.log ((mixDuan Rv V.mix (isLow p) t p r).phi i) - Real.log (duan i (V.pure i) (isLow p) t p).phi)) s.x.2 :=
    fun i => ((Real.continuous_mul_log.comp (cx i)).continuousAt).add
      ((cx i).continuousAt.mul ((c i).sub continuousAt_const))
  constructor
  · have t0 := ((((cl .h2o).add (cl .co2)).const_mul (Rg * t)).tendsto).mono_left
      (nhdsWithin_le_nhds (s := Set.Ioo (0 : ℝ) 1))
    have e0 : Rg * t * ((xs s.x.2 .h2o * Real.log (xs s.x.2 .h2o) + xs s.x.2 .h2o *
        (Real.log ((mixDuan Rv V.mix (isLow p) t p s.x.2).phi .h2o)
          - Real.log (duan .h2o (V.pure .h2o) (isLow p) t p).phi))
      + (xs s.x.2 .co2 * Real.log (xs s.x.2 .co2) + xs s.x.2 .co2 *
        (Real.log ((mixDuan Rv V.mix (isLow p) t p s.x.2).phi .co2)
          - Real.log (duan .co2 (V.pure .co2) (isLow p) t p).phi))) = 0 := by
      cases s <;> simp only [Species.x] at e ⊢ <;> simp [xs, e]
    simp only [Pi.add_apply] at t0
    rw [e0] at t0
    refine t0.congr' ?_
    filter_upwards [self_mem_nhdsWithin] with r hr
    rw [gmix_eq hr.1 hr.2]
    simp only [lact, xs]
    ring
  · have t1 : Tendsto (fun r => Real.exp (Real.log (xs r s) + Real.log ((mixDuan Rv V.mix (isLow p) t p r).phi s)
        - Real.log (duan s (V.pure s) (isLow p) t p).phi)) (𝓝 s.x.2) (𝓝 1) := by
      have h1 := ((((cx s).continuousAt (x := s.x.2)).log (by rw [ex]; exact one_ne_zero)).add (c s)).sub
        (continuousAt_const (y := Real.log (duan s (V.pure s) (isLow p) t p).phi))
      have h2 := (Real.continuous_exp.continuousAt.comp h1).tendsto
      simpa [Function.comp_def, ex, e] using h2
    refine (t1.mono_left (nhdsWithin_le_nhds (s := Set.Ioo (0 : ℝ) 1))).congr' ?_
    filter_upwards [self_mem_nhdsWithin] with r hr
    have := log_act (V := V) (t := t) (p := p) hr.1 hr.2 s
    rw [← lact, ← this, Real.exp_log]
    · rfl
    · exact div_pos (mul_pos (xs_pos hr.1 hr.2 s) (phi_pos _ _ _ _ _ _ _)) (pure_phi_pos _ _ _ _ _)

/-- **C81.**  Where the two sets of coefficients are joined the reported Gibbs energy of mixing, its composition
derivative and the activities are continuous in pressure. -/
theorem C81_joint {V : Vols} {t r : ℝ} (ht : 0 < t) (h0 : 0 < r) (h1 : r < 1)
    (hm : ∀ low, MixSolves low t (V.mix low) r 2000)
    (hpure : ∀ s low, Solves (coef s low) (V.pure s low) t 2000) :
    ContinuousAt (fun p => gmix V t p r) 2000 ∧ ContinuousAt (fun p => gmixX V t p r) 2000
      ∧ ∀ i, ContinuousAt (fun p => act V t p r i) 2000 := by
  have o := fun low => mix_driver_ok ht (by norm_num : (0 : ℝ) < 2000) h0.le h1.le (hm low)
  have q := fun s low => driver_ok (coef_good s low) ht (by norm_num : (0 : ℝ) < 2000) (hpure s low)
  have glue : ∀ {a b f : ℝ → ℝ}, ContinuousAt a 2000 → ContinuousAt b 2000 → a 2000 = b 2000 →
      (∀ p, f p = if isLow p then a p else b p) → ContinuousAt f 2000 := by
    intro a b f ha hb e hf
    have hfe : f 2000 = a 2000 := by rw [hf]; simp [isLow]
    unfold ContinuousAt at *
    rw [hfe]
    refine (Tendsto.if' (p := fun p => isLow p) ha (e ▸ hb)).congr fun p => (hf p).symm
  have cm : ∀ i, ContinuousAt (fun p => Real.log ((mixDuan Rv V.mix (isLow p) t p r).phi i)) 2000 := fun i => by
    have a := HasDerivAt.continuousAt ((o true).ln i).right
    have b := HasDerivAt.continuousAt ((o false).ln i).right
    refine glue a ((b.add_const (Real.log ((mixDriver Rv (mixQ true t) t 2000 r (V.mix true (r, 2000))).phi i))).sub_const
      (Real.log ((mixDriver Rv (mixQ false t) t 2000 r (V.mix false (r, 2000))).phi i))) ?_ fun p => ?_
    · simp only; ring
    · cases isLow p
      · simp only [mixDuan, Bool.false_eq_true, if_false]
        rw [Real.log_div (mul_ne_zero ((o false).phi (r, p) i).ne' ((o true).phi (r, 2000) i).ne')
          ((o false).phi (r, 2000) i).ne', Real.log_mul ((o false).phi (r, p) i).ne'
          ((o true).phi (r, 2000) i).ne']
      · rfl
  have cp : ∀ s, ContinuousAt (fun p => Real.log (duan s (V.pure s) (isLow p) t p).phi) 2000 := fun s => by
    have a := HasDerivAt.continuousAt (q s true).ln.right
    have b := HasDerivAt.continuousAt (q s false).ln.right
    refine glue a ((b.add_const (Real.log (driver (coef s true) t 2000 (V.pure s true (t, 2000))).phi)).sub_const
      (Real.log (driver (coef s false) t 2000 (V.pure s false (t, 2000))).phi)) ?_ fun p => ?_
    · simp only; ring
    · have ps : ∀ low p v, (driver (coef s low) t p v).phi ≠ 0 := fun low p v => (Real.exp_pos _).ne'
      cases isLow p
      · simp only [duan, Bool.false_eq_true, if_false]
        rw [Real.log_div (mul_ne_zero (ps _ _ _) (ps _ _ _)) (ps _ _ _), Real.log_mul (ps _ _ _) (ps _ _ _)]
      · rfl
  have cl : ∀ i, ContinuousAt (fun p => lact V t p r i) 2000 := fun i => ((cm i).const_add _).sub (cp i)
  refine ⟨?_, ?_, fun i => ?_⟩
  · simp only [gmix_eq h0 h1]
    exact (((cl .h2o).const_mul (1 - r)).add ((cl .co2).const_mul r)).const_mul (Rg * t)
  · simp only [gmixX_eq h0 h1]
    exact ((cl .co2).sub (cl .h2o)).const_mul (Rg * t)
  · have e : ∀ p, act V t p r i = Real.exp (lact V t p r i) := fun p => by
      rw [← log_act h0 h1, Real.exp_log]
      · rfl
      · exact div_pos (mul_pos (xs_pos h0 h1 i) (phi_pos _ _ _ _ _ _ _)) (pure_phi_pos _ _ _ _ _)
    simp only [e]
    exact Real.continuous_exp.continuousAt.comp (cl i)

/-! ## Volumes that solve the equation of state exist -/

/-- The pressure of the equation of state of the mixture. -/
noncomputable def mixPress (low : Bool) (t r v : ℝ) : ℝ := ((mixQ low t).at (1 - r) r).z v * Rv * t / v

lemma form_contDiff (q : ℕ → ℝ) : ∀ n, ContDiff ℝ 1 (fun w : ℝ × ℝ => form n q (1 - w.1) w.1)
  | 0 => by simp only [form]; exact contDiff_const
  | n + 1 => by
    have h1 := form_contDiff q n
    have h2 := form_contDiff (fun k => q (k + 1)) n
    simp only [form]
    exact ((contDiff_const.sub contDiff_fst).mul h1).add (contDiff_fst.mul h2)

lemma mixPress_contDiff (low : Bool) (t : ℝ) {w : ℝ × ℝ} (hv : w.2 ≠ 0) :
    ContDiffAt ℝ 1 (fun w : ℝ × ℝ => mixPress low t w.1 w.2) w := by
  have c : ∀ n q, ContDiffAt ℝ 1 (fun w : ℝ × ℝ => form n q (1 - w.1) w.1) w := fun n q =>
    (form_contDiff q n).contDiffAt
  have d1 := c 2 (mixQ low t).b
  have d2 := c 3 (mixQ low t).c
  have d3 := c 5 (mixQ low t).d
  have d4 := c 6 (mixQ low t).e
  have d5 := c 2 (mixQ low t).f
  have d6 := c 1 (mixQ low t).be
  have d7 := c 3 (mixQ low t).g
  have hp : ∀ n : ℕ, w.2 ^ n ≠ 0 := fun n => pow_ne_zero n hv
  simp only [mixPress, Loc.z, Q.at, xp]
  fun_prop (disch := first | exact hp _ | exact hv)

lemma mixPress_D (low : Bool) (t r : ℝ) {v : ℝ} (hv : v ≠ 0) : ∃ a, D (fun w : ℝ × ℝ => mixPress low t w.1 w.2) a
    ((((mixQ low t).at (1 - r) r).zv v * v - ((mixQ low t).at (1 - r) r).z v) * (Rv * t) / v ^ 2) (r, v) := by
  refine ⟨_, ((((mix_z_D (mixQ low t) (r := r) hv).mul (D.const Rv)).mul (D.const t)).div D.snd hv).to rfl ?_⟩
  simp only
  ring

/-- **C81.**  Wherever the pressure of the mixture's equation of state is positive and responds to the volume,
there is a solution of the kind the theorems on the mixing properties ask for. -/
theorem C81_volume_exists (low : Bool) {t r v : ℝ} (ht : 0 < t) (hv : 0 < v)
    (hz : 0 < ((mixQ low t).at (1 - r) r).z v)
    (hs : ((mixQ low t).at (1 - r) r).zv v / ((mixQ low t).at (1 - r) r).z v ≠ 1 / v) :
    ∃ vol : ℝ × ℝ → ℝ, vol (r, mixPress low t r v) = v ∧ 0 < mixPress low t r v
      ∧ MixSolves low t vol r (mixPress low t r v) := by
  have hR : (0 : ℝ) < Rv := by norm_num [Rv]
  have hP : 0 < mixPress low t r v := by unfold mixPress; positivity
  obtain ⟨a, hd⟩ := mixPress_D low t r hv.ne'
  have hstr := (mixPress_contDiff low t (w := (r, v)) hv.ne').hasStrictFDerivAt one_ne_zero
  rw [HasFDerivAt.fderiv hd] at hstr
  have hbn : (((mixQ low t).at (1 - r) r).zv v * v - ((mixQ low t).at (1 - r) r).z v) * (Rv * t) / v ^ 2 ≠ 0 := by
    refine div_ne_zero (mul_ne_zero (fun h => hs ?_) (by positivity)) (by positivity)
    rw [div_eq_div_iff hz.ne' hv.ne']; linarith
  have hs' : HasStrictFDerivAt (fun w : ℝ × ℝ => (w.1, mixPress low t w.1 w.2))
      (shear a _ hbn : ℝ × ℝ →L[ℝ] ℝ × ℝ) (r, v) := hasStrictFDerivAt_fst.prodMk hstr
  have himg : (hs'.localInverse _ _ _) (r, mixPress low t r v) = (r, v) := hs'.localInverse_apply_image
  have himg2 : ((hs'.localInverse _ _ _) (r, mixPress low t r v)).2 = v := by rw [himg]
  have hcn : ContinuousAt (fun w => ((hs'.localInverse _ _ _) w).2) (r, mixPress low t r v) :=
    continuousAt_snd.comp hs'.localInverse_continuousAt
  refine ⟨fun w => ((hs'.localInverse _ _ _) w).2, himg2, hP, hcn, hv.trans_eq himg2.symm, ?_, ?_⟩
  · have hpos : ∀ᶠ w in 𝓝 (r, mixPress low t r v), 0 < ((hs'.localInverse _ _ _) w).2 :=
      hcn.eventually_const_lt (hv.trans_eq himg2.symm)
    filter_upwards [hs'.eventually_right_inverse, hpos] with w hw p1
    have w1 : ((hs'.localInverse (fun w : ℝ × ℝ => (w.1, mixPress low t w.1 w.2)) _ _) w).1 = w.1 :=
      (Prod.ext_iff.1 hw).1
    have w2 : mixPress low t ((hs'.localInverse (fun w : ℝ × ℝ => (w.1, mixPress low t w.1 w.2)) _ _) w).1
        ((hs'.localInverse (fun w : ℝ × ℝ => (w.1, mixPress low t w.1 w.2)) _ _) w).2 = w.2 :=
      (Prod.ext_iff.1 hw).2
    rw [w1] at w2
    have hlast : ∀ x q : ℝ, 0 < x → mixPress low t w.1 x = q →
        ((mixQ low t).at (1 - w.1) w.1).z x * Rv * t = q * x := fun x q hx hq => by
      rw [← hq, mixPress, div_mul_cancel₀ _ hx.ne']
    exact hlast _ _ p1 w2
  · simp only [himg2]
    exact hs

/-- Solutions of the kind the theorems ask for, without naming the volume. -/
def CanSolve (low : Bool) (t r p : ℝ) : Prop :=
  ∃ v, 0 < v ∧ 0 < ((mixQ low t).at (1 - r) r).z v
    ∧ ((mixQ low t).at (1 - r) r).zv v / ((mixQ low t).at (1 - r) r).z v ≠ 1 / v ∧ mixPress low t r v = p

lemma can_solves {low : Bool} {t r p : ℝ} (ht : 0 < t) (h : CanSolve low t r p) :
    ∃ vol, MixSolves low t vol r p := by
  obtain ⟨v, h1, h2, h3, rfl⟩ := h
  obtain ⟨vol, -, -, h⟩ := C81_volume_exists low ht h1 h2 h3
  exact ⟨vol, h⟩

lemma can_low {t r p : ℝ} (ht : 0 < t) (hp : p ≤ 2000) (h : CanSolve true t r p) :
    ∃ mix : Bool → ℝ × ℝ → ℝ, ∀ pure, MixFound ⟨mix, pure⟩ t r p := by
  obtain ⟨vol, h⟩ := can_solves ht h
  have hl : isLow p = true := decide_eq_true hp
  exact ⟨fun _ => vol, fun _ => ⟨by rw [hl]; exact h, fun h' => by simp [hl] at h'⟩⟩

lemma can_high {t r p : ℝ} (ht : 0 < t) (hp : 2000 < p) (h : CanSolve false t r p) (h1 : CanSolve true t r 2000)
    (h2 : CanSolve false t r 2000) : ∃ mix : Bool → ℝ × ℝ → ℝ, ∀ pure, MixFound ⟨mix, pure⟩ t r p := by
  obtain ⟨f, hf⟩ := can_solves ht h
  obtain ⟨g, hg⟩ := can_solves ht h1
  obtain ⟨k, hk⟩ := can_solves ht h2
  have hl : isLow p = false := decide_eq_false (not_le.2 hp)
  classical
  have move : ∀ {p0 : ℝ} {f m : ℝ × ℝ → ℝ}, MixSolves false t f r p0 → m =ᶠ[𝓝 (r, p0)] f →
      MixSolves false t m r p0 := by
    intro p0 f m h e
    have e0 := e.self_of_nhds
    refine ⟨h.cont.congr e.symm, by rw [e0]; exact h.pos, ?_, by rw [e0]; exact h.stable⟩
    filter_upwards [h.eos, e] with w a b
    rw [b]; exact a
  refine ⟨fun low w => if low then g w else if w.2 < (2000 + p) / 2 then k w else f w,
    fun _ => ⟨?_, fun _ => ⟨hg, ?_⟩⟩⟩
  · rw [hl]
    refine move hf ?_
    filter_upwards [(continuousAt_snd : ContinuousAt Prod.snd (r, p)).eventually_const_lt
        (show (2000 + p) / 2 < p by linarith)] with w hw
    simp [not_lt.2 hw.le]
  · refine move hk ?_
    filter_upwards [(continuousAt_snd : ContinuousAt Prod.snd (r, (2000 : ℝ))).eventually_lt_const
        (show (2000 : ℝ) < (2000 + p) / 2 by linarith)] with w hw
    simp [hw]

lemma slope_cont {B C E K F H G U : ℝ → ℝ} {r : ℝ} (hB : ContinuousAt B r) (hC : ContinuousAt C r)
    (hE : ContinuousAt E r) (hK : ContinuousAt K r) (hF : ContinuousAt F r) (hH : ContinuousAt H r)
    (hG : ContinuousAt G r) (hU : ContinuousAt U r) (hn : U r ≠ 0) :
    ContinuousAt (fun r => (-B r / U r ^ 2 - 2 * C r / U r ^ 3 - 4 * E r / U r ^ 5 - 5 * K r / U r ^ 6
      - 2 * (F r / U r ^ 3) * (H r + G r / U r ^ 2) * xp (G r) (U r)
      - 2 * (F r / U r ^ 2) * (G r / U r ^ 3) * xp (G r) (U r)
      + 2 * (F r / U r ^ 2) * (H r + G r / U r ^ 2) * (G r / U r ^ 3) * xp (G r) (U r)) * U r
      - (1 + B r / U r + C r / U r ^ 2 + E r / U r ^ 4 + K r / U r ^ 5
        + F r / U r ^ 2 * (H r + G r / U r ^ 2) * xp (G r) (U r))) r := by
  have hp : ∀ n : ℕ, U r ^ n ≠ 0 := fun n => pow_ne_zero n hn
  unfold xp
  fun_prop (disch := first | exact hp _ | exact hn)

/-- Solutions persist under a small change of composition. -/
lemma can_near {low : Bool} {t r p : ℝ} (ht : 0 < t) (h : CanSolve low t r p) :
    ∀ᶠ r' in 𝓝 r, CanSolve low t r' p := by
  obtain ⟨v, h1, h2, h3, rfl⟩ := h
  obtain ⟨vol, e, hP, h⟩ := C81_volume_exists low ht h1 h2 h3
  have hR : (0 : ℝ) < Rv := by norm_num [Rv]
  set p := mixPress low t r v
  have hc : ContinuousAt (fun r' => (r', p)) r := continuousAt_id.prodMk continuousAt_const
  have hv : ContinuousAt (fun r' => vol (r', p)) r := ContinuousAt.comp (g := vol) (f := fun r' => (r', p)) h.cont hc
  have hpos : ∀ᶠ r' in 𝓝 r, 0 < vol (r', p) := hv.eventually_const_lt h.pos
  have hb : ∀ᶠ r' in 𝓝 r, ((mixQ low t).at (1 - r') r').zv (vol (r', p)) * vol (r', p)
      - ((mixQ low t).at (1 - r') r').z (vol (r', p)) ≠ 0 := by
    have hne : ((mixQ low t).at (1 - r) r).zv (vol (r, p)) * vol (r, p)
        - ((mixQ low t).at (1 - r) r).z (vol (r, p)) ≠ 0 := by
      rw [e]
      intro h0
      apply h3
      rw [div_eq_div_iff h2.ne' h1.ne']; linarith
    have c : ∀ n q, ContinuousAt (fun r : ℝ => form n q (1 - r) r) r := fun n q =>
      ((form_contDiff q n).continuous.comp (f := fun r : ℝ => (r, (0 : ℝ))) (by fun_prop)).continuousAt
    have d1 := c 2 (mixQ low t).b
    have d2 := c 3 (mixQ low t).c
    have d3 := c 5 (mixQ low t).d
    have d4 := c 6 (mixQ low t).e
    have d5 := c 2 (mixQ low t).f
    have d6 := c 1 (mixQ low t).be
    have d7 := c 3 (mixQ low t).g
    have hn := h.pos.ne'
    exact ContinuousAt.eventually_ne (slope_cont d1 d2 d3 d4 d5 d6 d7 hv hn) hne
  filter_upwards [hpos, hb, hc.eventually h.eos] with r' a1 a2 a3
  have hz : 0 < ((mixQ low t).at (1 - r') r').z (vol (r', p)) := by
    have : 0 < ((mixQ low t).at (1 - r') r').z (vol (r', p)) * (Rv * t) := by
      rw [← mul_assoc, a3]; positivity
    exact pos_of_mul_pos_left this (by positivity)
  refine ⟨_, a1, hz, fun h0 => a2 ?_, ?_⟩
  · rw [div_eq_div_iff hz.ne' a1.ne'] at h0; linarith
  · rw [mixPress, a3, mul_div_cancel_right₀ _ a1.ne']

/-- At every temperature and composition, every low enough pressure has a solution. -/
lemma can_dilute {t : ℝ} (ht : 0 < t) (low : Bool) (r : ℝ) : ∃ p0, 0 < p0 ∧ ∀ p, 0 < p → p < p0 → CanSolve low t r p := by
  have hR : (0 : ℝ) < Rv := by norm_num [Rv]
  set l := (mixQ low t).at (1 - r) r with hl
  have hp : ∀ n : ℕ, n ≠ 0 → ∀ c : ℝ, Tendsto (fun v : ℝ => c / v ^ n) atTop (𝓝 0) := fun n hn c =>
    tendsto_const_nhds.div_atTop (tendsto_pow_atTop hn)
  have h1 : ∀ c : ℝ, Tendsto (fun v : ℝ => c / v) atTop (𝓝 0) := fun c => by simpa using hp 1 one_ne_zero c
  have hx : Tendsto (fun v => xp l.g v) atTop (𝓝 1) := by
    have := (Real.continuous_exp.tendsto 0).comp (hp 2 two_ne_zero (-l.g))
    simpa [xp, Function.comp_def] using this
  have hz : Tendsto (fun v => l.z v) atTop (𝓝 1) := by
    have := (((((h1 l.b).const_add 1).add (hp 2 two_ne_zero l.c)).add (hp 4 (by norm_num) l.d)).add
      (hp 5 (by norm_num) l.e)).add (((hp 2 two_ne_zero l.f).mul ((hp 2 two_ne_zero l.g).const_add l.be)).mul hx)
    simpa [Loc.z] using this
  have hzv : Tendsto (fun v => l.zv v * v) atTop (𝓝 0) := by
    have := ((((((h1 l.b).neg.sub ((hp 2 two_ne_zero l.c).const_mul 2)).sub ((hp 4 (by norm_num) l.d).const_mul 4)).sub
      ((hp 5 (by norm_num) l.e).const_mul 5)).sub ((((hp 2 two_ne_zero l.f).const_mul 2).mul
        ((hp 2 two_ne_zero l.g).const_add l.be)).mul hx)).sub
        ((((hp 2 two_ne_zero l.f).const_mul 2).mul (hp 2 two_ne_zero l.g)).mul hx)).add
        (((((hp 2 two_ne_zero l.f).const_mul 2).mul ((hp 2 two_ne_zero l.g).const_add l.be)).mul
          (hp 2 two_ne_zero l.g)).mul hx)
    simp only [zero_add, mul_zero, zero_mul, sub_zero, neg_zero, add_zero] at this
    refine this.congr' ?_
    filter_upwards [eventually_ne_atTop 0] with v hv
    simp only [Loc.zv]
    field_simp
  obtain ⟨N, hN⟩ := eventually_atTop.1 ((hz.eventually_const_lt (show (1 / 2 : ℝ) < 1 by norm_num)).and
    ((hzv.eventually_lt_const (show (0 : ℝ) < 1 / 2 by norm_num)).and (eventually_gt_atTop 0)))
  obtain ⟨z0, -, v0⟩ := hN N le_rfl
  have hP : Tendsto (fun v => mixPress low t r v) atTop (𝓝 0) := by
    have := (hz.mul_const (Rv * t)).mul (h1 1)
    rw [mul_zero] at this
    refine this.congr fun v => ?_
    simp only [mixPress, hl]
    ring
  refine ⟨mixPress low t r N, by unfold mixPress; rw [← hl]; positivity, fun p p0 p1 => ?_⟩
  obtain ⟨M, hM⟩ := eventually_atTop.1 (hP.eventually_lt_const p0)
  have hc : ContinuousOn (fun v => mixPress low t r v) (Set.Icc N (max N M)) := fun v hv => by
    have h := (mixPress_contDiff low t (w := (r, v)) (hN v hv.1).2.2.ne').continuousAt
    exact (ContinuousAt.comp (g := fun w : ℝ × ℝ => mixPress low t w.1 w.2) (f := fun v => (r, v)) h
      (continuousAt_const.prodMk continuousAt_id)).continuousWithinAt
  obtain ⟨v, ⟨hv, -⟩, e⟩ := intermediate_value_Icc' (le_max_left N M) hc
    (show p ∈ _ from ⟨(hM _ (le_max_right N M)).le, p1.le⟩)
  obtain ⟨a1, a2, a3⟩ := hN v hv
  refine ⟨v, a3, by linarith, ?_, e⟩
  rw [← hl]
  intro h
  rw [div_eq_div_iff (by linarith) a3.ne'] at h
  linarith

/-- **C81.**  The hypotheses of the theorems on the mixing properties are met, by the mixture and by both pure
species, at every composition and every temperature from 650 K on, at every low enough pressure. -/
theorem C81_states {t r : ℝ} (ht : 650 ≤ t) : ∃ p0, 0 < p0 ∧ p0 ≤ 2000 ∧ ∀ p, 0 < p → p < p0 →
    ∃ V, MixFound V t r p ∧ PureFound V t p := by
  have ht0 : 0 < t := by linarith
  obtain ⟨q, q0, hq⟩ := can_dilute ht0 true r
  refine ⟨min q 1, lt_min q0 one_pos, (min_le_right _ _).trans (by norm_num), fun p p0 p1 => ?_⟩
  have p2 : p < 1 := p1.trans_le (min_le_right _ _)
  obtain ⟨mix, hm⟩ := can_low ht0 (by linarith) (hq p p0 (p1.trans_le (min_le_left _ _)))
  have hl : isLow p = true := decide_eq_true (by linarith)
  have key : ∀ s : Species, ∃ vol, Found s vol true t p := fun s => by
    have htc : (coef s true).tc ≤ t := by cases s <;> simp only [coef] <;> linarith
    have hd : 100 * (p * (coef s true).tc) ≤ (coef s true).pc * t := by
      cases s <;> simp only [coef] <;> linarith
    obtain ⟨v, -, -, -, x, ⟨hx, hxe, -, hz, hst⟩, -⟩ := C80_search_dilute s htc p0 hd
    have hR : (0 : ℝ) < Rv := by norm_num [Rv]
    have hx0 : 0 < x := lt_of_lt_of_le (by positivity) hx
    obtain ⟨vol, -, -, hsol⟩ := C80_volume_exists (coef_good s true) ht0 hx0 hz hst.ne
    have e2 : (coef s true).press t x = p := by
      unfold Coef.press
      rw [hxe, mul_div_cancel_right₀ _ hx0.ne']
    rw [e2] at hsol
    exact ⟨fun _ => vol, hsol, fun h => by simp at h⟩
  choose pure hpure using key
  exact ⟨⟨mix, pure⟩, hm pure, fun s => by rw [hl]; exact hpure s⟩

/-- **C81.**  Above 2000 bar too: at 2589 K and every pressure from 2000 to 2200 bar, at every low enough mole
fraction of CO2. -/
theorem C81_states_above {p : ℝ} (hp : 2000 < p) (hp' : p ≤ 2200) : ∃ r0, 0 < r0 ∧ r0 ≤ 1 ∧ ∀ r, 0 < r → r < r0 →
    ∃ V, MixFound V 2589 r p := by
  have key : ∀ low q, 2000 ≤ q → q ≤ 2200 → ∀ᶠ r in 𝓝 (0 : ℝ), CanSolve low 2589 r q := by
    intro low q h1 h2
    refine can_near (by norm_num) ?_
    obtain ⟨v, a1, a2, a3, a4⟩ := above_key .h2o low q h1 h2
    have e : 4 * (coef .h2o low).tc = 2589 := by cases low <;> norm_num [coef]
    rw [e] at a2 a3 a4
    have z := pure_z low 2589 v .h2o
    have zv := pure_zv low 2589 v .h2o
    simp only [Species.x] at z zv
    refine ⟨v, a1, ?_, ?_, ?_⟩
    · rw [sub_zero, z]; exact a2
    · rw [sub_zero, z, zv]; exact a3
    · rw [mixPress, sub_zero, z]; exact a4
  obtain ⟨δ, d0, hδ⟩ := Metric.eventually_nhds_iff.1
    ((key false p hp.le hp').and ((key true 2000 le_rfl (by norm_num)).and (key false 2000 le_rfl (by norm_num))))
  refine ⟨min δ 1, lt_min d0 one_pos, min_le_right _ _, fun r r0 r1 => ?_⟩
  obtain ⟨b1, b2, b3⟩ := hδ (y := r) (by
    rw [Real.dist_eq, sub_zero, abs_of_pos r0]; exact r1.trans_le (min_le_left _ _))
  obtain ⟨mix, hm⟩ := can_high (by norm_num) hp b1 b2 b3
  exact ⟨⟨mix, fun _ _ _ => 0⟩, hm _⟩

/-- The theorems apply to the equimolar fluid at 1200 K. -/
example : ∃ V p, 0 < p ∧ HasDerivAt (gmix V 1200 p) (gmixX V 1200 p (1 / 2)) (1 / 2)
    ∧ HasDerivAt (fun p => gmix V 1200 p (1 / 2)) (Rg / Rv * vmix V 1200 p (1 / 2)) p := by
  obtain ⟨p0, h0, h2, h⟩ := C81_states (t := 1200) (r := 1 / 2) (by norm_num)
  obtain ⟨V, hV, hW⟩ := h (p0 / 2) (by linarith) (by linarith)
  exact ⟨V, p0 / 2, by linarith, C81_slope (by norm_num) (by linarith) (by norm_num) (by norm_num) hV,
    C81_volume (by norm_num) (by linarith) (by intro hh; linarith) (by norm_num) (by norm_num) hV hW⟩

/-- And above 2000 bar. -/
example : ∃ V r, 0 < r ∧ r < 1 ∧ HasDerivAt (gmix V 2589 2100) (gmixX V 2589 2100 r) r
    ∧ HasDerivAt (gmixX V 2589 2100) (gmixXX Rv V 2589 2100 r) r := by
  obtain ⟨r0, h0, h2, h⟩ := C81_states_above (p := 2100) (by norm_num) (by norm_num)
  obtain ⟨V, hV⟩ := h (r0 / 2) (by linarith) (by linarith)
  exact ⟨V, r0 / 2, by linarith, by linarith,
    C81_slope (by norm_num) (by norm_num) (by linarith) (by linarith) hV,
    C81_curvature (by norm_num) (by norm_num) (by linarith) (by linarith) hV⟩

end Verif.Thermo.Fluid
