import Verif.Thermo.Fluid.MixTProps

/-!
# C82: states the theorems apply to, and the temperatures they exclude
-/

open Filter Topology

namespace Verif.Thermo.Fluid

open Verif.Thermo.Water

lemma tPress_c {low : Bool} {t r v : ℝ} (h : Rates low t) (hv : v ≠ 0) :
    ContDiffAt ℝ 1 (fun w : ℝ × ℝ => mixPress low w.1 r w.2) (t, v) := by
  simp only [mixPress]
  exact (((mixT_z_c (x := 1 - r) (y := r) h hv).mul contDiffAt_const).mul contDiffAt_fst).div contDiffAt_snd hv

lemma tPress_D {low : Bool} {t r v : ℝ} (h : Rates low t) (hv : v ≠ 0) :
    ∃ a, D (fun w : ℝ × ℝ => mixPress low w.1 r w.2) a
      ((((mixQ low t).at (1 - r) r).zv v * v - ((mixQ low t).at (1 - r) r).z v) * (Rv * t) / v ^ 2) (t, v) := by
  have F : D (fun w : ℝ × ℝ => w.1) 1 0 (t, v) := D.fst
  refine ⟨_, ((((mixT_z_D (x := 1 - r) (y := r) h hv).mul (D.const Rv)).mul F).div D.snd hv).to rfl ?_⟩
  simp only
  ring

/-- **C82.**  Wherever the pressure of the mixture's equation of state is positive and responds to the volume, at
a temperature where no coefficient of an end member vanishes, there is a solution of the kind the theorems ask
for. -/
theorem C82_volume_exists (low : Bool) {t r v : ℝ} (ht : 0 < t) (hreg : Regular low t) (hv : 0 < v)
    (hz : 0 < ((mixQ low t).at (1 - r) r).z v)
    (hs : ((mixQ low t).at (1 - r) r).zv v / ((mixQ low t).at (1 - r) r).z v ≠ 1 / v) :
    ∃ vol : ℝ × ℝ → ℝ, vol (t, mixPress low t r v) = v ∧ 0 < mixPress low t r v
      ∧ TSolves low r vol t (mixPress low t r v) := by
  have hR : (0 : ℝ) < Rv := by norm_num [Rv]
  have hP : 0 < mixPress low t r v := by unfold mixPress; positivity
  obtain ⟨a, hd⟩ := tPress_D (r := r) (rates ht hreg) hv.ne'
  have hstr := (tPress_c (r := r) (rates ht hreg) hv.ne').hasStrictFDerivAt one_ne_zero
  rw [HasFDerivAt.fderiv hd] at hstr
  have hbn : (((mixQ low t).at (1 - r) r).zv v * v - ((mixQ low t).at (1 - r) r).z v) * (Rv * t) / v ^ 2 ≠ 0 := by
    refine div_ne_zero (mul_ne_zero (fun h => hs ?_) (by positivity)) (by positivity)
    rw [div_eq_div_iff hz.ne' hv.ne']; linarith
  have hs' : HasStrictFDerivAt (fun w : ℝ × ℝ => (w.1, mixPress low w.1 r w.2))
      (shear a _ hbn : ℝ × ℝ →L[ℝ] ℝ × ℝ) (t, v) := hasStrictFDerivAt_fst.prodMk hstr
  have himg : (hs'.localInverse _ _ _) (t, mixPress low t r v) = (t, v) := hs'.localInverse_apply_image
  have himg2 : ((hs'.localInverse _ _ _) (t, mixPress low t r v)).2 = v := by rw [himg]
  have hcn : ContinuousAt (fun w => ((hs'.localInverse _ _ _) w).2) (t, mixPress low t r v) :=
    continuousAt_snd.comp hs'.localInverse_continuousAt
  refine ⟨fun w => ((hs'.localInverse _ _ _) w).2, himg2, hP, hcn, hv.trans_eq himg2.symm, ?_, ?_⟩
  · have hpos : ∀ᶠ w in 𝓝 (t, mixPress low t r v), 0 < ((hs'.localInverse _ _ _) w).2 :=
      hcn.eventually_const_lt (hv.trans_eq himg2.symm)
    filter_upwards [hs'.eventually_right_inverse, hpos] with w hw p1
    have w1 : ((hs'.localInverse (fun w : ℝ × ℝ => (w.1, mixPress low w.1 r w.2)) _ _) w).1 = w.1 :=
      (Prod.ext_iff.1 hw).1
    have w2 : mixPress low ((hs'.localInverse (fun w : ℝ × ℝ => (w.1, mixPress low w.1 r w.2)) _ _) w).1 r
        ((hs'.localInverse (fun w : ℝ × ℝ => (w.1, mixPress low w.1 r w.2)) _ _) w).2 = w.2 :=
      (Prod.ext_iff.1 hw).2
    rw [w1] at w2
    have hlast : ∀ x q : ℝ, 0 < x → mixPress low w.1 r x = q →
        ((mixQ low w.1).at (1 - r) r).z x * Rv * w.1 = q * x := fun x q hx hq => by
      rw [← hq, mixPress, div_mul_cancel₀ _ hx.ne']
    exact hlast _ _ p1 w2
  · simp only [himg2]
    exact hs

lemma can_tsolves {low : Bool} {t r p : ℝ} (ht : 0 < t) (hreg : Regular low t) (h : CanSolve low t r p) :
    ∃ vol, TSolves low r vol t p := by
  obtain ⟨v, h1, h2, h3, rfl⟩ := h
  obtain ⟨vol, -, -, h⟩ := C82_volume_exists low ht hreg h1 h2 h3
  exact ⟨vol, h⟩

lemma t_low {t r p : ℝ} (ht : 0 < t) (hreg : Regular true t) (hp : p ≤ 2000) (h : CanSolve true t r p) :
    ∃ W, TFound W r t p := by
  obtain ⟨vol, h⟩ := can_tsolves ht hreg h
  have hl : isLow p = true := decide_eq_true hp
  exact ⟨fun _ => vol, ⟨by rw [hl]; exact h, by rw [hl]; exact hreg⟩, fun h' => by simp [hl] at h'⟩

lemma t_high {t r p : ℝ} (ht : 0 < t) (hreg : ∀ low, Regular low t) (hp : 2000 < p) (h : CanSolve false t r p)
    (h1 : CanSolve true t r 2000) (h2 : CanSolve false t r 2000) : ∃ W, TFound W r t p := by
  obtain ⟨f, hf⟩ := can_tsolves ht (hreg _) h
  obtain ⟨g, hg⟩ := can_tsolves ht (hreg _) h1
  obtain ⟨k, hk⟩ := can_tsolves ht (hreg _) h2
  have hl : isLow p = false := decide_eq_false (not_le.2 hp)
  have move : ∀ {p0 : ℝ} {f m : ℝ × ℝ → ℝ}, TSolves false r f t p0 → m =ᶠ[𝓝 (t, p0)] f →
      TSolves false r m t p0 := by
    intro p0 f m h e
    have e0 := e.self_of_nhds
    refine ⟨h.cont.congr e.symm, by rw [e0]; exact h.pos, ?_, by rw [e0]; exact h.stable⟩
    filter_upwards [h.eos, e] with w a b
    rw [b]; exact a
  refine ⟨fun low w => if low then g w else if w.2 < (2000 + p) / 2 then k w else f w,
    ⟨?_, hreg _⟩, fun _ => ⟨⟨hg, hreg _⟩, ?_⟩⟩
  · rw [hl]
    refine move hf ?_
    filter_upwards [(continuousAt_snd : ContinuousAt Prod.snd (t, p)).eventually_const_lt
        (show (2000 + p) / 2 < p by linarith)] with w hw
    simp [not_lt.2 hw.le]
  · refine move hk ?_
    filter_upwards [(continuousAt_snd : ContinuousAt Prod.snd (t, (2000 : ℝ))).eventually_lt_const
        (show (2000 : ℝ) < (2000 + p) / 2 by linarith)] with w hw
    simp [hw]

lemma reg_hot (low : Bool) : Regular low 2589 := by
  intro s
  cases s <;> cases low <;> simp only [coef, inv] <;> norm_num

lemma reg_1200 : Regular true 1200 := by
  intro s
  cases s <;> simp only [coef, inv] <;> norm_num

/-- **C82.**  The hypotheses are met, by the mixture and by both pure species, at every temperature from 650 K on
where no coefficient vanishes, at every composition and every low enough pressure. -/
theorem C82_states {t r : ℝ} (ht : 650 ≤ t) (hreg : Regular true t) :
    ∃ p0, 0 < p0 ∧ p0 ≤ 2000 ∧ ∀ p, 0 < p → p < p0 →
      ∃ (W : Bool → ℝ × ℝ → ℝ) (P : Species → Bool → ℝ × ℝ → ℝ), TFound W r t p ∧ ∀ s, Found s (P s) (isLow p) t p := by
  have ht0 : 0 < t := by linarith
  obtain ⟨q, q0, hq⟩ := can_dilute ht0 true r
  obtain ⟨p1, a1, a2, h⟩ := C81_states (t := t) (r := r) ht
  refine ⟨min q p1, lt_min q0 a1, (min_le_right _ _).trans a2, fun p b0 b1 => ?_⟩
  obtain ⟨V, -, hP⟩ := h p b0 (b1.trans_le (min_le_right _ _))
  have hp : p ≤ 2000 := (b1.trans_le ((min_le_right _ _).trans a2)).le
  obtain ⟨W, hW⟩ := t_low ht0 hreg hp (hq p b0 (b1.trans_le (min_le_left _ _)))
  exact ⟨W, V.pure, hW, hP⟩

/-- **C82.**  Above 2000 bar too: at 2589 K, up to 2200 bar, at every composition near enough to one or the other
end. -/
theorem C82_states_hot (s : Species) {p : ℝ} (hp : 2000 < p) (hp' : p ≤ 2200) :
    ∀ᶠ r in 𝓝 s.x.2, ∃ (W : Bool → ℝ × ℝ → ℝ)
    (P : Species → Bool → ℝ × ℝ → ℝ), TFound W r 2589 p ∧ ∀ s, Found s (P s) (isLow p) 2589 p := by
  have key : ∀ low q, 2000 ≤ q → q ≤ 2200 → ∀ᶠ r in 𝓝 s.x.2, CanSolve low 2589 r q := fun low q h1 h2 =>
    can_near (by norm_num) (mix_key s low h1 h2)
  filter_upwards [key false p hp.le hp', key true 2000 le_rfl (by norm_num), key false 2000 le_rfl (by norm_num),
    C81_states_hot s hp hp'] with r b1 b2 b3 b4
  obtain ⟨V, -, hP⟩ := b4
  obtain ⟨W, hW⟩ := t_high (by norm_num) reg_hot hp b1 b2 b3
  exact ⟨W, V.pure, hW, hP⟩

/-- The equimolar fluid at 1200 K. -/
example : ∃ W P p, 0 < p
    ∧ HasDerivAt (fun t => gmix (volsAt W P t) t p (1 / 2)) (-smix (volsAt W P 1200) 1200 p (1 / 2)) 1200
    ∧ HasDerivAt (fun t => vmix (volsAt W P t) t p (1 / 2)) (vmixT (volsAt W P 1200) 1200 p (1 / 2)) 1200 := by
  obtain ⟨p0, h0, -, h⟩ := C82_states (t := 1200) (r := 1 / 2) (by norm_num) reg_1200
  obtain ⟨W, P, hW, hP⟩ := h (p0 / 2) (by linarith) (by linarith)
  exact ⟨W, P, p0 / 2, by linarith,
    C82_entropy (by norm_num) (by linarith) (by norm_num) (by norm_num) hW hP,
    C82_expansion (by norm_num) (by linarith) (by norm_num) (by norm_num) hW hP⟩

/-- A water-rich fluid at 2100 bar. -/
example : ∃ W P r, 0 < r ∧ r < 1
    ∧ HasDerivAt (fun t => gmix (volsAt W P t) t 2100 r / t) (-hmix (volsAt W P 2589) 2589 2100 r / 2589 ^ 2) 2589
    ∧ HasDerivAt (fun t => gmixX (volsAt W P t) t 2100 r) (-smixX (volsAt W P 2589) 2589 2100 r) 2589 := by
  have h := C82_states_hot .h2o (p := 2100) (by norm_num) (by norm_num)
  obtain ⟨δ, d0, hδ⟩ := Metric.eventually_nhds_iff.1 h
  have m0 : 0 < min (δ / 2) (1 / 2) := lt_min (by linarith) (by norm_num)
  have m1 := min_le_left (δ / 2) (1 / 2)
  have m2 := min_le_right (δ / 2) (1 / 2)
  obtain ⟨W, P, hW, hP⟩ := hδ (y := min (δ / 2) (1 / 2)) (by
    rw [Real.dist_eq, show Species.h2o.x.2 = 0 from rfl, sub_zero, abs_of_pos m0]; linarith)
  exact ⟨W, P, _, m0, by linarith, C82_gibbs_helmholtz (by norm_num) (by norm_num) m0 (by linarith) hW hP,
    C82_entropy_slope (by norm_num) (by norm_num) m0 (by linarith) hW hP⟩

/-! ## The temperatures excluded -/

lemma crt_cube (a : ℝ) : crt a ^ 3 = a := by
  unfold crt
  split_ifs with h
  · rw [← Real.rpow_natCast, ← Real.rpow_mul h]; norm_num
  · have h' : 0 ≤ -a := by linarith [not_le.1 h]
    have : ((-a) ^ (1 / 3 : ℝ)) ^ 3 = -a := by
      rw [← Real.rpow_natCast, ← Real.rpow_mul h']; norm_num
    linear_combination -this

lemma crt_zero : crt 0 = 0 := by
  simp [crt]

lemma crt_of_cube (a : ℝ) : crt (a ^ 3) = a := by
  have h := crt_cube (a ^ 3)
  exact (Odd.strictMono_pow (R := ℝ) (n := 3) (by decide)).injective h

/-- Where an end-member coefficient passes through zero the interaction coefficient has no derivative. -/
lemma powSum_corner {A B : ℝ → ℝ} {a' b' t fa fb : ℝ} (hfa : fa ≠ 0) (hf : fa + fb ≠ 0) (hfb : fb ≠ 0)
    (hA : HasDerivAt A a' t) (hB : HasDerivAt B b' t) (ha : A t = 0) (ha' : a' ≠ 0) (hb : B t ≠ 0) :
    ¬DifferentiableAt ℝ (fun t => powSum (A t) fa (B t) fb) t := by
  intro h
  have hS0 : powSum (A t) fa (B t) fb ≠ 0 := by
    rw [powSum_eq, ha, crt_zero, mul_zero, zero_add]
    have : crt (B t) ≠ 0 := fun h0 => hb (by rw [← crt_cube (B t), h0]; norm_num)
    positivity
  have h1 : DifferentiableAt ℝ (fun t => crt (powSum (A t) fa (B t) fb)) t :=
    DifferentiableAt.comp (g := crt) (f := fun t => powSum (A t) fa (B t) fb) t (crt_d hS0).differentiableAt h
  have e : ∀ t, crt (powSum (A t) fa (B t) fb) = (fa * crt (A t) + fb * crt (B t)) / (fa + fb) := fun t => by
    rw [powSum_eq, crt_of_cube]
  simp only [e] at h1
  have h2 : DifferentiableAt ℝ (fun t => crt (B t)) t := ((crt_d hb).comp t hB).differentiableAt
  have h3 : DifferentiableAt ℝ (fun t => crt (A t)) t := by
    have := ((h1.mul_const (fa + fb)).sub (h2.const_mul fb)).mul_const fa⁻¹
    refine this.congr_of_eventuallyEq (Eventually.of_forall fun s => ?_)
    simp only [Pi.sub_apply]
    field_simp
    ring
  have h4 := (h3.hasDerivAt).pow 3
  have h5 : HasDerivAt A (3 * crt (A t) ^ 2 * deriv (fun t => crt (A t)) t) t := by
    refine (h4.congr_deriv ?_).congr_of_eventuallyEq (Eventually.of_forall fun s => (crt_cube (A s)).symm)
    norm_num
  exact ha' (by rw [hA.unique h5, ha, crt_zero]; ring)

/-- **C82.**  The excluded temperatures matter: between 1550 and 1620 K there is one at which the second virial
coefficient of pure water is zero, where the program divides by zero, and where the interaction coefficient of the
mixture has no temperature derivative for it to report. -/
theorem C82_corner : ∃ t, 1550 < t ∧ t < 1620 ∧ ¬Regular true t ∧ c2 ((coef .h2o true).B t).x = 0
    ∧ ¬DifferentiableAt ℝ (fun t => (mixQ true t).b 1) t := by
  set b : ℝ → ℝ := fun t => (inv 4.38269941e-2 (-1.68244362e-1) (-2.36923373e-1) 647.25 t).x with hbd
  have hB : ∀ t, (inv (coef .h2o true).a1 (coef .h2o true).a2 (coef .h2o true).a3 (coef .h2o true).tc t).x = b t :=
    fun t => rfl
  have hd : ∀ t : ℝ, 0 < t → HasDerivAt b (inv 4.38269941e-2 (-1.68244362e-1) (-2.36923373e-1) 647.25 t).d t :=
    fun t ht => inv_d _ _ _ ht.ne' (by norm_num)
  have hc : ContinuousOn b (Set.Icc 1551 1619) := fun t ht =>
    (hd t (by linarith [ht.1])).continuousAt.continuousWithinAt
  obtain ⟨t, ⟨t1, t2⟩, h0⟩ := intermediate_value_Icc (by norm_num) hc
    (show (0 : ℝ) ∈ Set.Icc (b 1551) (b 1619) from ⟨by simp only [hbd, inv]; norm_num, by simp only [hbd, inv]; norm_num⟩)
  have ht : 0 < t := by linarith
  refine ⟨t, by linarith, by linarith, fun hreg => (hreg .h2o).1 ((hB t).trans h0), ?_, ?_⟩
  · have : ((coef .h2o true).B t).x = 0 := by
      simp only [Coef.B, T2.scale]
      rw [hB, h0, zero_mul]
    rw [this, c2, if_pos le_rfl, Real.zero_rpow (by norm_num)]
  · intro h
    have hk : k1 true t < 0 := by
      simp only [k1, if_true]
      have : 0 < 31.409 / t := by positivity
      nlinarith
    have hco : (inv (coef .co2 true).a1 (coef .co2 true).a2 (coef .co2 true).a3 (coef .co2 true).tc t).x ≠ 0 := by
      simp only [coef, inv]
      have hs : (5 : ℝ) ≤ t / 304.1282 := by rw [le_div_iff₀ (by norm_num)]; linarith
      have h1 : 1 / (t / 304.1282) ^ 2 ≤ 1 / 25 := by
        refine one_div_le_one_div_of_le (by norm_num) ?_
        nlinarith
      have h3 : 0 < 1 / (t / 304.1282) ^ 3 := by positivity
      have e1 : ∀ x y : ℝ, x / y = x * (1 / y) := fun x y => by ring
      rw [e1 _ ((t / 304.1282) ^ 2), e1 _ ((t / 304.1282) ^ 3)]
      refine ne_of_gt ?_
      nlinarith
    have hne : (inv 4.38269941e-2 (-1.68244362e-1) (-2.36923373e-1) 647.25 t).d ≠ 0 := by
      simp only [inv]
      have h1 : 0 < (t / 647.25) ^ 3 := by positivity
      have h2 : 0 < (t / 647.25) ^ 4 := by positivity
      have h3 : 0 < -2 * -1.68244362e-1 * (1 / 647.25) / (t / 647.25) ^ 3 := by positivity
      have h4 : 0 < 3 * 2.36923373e-1 * (1 / 647.25) / (t / 647.25) ^ 4 := by positivity
      refine ne_of_gt ?_
      have e : -2 * -1.68244362e-1 * (1 / 647.25) / (t / 647.25) ^ 3
          - 3 * -2.36923373e-1 * (1 / 647.25) / (t / 647.25) ^ 4
          = -2 * -1.68244362e-1 * (1 / 647.25) / (t / 647.25) ^ 3
            + 3 * 2.36923373e-1 * (1 / 647.25) / (t / 647.25) ^ 4 := by ring
      rw [e]
      positivity
    have hvc : powSum (coef .h2o true).vc ((2 : ℕ) - (1 : ℕ) : ℝ) (coef .co2 true).vc (1 : ℕ) ≠ 0 :=
      (powSum_pos (vc_pos _ _) (by norm_num) (vc_pos _ _) (by norm_num)).ne'
    have hk1 : DifferentiableAt ℝ (k1 true) t := (k1_d true ht.ne').differentiableAt
    have e : ∀ s, (mixQ true s).b 1 = powSum (b s) ((2 : ℕ) - (1 : ℕ) : ℝ)
        (inv (coef .co2 true).a1 (coef .co2 true).a2 (coef .co2 true).a3 (coef .co2 true).tc s).x (1 : ℕ)
        * k1 true s * powSum (coef .h2o true).vc ((2 : ℕ) - (1 : ℕ) : ℝ) (coef .co2 true).vc (1 : ℕ) ^ 1 := fun s => rfl
    refine powSum_corner (fa := ((2 : ℕ) - (1 : ℕ) : ℝ)) (fb := ((1 : ℕ) : ℝ)) (by norm_num) (by norm_num)
      (by norm_num) (hd t ht) (inv_d _ _ _ ht.ne' (tc_pos .co2 true).ne') h0 hne hco ?_
    have h6 := (h.div hk1 hk.ne).mul_const
      (powSum (coef .h2o true).vc ((2 : ℕ) - (1 : ℕ) : ℝ) (coef .co2 true).vc (1 : ℕ))⁻¹
    refine h6.congr_of_eventuallyEq ?_
    filter_upwards [hk1.continuousAt.eventually_ne hk.ne] with s hs
    simp only [Pi.div_apply, e]
    field_simp

end Verif.Thermo.Fluid
