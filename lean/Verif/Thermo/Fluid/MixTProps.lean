import Verif.Thermo.Fluid.MixT
import Verif.Thermo.Fluid.MixHot

/-!
# C82: the mixing properties of the H2O-CO2 fluid at changing temperature
-/

open Filter Topology

namespace Verif.Thermo.Fluid

open Verif.Thermo.Water

/-- `vol` solves the equation of state of the mixture at the composition `r` near the temperature `t` and the
pressure `p`. -/
structure TSolves (low : Bool) (r : ℝ) (vol : ℝ × ℝ → ℝ) (t p : ℝ) : Prop where
  cont : ContinuousAt vol (t, p)
  pos : 0 < vol (t, p)
  eos : ∀ᶠ w in 𝓝 (t, p), ((mixQ low w.1).at (1 - r) r).z (vol w) * Rv * w.1 = w.2 * vol w
  stable : ((mixQ low t).at (1 - r) r).zv (vol (t, p)) / ((mixQ low t).at (1 - r) r).z (vol (t, p))
    ≠ 1 / vol (t, p)

/-- What the driver returns is what its names say, at one temperature and pressure. -/
structure TOk (o : ℝ × ℝ → MOut) (n : TOut) (t p : ℝ) : Prop where
  phi : ∀ w i, 0 < (o w).phi i
  v : D (fun w => (o w).v) n.dvdt (o (t, p)).dvdp (t, p)
  ln : ∀ i, D (fun w => Real.log ((o w).phi i)) (n.lt i) ((o (t, p)).lp i) (t, p)

lemma t_driver_ok {low : Bool} {t r p : ℝ} {vol : ℝ × ℝ → ℝ} (ht : 0 < t) (hp : 0 < p) (h0 : 0 ≤ r)
    (h1 : r ≤ 1) (hreg : Regular low t) (h : TSolves low r vol t p) :
    TOk (fun w => mixDriver Rv (mixQ low w.1) w.1 w.2 r (vol w)) (mixDriverT low t r (vol (t, p))) t p := by
  obtain ⟨hcont, hv, heos, hst⟩ := h
  have hr := rates ht hreg
  have e0 := heos.self_of_nhds
  simp only at e0
  have hg := (gam_pos low t h0 h1).ne'
  have hR : (0 : ℝ) < Rv := by norm_num [Rv]
  set v := vol (t, p) with hvd
  set l := (mixQ low t).at (1 - r) r with hl
  set d := (mixQt low t).at (1 - r) r with hd
  have hz : 0 < l.z v := by
    have : 0 < l.z v * (Rv * t) := by rw [← mul_assoc, e0]; positivity
    exact pos_of_mul_pos_left this (by positivity)
  have q1 : l.zv v / l.z v - 1 / v ≠ 0 := fun h => hst (by linarith)
  have dz := mixT_z_D (x := 1 - r) (y := r) hr hv.ne'
  have F : D (fun w : ℝ × ℝ => w.1) 1 0 (t, v) := D.fst
  have dP : D (fun w : ℝ × ℝ => ((mixQ low w.1).at (1 - r) r).z w.2 * Rv * w.1 / w.2) _ _ (t, v) :=
    ((dz.mul (D.const Rv)).mul F).div D.snd hv.ne'
  obtain ⟨u, hu⟩ : ∃ u, u = l.zv v / l.z v - 1 / v := ⟨_, rfl⟩
  have hu0 : u ≠ 0 := hu ▸ q1
  have s1 : l.zv v = l.z v * (u + 1 / v) := by rw [hu]; field_simp; ring
  have ep : p = l.z v * Rv * t / v := by rw [e0]; field_simp
  have hvp : (mixDriver Rv (mixQ low t) t p r v).dvdp = 1 / (p * u) := by simp only [mixDriver, ← hl, hu]
  have hvt : (mixDriverT low t r v).dvdt = (1 / t + l.zt d v / l.z v) / -u := by
    simp only [mixDriverT, ← hl, ← hd, hu, neg_sub]
  have dv : D vol (mixDriverT low t r v).dvdt (mixDriver Rv (mixQ low t) t p r v).dvdp (t, p) := by
    have hh := implicit (z := (t, p)) (ρ := vol) dP ?_ hcont
      ((heos.and (hcont.eventually_ne hv.ne')).mono fun w hw => by
        rw [hw.1, mul_div_assoc, div_self hw.2, mul_one])
    · refine hh.to ?_ ?_
      · rw [hvt]
        simp only [← hl, ← hd]
        rw [s1]
        field_simp
        ring_nf
        field_simp
        ring
      · rw [hvp]
        simp only [← hl]
        rw [s1, ep]
        field_simp
        ring_nf
        field_simp
    · intro h
      rw [div_eq_zero_iff] at h
      rcases h with h | h
      · have h3 : l.z v * u * (Rv * t) * v = 0 := by
          simp only [← hl] at h
          rw [s1] at h
          field_simp at h
          linear_combination h
        have h4 : l.z v * (Rv * t) * v ≠ 0 := by positivity
        exact hu0 ((mul_eq_zero.1 (show l.z v * (Rv * t) * v * u = 0 by linear_combination h3)).resolve_left h4)
      · exact absurd h (by positivity)
  have F' : D (fun w : ℝ × ℝ => w.1) 1 0 (t, p) := D.fst
  have cl : ∀ i, D (fun w => ((mixQ low w.1).at (1 - r) r).ln i (vol w)) _ _ (t, p) := fun i =>
    (mixT_ln_D hr i (by ring) hv.ne' hz.ne' hg).comp₂ (z := (t, p)) (x := Prod.fst) (y := vol) F' dv
  refine ⟨fun w i => Real.exp_pos _, dv, fun i => ?_⟩
  refine ((cl i).to ?_ ?_).congr (Eventually.of_forall fun w => by simp only [mixDriver, Real.log_exp])
  · simp only [mixDriverT, ← hl, ← hd]; ring
  · simp only [mixDriver, ← hl]; ring

/-- The volumes of the mixture the properties at `(t, p)` rest on solve the equation of state. -/
def TFound (W : Bool → ℝ × ℝ → ℝ) (r t p : ℝ) : Prop :=
  (TSolves (isLow p) r (W (isLow p)) t p ∧ Regular (isLow p) t)
    ∧ (isLow p = false → (TSolves true r (W true) t 2000 ∧ Regular true t) ∧ TSolves false r (W false) t 2000)

/-- The volumes at one temperature; `W low (t, p)` are those of the mixture at the composition under study. -/
def volsAt (W : Bool → ℝ × ℝ → ℝ) (P : Species → Bool → ℝ × ℝ → ℝ) (t : ℝ) : Vols :=
  ⟨fun low w => W low (t, w.2), P⟩

lemma t_duan_ok {W : Bool → ℝ × ℝ → ℝ} {t r p : ℝ} {low : Bool} (ht : 0 < t) (hp : 0 < p)
    (h0 : 0 ≤ r) (h1 : r ≤ 1) (h : TSolves low r (W low) t p ∧ Regular low t)
    (h' : low = false → (TSolves true r (W true) t 2000 ∧ Regular true t) ∧ TSolves false r (W false) t 2000) :
    TOk (fun w => mixDuan Rv (fun low z => W low (w.1, z.2)) low w.1 w.2 r)
      (mixDuanT (fun low z => W low (t, z.2)) low t p r) t p := by
  have o := t_driver_ok ht hp h0 h1 h.2 h.1
  cases low
  · obtain ⟨⟨a1, b1⟩, a2⟩ := h' rfl
    have l := t_driver_ok ht (by norm_num) h0 h1 b1 a1
    have k := t_driver_ok ht (by norm_num) h0 h1 h.2 a2
    have F : D (fun w : ℝ × ℝ => w.1) 1 0 (t, p) := D.fst
    refine ⟨fun w i => ?_, o.v, fun i => ?_⟩
    · simp only [mixDuan, mixDriver, Bool.false_eq_true, if_false]
      positivity
    · refine (((o.ln i).add (D.comp (f := fun w : ℝ × ℝ => w.1) (l.ln i).left F)).sub
        (D.comp (f := fun w : ℝ × ℝ => w.1) (k.ln i).left F)).to ?_ ?_ |>.congr
        (Eventually.of_forall fun w => ?_)
      · simp [mixDuanT]
      · simp [mixDuan]
      · simp only [mixDuan, Bool.false_eq_true, if_false]
        rw [Real.log_div (mul_ne_zero (o.phi w i).ne' (l.phi (w.1, 2000) i).ne')
          (k.phi (w.1, 2000) i).ne', Real.log_mul (o.phi w i).ne' (l.phi (w.1, 2000) i).ne']
  · exact o

section

variable {W : Bool → ℝ × ℝ → ℝ} {P : Species → Bool → ℝ × ℝ → ℝ} {t r p : ℝ}

lemma lact_t (ht : 0 < t) (hp : 0 < p) (h0 : 0 ≤ r) (h1 : r ≤ 1) (h : TFound W r t p)
    (hP : ∀ s, Found s (P s) (isLow p) t p) (i : Species) :
    HasDerivAt (fun t => lact (volsAt W P t) t p r i)
      ((mixDuanT (volsAt W P t).mix (isLow p) t p r).lt i - (duan i (P i) (isLow p) t p).lt) t := by
  have o := t_duan_ok ht hp h0 h1 h.1 h.2
  have c := duan_ok ht hp (hP i)
  exact ((o.ln i).left.const_add _).sub c.ln.left

/-- **C82.**  The reported entropy of mixing is minus the temperature derivative of the reported Gibbs energy of
mixing, below and above the change of coefficients at 2000 bar. -/
theorem C82_entropy (ht : 0 < t) (hp : 0 < p) (h0 : 0 < r) (h1 : r < 1) (h : TFound W r t p)
    (hP : ∀ s, Found s (P s) (isLow p) t p) :
    HasDerivAt (fun t => gmix (volsAt W P t) t p r) (-smix (volsAt W P t) t p r) t := by
  have a := lact_t ht hp h0.le h1.le h hP
  have d := ((hasDerivAt_id t).const_mul Rg).mul (((a .h2o).const_mul (1 - r)).add ((a .co2).const_mul r))
  refine (d.congr_deriv ?_).congr_of_eventuallyEq (Eventually.of_forall fun t => ?_)
  · simp only [smix, lact, xs, phi_R Rg Rv, id, Pi.add_apply, volsAt]
    ring
  · simp only [gmix_eq h0 h1]; rfl

/-- **C82.**  The reported enthalpy of mixing is the Gibbs energy of mixing plus the temperature times the entropy
of mixing. -/
theorem C82_enthalpy (V : Vols) (t p r : ℝ) : hmix V t p r = gmix V t p r + t * smix V t p r := by
  simp only [hmix, gmix, smix]
  ring

/-- **C82.**  The Gibbs-Helmholtz relation: the temperature derivative of the Gibbs energy of mixing over the
temperature is minus the enthalpy of mixing over its square. -/
theorem C82_gibbs_helmholtz (ht : 0 < t) (hp : 0 < p) (h0 : 0 < r) (h1 : r < 1) (h : TFound W r t p)
    (hP : ∀ s, Found s (P s) (isLow p) t p) :
    HasDerivAt (fun t => gmix (volsAt W P t) t p r / t) (-hmix (volsAt W P t) t p r / t ^ 2) t := by
  refine ((C82_entropy ht hp h0 h1 h hP).div (hasDerivAt_id t) ht.ne').congr_deriv ?_
  rw [C82_enthalpy]
  simp only [id]
  ring

/-- **C82.**  The reported composition derivative of the entropy of mixing is minus the temperature derivative of
the reported composition derivative of the Gibbs energy of mixing. -/
theorem C82_entropy_slope (ht : 0 < t) (hp : 0 < p) (h0 : 0 < r) (h1 : r < 1) (h : TFound W r t p)
    (hP : ∀ s, Found s (P s) (isLow p) t p) :
    HasDerivAt (fun t => gmixX (volsAt W P t) t p r) (-smixX (volsAt W P t) t p r) t := by
  have a := lact_t ht hp h0.le h1.le h hP
  have d := ((hasDerivAt_id t).const_mul Rg).mul ((a .co2).sub (a .h2o))
  refine (d.congr_deriv ?_).congr_of_eventuallyEq (Eventually.of_forall fun t => ?_)
  · simp only [smixX, lact, xs, phi_R Rg Rv, id, Pi.sub_apply, volsAt]
    ring
  · simp only [gmixX_eq h0 h1]; rfl

/-- **C82.**  The reported thermal expansion of mixing is the temperature derivative of the reported volume of
mixing. -/
theorem C82_expansion (ht : 0 < t) (hp : 0 < p) (h0 : 0 ≤ r) (h1 : r ≤ 1) (h : TFound W r t p)
    (hP : ∀ s, Found s (P s) (isLow p) t p) :
    HasDerivAt (fun t => vmix (volsAt W P t) t p r) (vmixT (volsAt W P t) t p r) t := by
  have o := t_duan_ok ht hp h0 h1 h.1 h.2
  have c := fun s => duan_ok ht hp (hP s)
  have ev : ∀ vol : Bool → ℝ × ℝ → ℝ, ∀ t, (mixDuan Rg vol (isLow p) t p r).v = (mixDuan Rv vol (isLow p) t p r).v :=
    fun vol t => by cases isLow p <;> rfl
  have d := (o.v.left.sub ((c .h2o).v.left.const_mul (xs r .h2o))).sub ((c .co2).v.left.const_mul (xs r .co2))
  refine (d.congr_deriv rfl).congr_of_eventuallyEq (Eventually.of_forall fun t => ?_)
  simp only [vmix, ev]
  rfl

end

end Verif.Thermo.Fluid
