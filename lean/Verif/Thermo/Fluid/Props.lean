import Verif.Thermo.Fluid.DuanOk

/-!
# Pure fluids: the properties reported
-/

open Filter Topology

namespace Verif.Thermo.Fluid

open Verif.Thermo.Water
open Verif.Thermo.StdState (Std Consistent)

/-- `vol` solves the equation of state near `(t, p)`: the compressibility factor at the volume is
`p v / R t`, the volume is positive and continuous, and the pressure responds to the volume. -/
structure Solves (k : Coef) (vol : ℝ × ℝ → ℝ) (t p : ℝ) : Prop where
  cont : ContinuousAt vol (t, p)
  pos : 0 < vol (t, p)
  eos : ∀ᶠ w in 𝓝 (t, p), k.z w.1 (vol w) * Rv * w.1 = w.2 * vol w
  stable : k.zv t (vol (t, p)) / k.z t (vol (t, p)) ≠ 1 / vol (t, p)

/-- The coefficients are those of one of the four tables as far as the proofs go. -/
structure Coef.Good (k : Coef) : Prop where
  tc : k.tc ≠ 0
  gam : k.gam ≠ 0

lemma coef_good (s : Species) (low : Bool) : (coef s low).Good := by
  cases s <;> cases low <;> constructor <;> simp only [coef, Coef.gam, Coef.vc, Rv] <;> norm_num

/-- All a driver returns is what its name says, near `(t, p)`. -/
structure OutOk (o : ℝ × ℝ → Out) (t p : ℝ) : Prop where
  phi : ∀ w, 0 < (o w).phi
  v : D (fun w => (o w).v) (o (t, p)).dvdt (o (t, p)).dvdp (t, p)
  vt : D (fun w => (o w).dvdt) (o (t, p)).d2vdt2 (o (t, p)).d2vdtdp (t, p)
  vp : D (fun w => (o w).dvdp) (o (t, p)).d2vdtdp (o (t, p)).d2vdp2 (t, p)
  ln : D (fun w => Real.log (o w).phi) (o (t, p)).lt (o (t, p)).lp (t, p)
  lt : D (fun w => (o w).lt) (o (t, p)).ltt (o (t, p)).ltp (t, p)
  lp : D (fun w => (o w).lp) (o (t, p)).ltp (o (t, p)).lpp (t, p)
  ltt : DifferentiableAt ℝ (fun w => (o w).ltt) (t, p)
  eos : ∀ᶠ w in 𝓝 (t, p), (o w).z * Rv * w.1 = w.2 * (o w).v
  gas : ∀ᶠ w in 𝓝 (t, p), (o w).lp = ((o w).z - 1) / w.2

/-! ### The third temperature derivative of the fugacity coefficient exists -/

section

variable {b c d e f v x : ℝ × ℝ → ℝ} {w : ℝ × ℝ}

lemma tail_diff (k : Coef) (hb : DifferentiableAt ℝ b w) (hc : DifferentiableAt ℝ c w)
    (hd : DifferentiableAt ℝ d w) (he : DifferentiableAt ℝ e w) (hf : DifferentiableAt ℝ f w)
    (hv : DifferentiableAt ℝ v w) (h0 : v w ≠ 0) :
    DifferentiableAt ℝ (fun w => k.zTail (b w) (c w) (d w) (e w) (f w) (v w)) w
    ∧ DifferentiableAt ℝ (fun w => k.zTailV (b w) (c w) (d w) (e w) (f w) (v w)) w
    ∧ DifferentiableAt ℝ (fun w => k.zTailVV (b w) (c w) (d w) (e w) (f w) (v w)) w
    ∧ DifferentiableAt ℝ (fun w => k.lnTail (b w) (c w) (d w) (e w) (f w) (v w)) w
    ∧ DifferentiableAt ℝ (fun w => k.lnTailV (b w) (c w) (d w) (e w) (f w) (v w)) w
    ∧ DifferentiableAt ℝ (fun w => k.lnTailVV (b w) (c w) (d w) (e w) (f w) (v w)) w := by
  have hp : ∀ n : ℕ, v w ^ n ≠ 0 := fun n => pow_ne_zero n h0
  have hx : DifferentiableAt ℝ (fun w => k.ex (v w)) w :=
    (ex_d k h0).differentiableAt.comp w hv
  simp only [Coef.zTail, Coef.zTailV, Coef.zTailVV, Coef.lnTail, Coef.lnTailV, Coef.lnTailVV]
  generalize hxx : (fun w => k.ex (v w)) = y at hx
  have hy : ∀ w, k.ex (v w) = y w := fun w => by rw [← hxx]
  simp only [hy]
  refine ⟨?_, ?_, ?_, ?_, ?_, ?_⟩ <;> fun_prop (disch := first | exact hp _ | exact h0)

lemma div_diff {f g : ℝ × ℝ → ℝ} {w : ℝ × ℝ} (hf : DifferentiableAt ℝ f w) (hg : DifferentiableAt ℝ g w)
    (h0 : g w ≠ 0) : DifferentiableAt ℝ (fun w => f w / g w) w := by
  fun_prop (disch := assumption)

lemma ltt_alg {z zv zt zvv zvt ztt lv lvv lvt ltt t p v : ℝ × ℝ → ℝ} {w : ℝ × ℝ}
    (hz : DifferentiableAt ℝ z w) (hzv : DifferentiableAt ℝ zv w) (hzt : DifferentiableAt ℝ zt w)
    (hzvv : DifferentiableAt ℝ zvv w) (hzvt : DifferentiableAt ℝ zvt w) (hztt : DifferentiableAt ℝ ztt w)
    (hlv : DifferentiableAt ℝ lv w) (hlvv : DifferentiableAt ℝ lvv w)
    (hlvt : DifferentiableAt ℝ lvt w) (hltt : DifferentiableAt ℝ ltt w) (ht : DifferentiableAt ℝ t w)
    (hp : DifferentiableAt ℝ p w) (hv : DifferentiableAt ℝ v w) (z0 : z w ≠ 0) (t0 : t w ≠ 0)
    (p0 : p w ≠ 0) (v0 : v w ≠ 0) (q0 : zv w / z w - 1 / v w ≠ 0) :
    DifferentiableAt ℝ (fun w =>
      let z := z w
      let zv := zv w
      let zt := zt w
      let v := v w
      let p := p w
      let t := t w
      let vp := 1 / (p * (zv / z - 1 / v))
      let vt := (1 / t + zt / z) / (1 / v - zv / z)
      let vpp := (p * (1 / v - zv / z) / v - zv / vp / z + 1 / vp / vp / p + p * zvv w / z)
        * -(vp * vp * vp)
      let vtp := -vp * (1 / t + zt / z) - p * vpp * (1 / t + zt / z)
        - p * vp * vp * (-zv * zt / z / z + zvt w / z)
      let vtt := -p * vtp * (1 / t + zt / z) + p * vp / t / t + p * vp * zt * (zv * vt + zt) / z / z
        - p * vp * vt * zvt w / z - p * vp * ztt w / z
      lvv w * vt * vt + 2 * lvt w * vt + lv w * vtt + ltt w) w := by
  have hq : DifferentiableAt ℝ (fun w => 1 / v w - zv w / z w) w := by fun_prop (disch := assumption)
  have q1 : 1 / v w - zv w / z w ≠ 0 := fun h => q0 (by linarith)
  have hvp : DifferentiableAt ℝ (fun w => 1 / (p w * (zv w / z w - 1 / v w))) w := by
    fun_prop (disch := first | assumption | exact mul_ne_zero p0 q0)
  have vp0 : 1 / (p w * (zv w / z w - 1 / v w)) ≠ 0 := one_div_ne_zero (mul_ne_zero p0 q0)
  have hvt : DifferentiableAt ℝ (fun w => (1 / t w + zt w / z w) / (1 / v w - zv w / z w)) w := by
    fun_prop (disch := assumption)
  have hu : DifferentiableAt ℝ (fun w => 1 / t w + zt w / z w) w := by fun_prop (disch := assumption)
  generalize e1 : (fun w => 1 / (p w * (zv w / z w - 1 / v w))) = vp at hvp
  generalize e2 : (fun w => (1 / t w + zt w / z w) / (1 / v w - zv w / z w)) = vt at hvt
  have g1 : ∀ w, 1 / (p w * (zv w / z w - 1 / v w)) = vp w := fun w => by rw [← e1]
  have g2 : ∀ w, (1 / t w + zt w / z w) / (1 / v w - zv w / z w) = vt w := fun w => by rw [← e2]
  simp only [g1, g2]
  rw [g1] at vp0
  fun_prop (disch := assumption)

end

lemma ltt_diff {k : Coef} {vol : ℝ × ℝ → ℝ} {t p a b : ℝ} (hk : k.Good) (hcont : ContinuousAt vol (t, p))
    (ht : t ≠ 0) (hp : p ≠ 0) (hv : vol (t, p) ≠ 0) (hz : k.z t (vol (t, p)) ≠ 0)
    (hq : k.zv t (vol (t, p)) / k.z t (vol (t, p)) - 1 / vol (t, p) ≠ 0) (dv : D vol a b (t, p)) :
    DifferentiableAt ℝ (fun w => (driver k w.1 w.2 (vol w)).ltt) (t, p) := by
  have hd : DifferentiableAt ℝ vol (t, p) := (show HasFDerivAt _ _ _ from dv).differentiableAt
  have h1 : DifferentiableAt ℝ (fun w : ℝ × ℝ => w.1) (t, p) := differentiableAt_fst
  have h2 : DifferentiableAt ℝ (fun w : ℝ × ℝ => w.2) (t, p) := differentiableAt_snd
  have lift : ∀ f : ℝ → ℝ, DifferentiableAt ℝ f t → DifferentiableAt ℝ (fun w : ℝ × ℝ => f w.1) (t, p) :=
    fun f hf => DifferentiableAt.comp (t, p) (f := fun w : ℝ × ℝ => w.1) hf h1
  have hx := tail_diff k (lift _ (B_ok k hk.tc ht).x.differentiableAt)
    (lift _ (C_ok k hk.tc ht).x.differentiableAt) (lift _ (Dd_ok k hk.tc ht).x.differentiableAt)
    (lift _ (E_ok k hk.tc ht).x.differentiableAt) (lift _ (F_ok k hk.tc ht).x.differentiableAt) hd hv
  have hy := tail_diff k (lift _ (B_ok k hk.tc ht).d.differentiableAt)
    (lift _ (C_ok k hk.tc ht).d.differentiableAt) (lift _ (Dd_ok k hk.tc ht).d.differentiableAt)
    (lift _ (E_ok k hk.tc ht).d.differentiableAt) (lift _ (F_ok k hk.tc ht).d.differentiableAt) hd hv
  have hw := tail_diff k (lift _ (B_ok k hk.tc ht).dd) (lift _ (C_ok k hk.tc ht).dd)
    (lift _ (Dd_ok k hk.tc ht).dd) (lift _ (E_ok k hk.tc ht).dd) (lift _ (F_ok k hk.tc ht).dd) hd hv
  obtain ⟨x1, x2, x3, x4, x5, x6⟩ := hx
  obtain ⟨y1, y2, -, y4, y5, -⟩ := hy
  obtain ⟨w1, -, -, w4, -, -⟩ := hw
  have z1 : DifferentiableAt ℝ (fun w => k.z w.1 (vol w)) (t, p) := by
    refine (x1.const_add 1).congr_of_eventuallyEq (Eventually.of_forall fun w => ?_)
    simp only [Coef.z, Coef.zTail]; ring
  have q : ∀ f : ℝ × ℝ → ℝ, DifferentiableAt ℝ f (t, p) →
      DifferentiableAt ℝ (fun w => f w / k.z w.1 (vol w)) (t, p) := fun f hf => by
    exact div_diff hf z1 hz
  have zv : DifferentiableAt ℝ (fun w => k.zv w.1 (vol w)) (t, p) := x2
  have zt : DifferentiableAt ℝ (fun w => k.zt w.1 (vol w)) (t, p) := y1
  have zvv : DifferentiableAt ℝ (fun w => k.zvv w.1 (vol w)) (t, p) := x3
  have zvt : DifferentiableAt ℝ (fun w => k.zvt w.1 (vol w)) (t, p) := y2
  have ztt : DifferentiableAt ℝ (fun w => k.ztt w.1 (vol w)) (t, p) := w1
  have lv : DifferentiableAt ℝ (fun w => k.lnv w.1 (vol w)) (t, p) := (q _ zv.fun_neg).fun_add x5
  have lvv : DifferentiableAt ℝ (fun w => k.lnvv w.1 (vol w)) (t, p) :=
    ((q _ (q _ (zv.fun_mul zv))).fun_sub (q _ zvv)).fun_add x6
  have lvt : DifferentiableAt ℝ (fun w => k.lnvt w.1 (vol w)) (t, p) :=
    ((q _ (q _ (zv.fun_mul zt))).fun_sub (q _ zvt)).fun_add y5
  have ltt : DifferentiableAt ℝ (fun w => k.lntt w.1 (vol w)) (t, p) :=
    ((q _ (q _ (zt.fun_mul zt))).fun_sub (q _ ztt)).fun_add w4
  exact ltt_alg z1 zv zt zvv zvt ztt lv lvv lvt ltt h1 h2 hd hz ht hp hv hq

lemma driver_ok {k : Coef} {vol : ℝ × ℝ → ℝ} {t p : ℝ} (hk : k.Good) (ht : 0 < t) (hp : 0 < p)
    (h : Solves k vol t p) : OutOk (fun w => driver k w.1 w.2 (vol w)) t p := by
  obtain ⟨hcont, hv, heos, hst⟩ := h
  have e0 := heos.self_of_nhds
  simp only at e0
  have hR : (0 : ℝ) < Rv := by norm_num [Rv]
  have hz : 0 < k.z t (vol (t, p)) := by
    have : 0 < k.z t (vol (t, p)) * (Rv * t) := by rw [← mul_assoc, e0]; positivity
    exact pos_of_mul_pos_left this (by positivity)
  have dz := z_D k hk.tc ht.ne' hv.ne'
  have dzv := zv_D k hk.tc ht.ne' hv.ne'
  have dzt := zt_D k hk.tc ht.ne' hv.ne'
  have dl := ln_D k hk.tc ht.ne' hv.ne' hz.ne' hk.gam
  have dlv := lnv_D k hk.tc ht.ne' hv.ne' hz.ne'
  have dlt := lnt_D k hk.tc ht.ne' hv.ne' hz.ne' hk.gam
  have hl := lnv_eq k hv.ne' hz.ne'
  have F : D (fun w : ℝ × ℝ => w.1) 1 0 (t, p) := D.fst
  have S : D (fun w : ℝ × ℝ => w.2) 0 1 (t, p) := D.snd
  have dP : D (fun w : ℝ × ℝ => k.z w.1 w.2 * Rv * w.1 / w.2) _ _ (t, vol (t, p)) :=
    (((dz.mul (D.const Rv)).mul D.fst).div D.snd hv.ne')
  set v := vol (t, p) with hvd
  have q0 : 1 / v - k.zv t v / k.z t v ≠ 0 := fun h => hst (by linarith)
  have q1 : k.zv t v / k.z t v - 1 / v ≠ 0 := fun h => hst (by linarith)
  have q2 : v * k.zv t v - k.z t v ≠ 0 := by
    intro h; apply q1; field_simp; linarith
  have q2' : k.z t v - v * k.zv t v ≠ 0 := by
    intro h; apply q2; linarith
  obtain ⟨q, hq⟩ : ∃ q, q = k.zv t v / k.z t v - 1 / v := ⟨_, rfl⟩
  obtain ⟨u, hu⟩ : ∃ u, u = 1 / t + k.zt t v / k.z t v := ⟨_, rfl⟩
  have r1 : k.zv t v / k.z t v - 1 / v = q := hq.symm
  have r2 : 1 / v - k.zv t v / k.z t v = -q := by rw [hq]; ring
  have r3 : 1 / t + k.zt t v / k.z t v = u := hu.symm
  have s1 : k.zv t v = k.z t v * (q + 1 / v) := by rw [hq]; field_simp; ring
  have s2 : k.zt t v = k.z t v * (u - 1 / t) := by rw [hu]; field_simp; ring
  have hq0 : q ≠ 0 := r1 ▸ q1
  have dv : D vol (driver k t p v).dvdt (driver k t p v).dvdp (t, p) := by
    have hh := implicit (z := (t, p)) (ρ := vol) dP ?_ hcont
      ((heos.and (hcont.eventually_ne hv.ne')).mono fun w hw => by
        rw [hw.1, mul_div_assoc, div_self hw.2, mul_one])
    · refine hh.to ?_ ?_
      · simp only [driver]
        rw [r2, r3, s1, s2]
        field_simp
        ring_nf
        field_simp
      · simp only [driver]
        have e1 : p = k.z t v * Rv * t / v := by rw [e0]; field_simp
        rw [r1, s1, e1]
        field_simp
        ring_nf
        field_simp
    · intro h
      apply q2
      have : (v * k.zv t v - k.z t v) * (Rv * t) = 0 := by
        rw [div_eq_zero_iff] at h
        rcases h with h | h
        · linear_combination h
        · exact absurd h (by positivity)
      rcases mul_eq_zero.1 this with h | h
      · exact h
      · exact absurd h (by positivity)
  have cz := dz.comp₂ (z := (t, p)) (x := Prod.fst) (y := vol) F dv
  have czv := dzv.comp₂ (z := (t, p)) (x := Prod.fst) (y := vol) F dv
  have czt := dzt.comp₂ (z := (t, p)) (x := Prod.fst) (y := vol) F dv
  have cl := dl.comp₂ (z := (t, p)) (x := Prod.fst) (y := vol) F dv
  have clv := dlv.comp₂ (z := (t, p)) (x := Prod.fst) (y := vol) F dv
  have clt := dlt.comp₂ (z := (t, p)) (x := Prod.fst) (y := vol) F dv
  have dvp : D (fun w => (driver k w.1 w.2 (vol w)).dvdp) (driver k t p v).d2vdtdp
      (driver k t p v).d2vdp2 (t, p) := by
    refine ((D.const 1).div (S.mul ((czv.div cz hz.ne').sub ((D.const 1).div dv hv.ne')))
      (mul_ne_zero hp.ne' q1)).to ?_ ?_
    · simp only [driver, ← hvd, mul_zero, zero_mul, add_zero, zero_add, mul_one, zero_sub]
      rw [r1, r2, r3, s1, s2]
      field_simp
      ring
    · simp only [driver, ← hvd, mul_zero, zero_mul, add_zero, zero_add, mul_one, zero_sub]
      simp only [r1, r2, r3, s1, s2]
      field_simp
      ring
  have dvt : D (fun w => (driver k w.1 w.2 (vol w)).dvdt) (driver k t p v).d2vdt2
      (driver k t p v).d2vdtdp (t, p) := by
    refine ((((D.const 1).div F ht.ne').add (czt.div cz hz.ne')).div
      (((D.const 1).div dv hv.ne').sub (czv.div cz hz.ne')) q0).to ?_ ?_
    · simp only [driver, ← hvd, mul_zero, zero_mul, add_zero, zero_add, mul_one, zero_sub]
      rw [r1, r2, r3, s1, s2]
      field_simp
      ring
    · simp only [driver, ← hvd, mul_zero, zero_mul, add_zero, zero_add, mul_one, zero_sub]
      rw [r1, r2, r3, s1, s2]
      field_simp
      ring
  have hgas : ∀ᶠ w in 𝓝 (t, p), (driver k w.1 w.2 (vol w)).lp
      = ((driver k w.1 w.2 (vol w)).z - 1) / w.2 := by
    have n1 : ∀ᶠ w in 𝓝 (t, p), vol w ≠ 0 := hcont.eventually_ne hv.ne'
    have n2 : ∀ᶠ w in 𝓝 (t, p), k.z w.1 (vol w) ≠ 0 :=
      (show HasFDerivAt _ _ _ from cz).continuousAt.eventually_ne hz.ne'
    have n3 : ∀ᶠ w in 𝓝 (t, p), k.zv w.1 (vol w) / k.z w.1 (vol w) - 1 / vol w ≠ 0 :=
      (show HasFDerivAt _ _ _ from (czv.div cz hz.ne').sub
        ((D.const 1).div dv hv.ne')).continuousAt.eventually_ne q1
    have n4 : ∀ᶠ w : ℝ × ℝ in 𝓝 (t, p), w.2 ≠ 0 := continuousAt_snd.eventually_ne hp.ne'
    filter_upwards [n1, n2, n3, n4] with w h1 h2 h3 h4
    simp only [driver]
    rw [lnv_eq k h1 h2]
    generalize k.zv w.1 (vol w) / k.z w.1 (vol w) - 1 / vol w = y at *
    field_simp
  refine ⟨fun w => by simp only [driver]; exact Real.exp_pos _, dv, dvt, dvp, ?_, ?_, ?_,
    ltt_diff hk hcont ht.ne' hp.ne' hv.ne' hz.ne' q1 dv, heos, hgas⟩
  · refine (cl.to ?_ ?_).congr (Eventually.of_forall fun w => by simp only [driver, Real.log_exp])
    · simp only [driver]; ring
    · simp only [driver]; ring
  · refine ((clv.mul dvt).add clt).to ?_ ?_
    · simp only [driver, ← hvd]; ring
    · simp only [driver, ← hvd]; ring
  · refine (clv.mul dvp).to ?_ ?_
    · simp only [driver, ← hvd]; ring
    · simp only [driver, ← hvd]; ring

end Verif.Thermo.Fluid
