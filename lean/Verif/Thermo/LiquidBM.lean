import Verif.Thermo.LiquidStd

/-!
# Standard-state properties of the liquid components in pMELTS (C63)

`sources/gibbs.c` 938-954 (water) and 1492-1594 (the Birch–Murnaghan equation of state).
The third temperature derivatives of the strain and of the volume that lines 1542-1544, 1553-1554
and 1574-1575 compute have a wrong sign in the term with `C`; the two errors cancel in the heat
capacity derivative, which is what the theorem below checks.
-/

open Filter Topology Real

namespace Verif.Thermo.StdState

/-! ## The code -/

/-- `v0` (`gibbs.c` 1496): the volume at one bar. -/
noncomputable def bmV0 (l : Liq) (t : ℝ) : ℝ := l.vl + l.dvdt * (t - trl)
/-- `dv0dp` (`gibbs.c` 1498). -/
noncomputable def bmV0p (l : Liq) (t : ℝ) : ℝ := l.dvdp + l.d2vdtp * (t - trl)
/-- `K` (`gibbs.c` 1499): the bulk modulus at one bar. -/
noncomputable def bmK (l : Liq) (t : ℝ) : ℝ := -bmV0 l t / bmV0p l t
/-- `dKdt` (`gibbs.c` 1500). -/
noncomputable def bmK1 (l : Liq) (t : ℝ) : ℝ :=
  l.d2vdtp * bmV0 l t / (bmV0p l t * bmV0p l t) - l.dvdt / bmV0p l t
/-- `d2Kdt2` (`gibbs.c` 1501). -/
noncomputable def bmK2 (l : Liq) (t : ℝ) : ℝ :=
  -2 * l.d2vdtp * l.d2vdtp * bmV0 l t / (bmV0p l t * bmV0p l t * bmV0p l t)
    + 2 * l.d2vdtp * l.dvdt / (bmV0p l t * bmV0p l t)
/-- `d3Kdt3` (`gibbs.c` 1502). -/
noncomputable def bmK3 (l : Liq) (t : ℝ) : ℝ :=
  6 * l.d2vdtp * l.d2vdtp * l.d2vdtp * bmV0 l t
    / (bmV0p l t * bmV0p l t * bmV0p l t * bmV0p l t)
    - 6 * l.d2vdtp * l.d2vdtp * l.dvdt / (bmV0p l t * bmV0p l t * bmV0p l t)
/-- `Kp` in pMELTS (`gibbs.c` 1503). -/
def kp : ℝ := 5

/-- What the Newton iteration for the volume looks for (`gibbs.c` 1510-1530): a volume below `v0` at
which the function `fn` of line 1514 vanishes.  The iteration itself is not modelled. -/
def BmRoot (v0 K p v : ℝ) : Prop := 0 < v ∧ v < v0 ∧
  (3 / 2) * K * ((v0 / v) ^ (7 / 3 : ℝ) - (v0 / v) ^ (5 / 3 : ℝ))
    * (1 - (3 / 4) * (4 - kp) * ((v0 / v) ^ (2 / 3 : ℝ) - 1)) - p = 0

/-- A volume for every one-bar volume, bulk modulus and pressure. -/
abbrev BmSolver := ℝ → ℝ → ℝ → ℝ

/-- `f` (`gibbs.c` 1532). -/
noncomputable def bmF (v0 v : ℝ) : ℝ := ((v0 / v) ^ (2 / 3 : ℝ) - 1) / 2
/-- `A` (`gibbs.c` 1533). -/
noncomputable def bmA (f : ℝ) : ℝ :=
  1 / f + 5 / (1 + 2 * f) + (3 / 2) * (kp - 4) / (1 + (3 / 2) * f * (kp - 4))
/-- `B` (`gibbs.c` 1534). -/
noncomputable def bmB (f : ℝ) : ℝ := 1 / (f * f) + 10 / ((1 + 2 * f) * (1 + 2 * f))
  + ((3 / 2) * (kp - 4) / (1 + (3 / 2) * f * (kp - 4))) ^ 2
/-- `C` (`gibbs.c` 1535). -/
noncomputable def bmC (f : ℝ) : ℝ :=
  -2 / (f * f * f) - 40 / ((1 + 2 * f) * (1 + 2 * f) * (1 + 2 * f))
  - 2 * ((3 / 2) * (kp - 4) / (1 + (3 / 2) * f * (kp - 4))) ^ 3

/-- The contribution of the Birch–Murnaghan equation of state (`gibbs.c` 1494-1594): what is added
to the thermal part of the component.  Without compressibility data, or at one bar and below, the
code reports the volume of the table and no derivatives. -/
noncomputable def bmPart (l : Liq) (W : BmSolver) (t p : ℝ) : Std :=
  if p > pr ∧ bmV0p l t ≠ 0 then
    let v0 := bmV0 l t
    let v1 := l.dvdt
    let K := bmK l t
    let K1 := bmK1 l t
    let K2 := bmK2 l t
    let K3 := bmK3 l t
    let v := W v0 K p
    let f := bmF v0 v
    let A := bmA f
    let B := bmB f
    let C := bmC f
    let D := K1 * v1 / K
    let dD := v1 * (K2 / K - K1 * K1 / (K * K))
    let E := (v1 * K1 + v0 * K2) / K
    let dE := 2 * v1 * K2 / K + v0 * K3 / K - v1 * K1 * K1 / (K * K) - v0 * K1 * K2 / (K * K)
    let F := -v0 * K1 * K1 * (A - 5 / (1 + 2 * f) + B / A) / (A * K * K)
    let dF := (-v1 * K1 * K1 - 2 * v0 * K1 * K2 + 2 * v0 * K1 * K1 * K1 / K
        + v0 * K1 * K1 * K1 * B / (A * A * K)) * (A - 5 / (1 + 2 * f) + B / A) / (A * K * K)
      - v0 * K1 * K1 * K1 * (B - 10 / ((1 + 2 * f) * (1 + 2 * f)) + C / A - B * B / (A * A))
        / (A * A * K * K * K)
    let m := (9 / 2) * K * (kp - 4) * v0 * f * f * f + (9 / 2) * K * v0 * f * f
    let dm := (27 / 2) * K * (kp - 4) * v0 * f * f + 9 * K * v0 * f
    let d2m := 27 * K * (kp - 4) * v0 * f + 9 * K * v0
    let d3m := 27 * K * (kp - 4) * v0
    let f1 := -K1 / (A * K)
    let f2 := -K2 / (A * K) + K1 * K1 / (A * K * K) + K1 * K1 * B / (A * A * A * K * K)
    let f3 := -K3 / (A * K) + 3 * K1 * K2 * (B / (A * A) + 1) / (A * K * K)
      + K1 * K1 * K1 * (C / (A * A * A) - 3 * B / (A * A) - 2 - 3 * B * B / (A * A * A * A))
        / (A * K * K * K)
    let dvldt := 3 * v0 * K1 / (A * (1 + 2 * f) ^ (5 / 2 : ℝ) * K) + v1 / (1 + 2 * f) ^ (3 / 2 : ℝ)
    let dvldp := -3 * v0 / (p * (1 + 2 * f) ^ (5 / 2 : ℝ) * A)
    let d2vldt2 := (3 / (A * (1 + 2 * f) ^ (5 / 2 : ℝ)))
      * (v1 * K1 / K + (K2 * v0 + K1 * v1) / K
        - v0 * K1 * K1 * (A - 5 / (1 + 2 * f) + B / A) / (A * K * K))
    let d2vldp2 := (3 * v0 / (p * p * (1 + 2 * f) ^ (5 / 2 : ℝ) * A * A))
      * (A - B / A + 5 / (1 + 2 * f))
    let d2vldtdp := (3 / (p * (1 + 2 * f) ^ (5 / 2 : ℝ) * A))
      * (-v1 + v0 * K1 * (B / A - 5 / (1 + 2 * f)) / (K * A))
    let g := p * v - pr * v0 + m
    let s := -(p * dvldt - pr * v1 + (m / v0) * v1 + (m / K) * K1 + dm * f1)
    let d2g := p * d2vldt2 + 2 * (m / (v0 * K)) * K1 * v1 + 2 * (dm / v0) * f1 * v1
      + 2 * (dm / K) * f1 * K1 + d2m * f1 * f1 + (m / K) * K2 + dm * f2
    let d3v := 3 * (dD + dE + dF) / (A * (1 + 2 * f) ^ (5 / 2 : ℝ))
      - 3 * (D + E + F) * K1 * (B / A - 5 / (1 + 2 * f)) / (K * A * A * (1 + 2 * f) ^ (5 / 2 : ℝ))
    let d3g := p * d3v + 3 * d2m * f1 * f1 * K1 / K + 6 * dm * v1 * f1 * K1 / (K * v0)
      + 3 * dm * f2 * K1 / K + d3m * f1 * f1 * f1 + 3 * d2m * f1 * f1 * v1 / v0
      + 3 * dm * f1 * K2 / K + 3 * d2m * f1 * f2 + 3 * m * v1 * K2 / (v0 * K)
      + 3 * dm * v1 * f2 / v0 + m * K3 / K + dm * f3
    { g := g
      h := g + t * s
      s := s
      v := v
      cp := -t * d2g
      dcpdt := -t * d3g - d2g
      dvdt := dvldt
      dvdp := dvldp
      d2vdt2 := d2vldt2
      d2vdp2 := d2vldp2
      d2vdtdp := d2vldtdp }
  else ⟨0, 0, 0, l.vl, 0, 0, 0, 0, 0, 0, 0⟩

/-- Water in pMELTS (`gibbs.c` 938-954): `w` is `fluidPhase(t, 9550, …)`, water at 9550 bar, which is
not modelled. -/
noncomputable def h2oP (w : ℝ → Std) (l : Liq) (t : ℝ) : Std :=
  let a := l.h / rgas
  let b := -l.s / rgas
  ⟨(w t).g + rgas * t * (a / t + b), (w t).h + rgas * a, (w t).s - rgas * b, 0, (w t).cp,
    (w t).dcpdt, 0, 0, 0, 0, 0⟩

/-- `gibbs()` for a liquid component in pMELTS (`gibbs.c` 871-1326, 1492-1608). -/
noncomputable def gibbsLiquidP (L : String → Liq) (V : Solver) (W : BmSolver) (w : ℝ → Std)
    (name : String) (t p : ℝ) : Std :=
  (if name = "H2O" then h2oP w (L "H2O") t else liqThermal (L name) V t) + bmPart (L name) W t p

/-! ## The strain -/

/-- The pressure over the bulk modulus as a function of the strain. -/
noncomputable def bmPhi (f : ℝ) : ℝ := 3 * f * √(1 + 2 * f) ^ 5 * (1 + 3 / 2 * f)

lemma bmA_eq (f : ℝ) : bmA f = 1 / f + 5 / (1 + 2 * f) + 3 / 2 / (1 + 3 / 2 * f) := by
  simp only [bmA, kp]; norm_num

lemma bmB_eq (f : ℝ) : bmB f = 1 / f ^ 2 + 10 / (1 + 2 * f) ^ 2 + (3 / 2 / (1 + 3 / 2 * f)) ^ 2 := by
  simp only [bmB, kp]; norm_num; ring_nf

lemma bmA_pos {f : ℝ} (hf : 0 < f) : 0 < bmA f := by rw [bmA_eq]; positivity

lemma bmPhi_deriv {f : ℝ} (hf : 0 < f) : HasStrictDerivAt bmPhi (bmPhi f * bmA f) f := by
  have h1 : HasStrictDerivAt (fun f : ℝ => √(1 + 2 * f)) (1 / √(1 + 2 * f)) f := by
    have h := (((hasStrictDerivAt_id f).const_mul 2).const_add 1).sqrt (by positivity : 1 + 2 * id f ≠ 0)
    refine h.congr_deriv ?_
    simp only [id]; field_simp
  have hw : 0 < √(1 + 2 * f) := Real.sqrt_pos.2 (by positivity)
  have hw2 : √(1 + 2 * f) ^ 2 = 1 + 2 * f := Real.sq_sqrt (by positivity)
  have h := (((hasStrictDerivAt_id f).const_mul 3).mul (h1.fun_pow 5)).mul
    (((hasStrictDerivAt_id f).const_mul (3 / 2)).const_add 1)
  refine h.congr_deriv ?_
  rw [bmA_eq]
  simp only [id, bmPhi]
  have e : 5 / (1 + 2 * f) = 5 / √(1 + 2 * f) ^ 2 := by rw [hw2]
  rw [e]
  have : (1 + 3 / 2 * f) ≠ 0 := by positivity
  field_simp
  simp only [Pi.mul_apply]
  ring

lemma bmPhi_pos {f : ℝ} (hf : 0 < f) : 0 < bmPhi f := by
  have hw : 0 < √(1 + 2 * f) := Real.sqrt_pos.2 (by positivity)
  unfold bmPhi; positivity

lemma bmPhi_mono {f g : ℝ} (hf : 0 < f) (h : f < g) : bmPhi f < bmPhi g := by
  unfold bmPhi
  have hw : 0 < √(1 + 2 * f) := Real.sqrt_pos.2 (by positivity)
  have hg : 0 < g := hf.trans h
  gcongr

lemma bmPhi_inj {f g : ℝ} (hf : 0 < f) (hg : 0 < g) (h : bmPhi f = bmPhi g) : f = g := by
  rcases lt_trichotomy f g with h1 | h1 | h1
  · exact absurd h (bmPhi_mono hf h1).ne
  · exact h1
  · exact absurd h (bmPhi_mono hg h1).ne'

/-- The volume equation in terms of the strain. -/
lemma bmRoot_strain {v0 K p v : ℝ} (hv0 : 0 < v0) (hK : 0 < K) (h : BmRoot v0 K p v) :
    0 < bmF v0 v ∧ bmPhi (bmF v0 v) = p / K ∧ v = v0 / √(1 + 2 * bmF v0 v) ^ 3 := by
  obtain ⟨hv, hlt, heq⟩ := h
  have hr : 0 < v0 / v := div_pos hv0 hv
  have hr1 : 1 < v0 / v := (one_lt_div hv).2 hlt
  obtain ⟨x, hx, hxr⟩ : ∃ x : ℝ, 1 < x ∧ v0 / v = x ^ 3 := by
    refine ⟨(v0 / v) ^ (1 / 3 : ℝ), Real.one_lt_rpow hr1 (by norm_num), ?_⟩
    rw [← Real.rpow_natCast, ← Real.rpow_mul hr.le]; norm_num
  have hx0 : 0 < x := by linarith
  have e : ∀ n : ℕ, (v0 / v) ^ ((n : ℝ) / 3) = x ^ n := by
    intro n
    rw [hxr, ← Real.rpow_natCast x 3, ← Real.rpow_mul hx0.le, ← Real.rpow_natCast x n]
    congr 1; push_cast; ring
  have e2 := e 2
  have e5 := e 5
  have e7 := e 7
  push_cast at e2 e5 e7
  rw [e2, e5, e7] at heq
  have hF : 1 + 2 * bmF v0 v = x ^ 2 := by rw [bmF, e2]; ring
  have hs : √(1 + 2 * bmF v0 v) = x := by rw [hF, Real.sqrt_sq hx0.le]
  have hf : bmF v0 v = (x ^ 2 - 1) / 2 := by linarith
  refine ⟨?_, ?_, ?_⟩
  · rw [hf]; nlinarith
  · rw [bmPhi, hs, hf, eq_div_iff hK.ne']
    simp only [kp] at heq
    linear_combination heq
  · rw [hs, ← hxr]; field_simp

/-- Implicit differentiation of the strain. -/
lemma bmImplicit {y w : ℝ → ℝ} {a w' : ℝ} (hy : ∀ᶠ s in 𝓝 a, 0 < y s ∧ bmPhi (y s) = w s)
    (hw : HasDerivAt w w' a) : HasDerivAt y (w' / (bmPhi (y a) * bmA (y a))) a := by
  obtain ⟨ha, hwa⟩ := hy.self_of_nhds
  have hF := bmPhi_deriv ha
  have hF0 : bmPhi (y a) * bmA (y a) ≠ 0 := (mul_pos (bmPhi_pos ha) (bmA_pos ha)).ne'
  have hloc := hF.to_localInverse hF0
  have hinv : ∀ᶠ u in 𝓝 (bmPhi (y a)), bmPhi (hF.localInverse _ _ _ hF0 u) = u :=
    hF.eventually_right_inverse hF0
  have hval : hF.localInverse _ _ _ hF0 (bmPhi (y a)) = y a :=
    (hF.eventually_left_inverse hF0).self_of_nhds
  have hin : ∀ᶠ u in 𝓝 (bmPhi (y a)), 0 < hF.localInverse _ _ _ hF0 u := by
    have hc := hloc.hasDerivAt.continuousAt
    exact hc.eventually (by rw [hval]; exact lt_mem_nhds ha)
  have htend : Tendsto w (𝓝 a) (𝓝 (bmPhi (y a))) := by
    rw [hwa]; exact hw.continuousAt
  have heq : ∀ᶠ s in 𝓝 a, y s = hF.localInverse _ _ _ hF0 (w s) := by
    filter_upwards [hy, htend.eventually hinv, htend.eventually hin] with s h1 h2 h3
    exact bmPhi_inj h1.1 h3 (by rw [h1.2, h2])
  have hl := hloc.hasDerivAt
  have := (hl.comp_of_eq a hw hwa).congr_of_eventuallyEq heq
  refine this.congr_deriv ?_
  field_simp

/-! ## Derivatives along the solution -/

/-- The energy over `K v0`, as a function of the strain. -/
noncomputable def bmM (f : ℝ) : ℝ := 9 / 2 * (f ^ 2 + f ^ 3)

lemma curve {y : ℝ → ℝ} {a y' : ℝ} (hy : HasDerivAt y y' a) (h0 : 0 < y a) :
    HasDerivAt (fun s => √(1 + 2 * y s)) (y' / √(1 + 2 * y a)) a ∧
    HasDerivAt (fun s => bmA (y s)) (-bmB (y a) * y') a ∧
    HasDerivAt (fun s => bmM (y s)) (9 * y a * (1 + 3 / 2 * y a) * y') a ∧
    HasDerivAt (fun s => 9 * y s * (1 + 3 / 2 * y s)) ((9 + 27 * y a) * y') a ∧
    HasDerivAt (fun s => 5 / (1 + 2 * y s)) (-(10 / (1 + 2 * y a) ^ 2) * y') a ∧
    HasDerivAt (fun s => √(1 + 2 * y s) ^ 3) (3 * √(1 + 2 * y a) * y') a ∧
    HasDerivAt (fun s => √(1 + 2 * y s) ^ 5) (5 * √(1 + 2 * y a) ^ 3 * y') a := by
  have hw : 0 < √(1 + 2 * y a) := Real.sqrt_pos.2 (by positivity)
  have hl : HasDerivAt (fun s => 1 + 2 * y s) (2 * y') a := (hy.const_mul 2).const_add 1
  have hg : HasDerivAt (fun s => 1 + 3 / 2 * y s) (3 / 2 * y') a := (hy.const_mul _).const_add 1
  have h1 : HasDerivAt (fun s => √(1 + 2 * y s)) (y' / √(1 + 2 * y a)) a := by
    refine (hl.sqrt (by positivity)).congr_deriv ?_
    field_simp
  refine ⟨h1, ?_, ?_, ?_, ?_, ?_, ?_⟩
  · simp only [bmA_eq, bmB_eq]
    have := (((hasDerivAt_const a (1:ℝ)).div hy h0.ne').add
      ((hasDerivAt_const a (5:ℝ)).div hl (by positivity))).add
      ((hasDerivAt_const a (3 / 2:ℝ)).div hg (by positivity))
    refine this.congr_deriv ?_
    have e1 : (1 + 2 * y a) ≠ 0 := by positivity
    have e2 : (1 + 3 / 2 * y a) ≠ 0 := by positivity
    field_simp
    ring
  · refine (((hy.fun_pow 2).add (hy.fun_pow 3)).const_mul (9 / 2)).congr_deriv ?_
    push_cast; ring
  · refine ((hy.const_mul 9).mul hg).congr_deriv ?_
    ring
  · refine ((hasDerivAt_const a (5:ℝ)).div hl (by positivity)).congr_deriv ?_
    field_simp; ring
  · refine (h1.fun_pow 3).congr_deriv ?_
    push_cast; field_simp
  · refine (h1.fun_pow 5).congr_deriv ?_
    push_cast; field_simp

lemma bmV0_deriv (l : Liq) (t : ℝ) : HasDerivAt (bmV0 l) l.dvdt t := by
  have := (((hasDerivAt_id t).sub_const trl).const_mul l.dvdt).const_add l.vl
  exact this.congr_deriv (by ring)

lemma bmV0p_deriv (l : Liq) (t : ℝ) : HasDerivAt (bmV0p l) l.d2vdtp t := by
  have := (((hasDerivAt_id t).sub_const trl).const_mul l.d2vdtp).const_add l.dvdp
  exact this.congr_deriv (by ring)

lemma bmK_deriv (l : Liq) {t : ℝ} (h : bmV0p l t ≠ 0) : HasDerivAt (bmK l) (bmK1 l t) t ∧
    HasDerivAt (bmK1 l) (bmK2 l t) t ∧ HasDerivAt (bmK2 l) (bmK3 l t) t := by
  have h0 := bmV0_deriv l t
  have h1 := bmV0p_deriv l t
  refine ⟨?_, ?_, ?_⟩
  · refine (h0.neg.div h1 h).congr_deriv ?_
    simp only [bmK1, Pi.neg_apply]; field_simp; ring
  · refine (((h0.const_mul l.d2vdtp).div (h1.mul h1) (mul_ne_zero h h)).sub
      ((hasDerivAt_const t l.dvdt).div h1 h)).congr_deriv ?_
    simp only [bmK2, Pi.mul_apply]; field_simp; ring
  · refine (((h0.const_mul (-2 * l.d2vdtp * l.d2vdtp)).div ((h1.mul h1).mul h1)
      (mul_ne_zero (mul_ne_zero h h) h)).add ((hasDerivAt_const t (2 * l.d2vdtp * l.dvdt)).div
      (h1.mul h1) (mul_ne_zero h h))).congr_deriv ?_
    simp only [bmK3, Pi.mul_apply]; field_simp; ring

/-- The record of the Birch–Murnaghan energy in terms of the strain `F`. -/
noncomputable def bmRec (l : Liq) (F : ℝ → ℝ → ℝ) : ℝ → ℝ → Std := ofG
  (fun t p => p * (bmV0 l t / √(1 + 2 * F t p) ^ 3) - bmV0 l t + bmK l t * bmV0 l t * bmM (F t p))
  (fun t p => p * (l.dvdt / √(1 + 2 * F t p) ^ 3) - l.dvdt
    + bmM (F t p) * (bmK l t * l.dvdt + bmK1 l t * bmV0 l t))
  (fun t p => -(9 * F t p * (1 + 3 / 2 * F t p) / bmA (F t p)) * (bmK1 l t ^ 2 * bmV0 l t / bmK l t)
    + bmM (F t p) * (2 * bmK1 l t * l.dvdt + bmK2 l t * bmV0 l t))
  (fun t p => -(((9 + 27 * F t p) * bmA (F t p) + 9 * F t p * (1 + 3 / 2 * F t p) * bmB (F t p))
      / bmA (F t p) ^ 2 * (-bmK1 l t / (bmA (F t p) * bmK l t))) * bmK1 l t ^ 2 * bmV0 l t / bmK l t
    - 9 * F t p * (1 + 3 / 2 * F t p) / bmA (F t p) * (2 * bmK1 l t * bmK2 l t * bmV0 l t / bmK l t
      + bmK1 l t ^ 2 * l.dvdt / bmK l t - bmK1 l t ^ 3 * bmV0 l t / bmK l t ^ 2)
    + 9 * F t p * (1 + 3 / 2 * F t p) * (-bmK1 l t / (bmA (F t p) * bmK l t))
      * (2 * bmK1 l t * l.dvdt + bmK2 l t * bmV0 l t)
    + bmM (F t p) * (3 * bmK2 l t * l.dvdt + bmK3 l t * bmV0 l t))
  (fun t p => bmV0 l t / √(1 + 2 * F t p) ^ 3)
  (fun t p => -3 * bmV0 l t / (p * √(1 + 2 * F t p) ^ 5 * bmA (F t p)))
  (fun t p => (3 * bmV0 l t / (p * p * √(1 + 2 * F t p) ^ 5 * bmA (F t p) * bmA (F t p)))
    * (bmA (F t p) - bmB (F t p) / bmA (F t p) + 5 / (1 + 2 * F t p)))
  (fun t p => 3 * bmV0 l t * bmK1 l t / (bmA (F t p) * √(1 + 2 * F t p) ^ 5 * bmK l t)
    + l.dvdt / √(1 + 2 * F t p) ^ 3)
  (fun t p => (3 / (bmA (F t p) * √(1 + 2 * F t p) ^ 5)) * (l.dvdt * bmK1 l t / bmK l t
    + (bmK2 l t * bmV0 l t + bmK1 l t * l.dvdt) / bmK l t
    - bmV0 l t * bmK1 l t * bmK1 l t * (bmA (F t p) - 5 / (1 + 2 * F t p)
      + bmB (F t p) / bmA (F t p)) / (bmA (F t p) * bmK l t * bmK l t)))
  (fun t p => (3 / (p * √(1 + 2 * F t p) ^ 5 * bmA (F t p))) * (-l.dvdt + bmV0 l t * bmK1 l t
    * (bmB (F t p) / bmA (F t p) - 5 / (1 + 2 * F t p)) / (bmK l t * bmA (F t p))))

lemma bmRec_consistent (l : Liq) {F : ℝ → ℝ → ℝ} {t p : ℝ} (ht : 0 < t) (hp : 0 < p)
    (hv : 0 < bmV0 l t) (hvp : bmV0p l t < 0)
    (h1 : ∀ᶠ t' in 𝓝 t, 0 < F t' p ∧ bmPhi (F t' p) = p / bmK l t')
    (h2 : ∀ᶠ p' in 𝓝 p, 0 < F t p' ∧ bmPhi (F t p') = p' / bmK l t) :
    Consistent (bmRec l F) t p := by
  have hK : 0 < bmK l t := by
    have : bmK l t = bmV0 l t / (-bmV0p l t) := by rw [bmK, neg_div, div_neg]
    rw [this]; exact div_pos hv (by linarith)
  obtain ⟨dK, dK1, dK2⟩ := bmK_deriv l hvp.ne
  have dv := bmV0_deriv l t
  obtain ⟨hf, hφ⟩ := h1.self_of_nhds
  have ft := bmImplicit h1 ((hasDerivAt_const t p).div dK hK.ne')
  have fp := bmImplicit h2 ((hasDerivAt_id p).div_const (bmK l t))
  have hA := bmA_pos hf
  rw [hφ] at ft fp
  replace ft : HasDerivAt (fun t' => F t' p) (-bmK1 l t / (bmA (F t p) * bmK l t)) t :=
    ft.congr_deriv (by field_simp; ring)
  replace fp : HasDerivAt (fun p' => F t p') (1 / (p * bmA (F t p))) p :=
    fp.congr_deriv (by field_simp)
  have hw : 0 < √(1 + 2 * F t p) := Real.sqrt_pos.2 (by positivity)
  have hw2 : √(1 + 2 * F t p) ^ 2 = 1 + 2 * F t p := Real.sq_sqrt (by positivity)
  have hpk : p = 3 * bmK l t * F t p * √(1 + 2 * F t p) ^ 5 * (1 + 3 / 2 * F t p) := by
    rw [eq_div_iff hK.ne', bmPhi] at hφ
    linear_combination -hφ
  have hg : (1 + 3 / 2 * F t p) ≠ 0 := by positivity
  have he : 5 / (1 + 2 * F t p) = 5 / √(1 + 2 * F t p) ^ 2 := by rw [hw2]
  obtain ⟨tw, tA, tM, tM1, te, tw3, tw5⟩ := curve ft hf
  obtain ⟨pw, pA, pM, pM1, pe, pw3, pw5⟩ := curve fp hf
  have hl : (1 + 2 * F t p) ≠ 0 := by positivity
  refine ofG_consistent ht ?_ ?_ ?_ ?_ ?_ ?_ ?_ ?_ ?_ ?_ ?_
  · refine (((((dv.div tw3 (by positivity)).const_mul p).sub dv).add
      ((dK.mul dv).mul tM))).congr_deriv ?_
    clear ft fp tw tA tM tM1 te tw3 tw5 pw pA pM pM1 pe pw3 pw5 h1 h2 hφ
    simp only [Pi.mul_apply, Pi.div_apply]
    generalize √(1 + 2 * F t p) = w at *
    generalize F t p = f at *
    subst hpk
    field_simp
    ring
  · refine (((hasDerivAt_id p).mul ((hasDerivAt_const p (bmV0 l t)).div pw3 (by positivity))).sub_const
      (bmV0 l t)).add (pM.const_mul (bmK l t * bmV0 l t)) |>.congr_deriv ?_
    clear ft fp tw tA tM tM1 te tw3 tw5 pw pA pM pM1 pe pw3 pw5 h1 h2 hφ
    simp only [Pi.mul_apply, Pi.div_apply, id]
    generalize √(1 + 2 * F t p) = w at *
    generalize F t p = f at *
    subst hpk
    field_simp
    ring
  · refine (((((hasDerivAt_const t l.dvdt).div tw3 (by positivity)).const_mul p).sub_const
      l.dvdt).add (tM.mul ((dK.mul_const l.dvdt).add (dK1.mul dv)))).congr_deriv ?_
    clear ft fp tw tA tM tM1 te tw3 tw5 pw pA pM pM1 pe pw3 pw5 h1 h2 hφ
    simp only [Pi.mul_apply, Pi.div_apply, Pi.add_apply]
    generalize √(1 + 2 * F t p) = w at *
    generalize F t p = f at *
    subst hpk
    field_simp
    ring
  · refine (((hasDerivAt_id p).mul ((hasDerivAt_const p l.dvdt).div pw3 (by positivity))).sub_const
      l.dvdt).add (pM.mul_const (bmK l t * l.dvdt + bmK1 l t * bmV0 l t)) |>.congr_deriv ?_
    clear ft fp tw tA tM tM1 te tw3 tw5 pw pA pM pM1 pe pw3 pw5 h1 h2 hφ
    simp only [Pi.mul_apply, Pi.div_apply, id]
    generalize √(1 + 2 * F t p) = w at *
    generalize F t p = f at *
    subst hpk
    field_simp
    ring
  · refine (((tM1.div tA hA.ne').neg.mul (((dK1.fun_pow 2).mul dv).div dK hK.ne')).add
      (tM.mul (((dK1.const_mul 2).mul_const l.dvdt).add (dK2.mul dv)))).congr_deriv ?_
    clear ft fp tw tA tM tM1 te tw3 tw5 pw pA pM pM1 pe pw3 pw5 h1 h2 hφ
    simp only [Pi.mul_apply, Pi.div_apply, Pi.add_apply, Pi.neg_apply]
    generalize √(1 + 2 * F t p) = w at *
    generalize F t p = f at *
    push_cast
    field_simp
    ring
  · refine (dv.div tw3 (by positivity)).congr_deriv ?_
    clear ft fp tw tA tM tM1 te tw3 tw5 pw pA pM pM1 pe pw3 pw5 h1 h2 hφ
    generalize √(1 + 2 * F t p) = w at *
    field_simp
    ring
  · refine ((hasDerivAt_const p (bmV0 l t)).div pw3 (by positivity)).congr_deriv ?_
    clear ft fp tw tA tM tM1 te tw3 tw5 pw pA pM pM1 pe pw3 pw5 h1 h2 hφ
    generalize √(1 + 2 * F t p) = w at *
    field_simp
    ring
  · refine ((((dv.const_mul 3).mul dK1).div ((tA.mul tw5).mul dK)
      (by simp only [Pi.mul_apply]; positivity)).add
      ((hasDerivAt_const t l.dvdt).div tw3 (by positivity))).congr_deriv ?_
    clear ft fp tw tA tM tM1 te tw3 tw5 pw pA pM pM1 pe pw3 pw5 h1 h2 hφ
    simp only [Pi.mul_apply, he]
    generalize √(1 + 2 * F t p) = w at *
    field_simp
    ring
  · refine (((hasDerivAt_const p (3 * bmV0 l t * bmK1 l t)).div ((pA.mul pw5).mul_const (bmK l t))
      (by simp only [Pi.mul_apply]; positivity)).add ((hasDerivAt_const p l.dvdt).div pw3 (by positivity))).congr_deriv ?_
    clear ft fp tw tA tM tM1 te tw3 tw5 pw pA pM pM1 pe pw3 pw5 h1 h2 hφ
    simp only [Pi.mul_apply, he]
    generalize √(1 + 2 * F t p) = w at *
    field_simp
    ring
  · refine ((hasDerivAt_const p (-3 * bmV0 l t)).div (((hasDerivAt_id p).mul pw5).mul pA)
      (by simp only [Pi.mul_apply, id]; positivity)).congr_deriv ?_
    clear ft fp tw tA tM tM1 te tw3 tw5 pw pA pM pM1 pe pw3 pw5 h1 h2 hφ
    simp only [Pi.mul_apply, he, id]
    generalize √(1 + 2 * F t p) = w at *
    field_simp
    ring
  · refine ((dv.const_mul (-3)).div ((tw5.const_mul p).mul tA)
      (by simp only [Pi.mul_apply]; positivity)).congr_deriv ?_
    clear ft fp tw tA tM tM1 te tw3 tw5 pw pA pM pM1 pe pw3 pw5 h1 h2 hφ
    simp only [Pi.mul_apply, he]
    generalize √(1 + 2 * F t p) = w at *
    field_simp
    ring

/-! ## The property -/

/-- The code's third derivative of the energy is the derivative of its second one: the errors in
`dFdt` and `d3fdt3` cancel, whatever `C` is. -/
lemma bm_third {f A e2 C K K1 K2 K3 v0 v1 w5 g : ℝ} (hf : f ≠ 0) (hA : A ≠ 0) (hK : K ≠ 0)
    (hv : v0 ≠ 0) (hw : w5 ≠ 0) (hg : g ≠ 0) (hg' : g = 1 + 3 / 2 * f) :
    let e := A - 1 / f - 3 / 2 / g
    let B := 1 / f ^ 2 + e2 + (3 / 2 / g) ^ 2
    let p := 3 * K * f * w5 * g
    let m := 9 / 2 * K * v0 * f * f * f + 9 / 2 * K * v0 * f * f
    let dm := 27 / 2 * K * v0 * f * f + 9 * K * v0 * f
    let d2m := 27 * K * v0 * f + 9 * K * v0
    let d3m := 27 * K * v0
    let f1 := -K1 / (A * K)
    let f2 := -K2 / (A * K) + K1 * K1 / (A * K * K) + K1 * K1 * B / (A * A * A * K * K)
    let f3 := -K3 / (A * K) + 3 * K1 * K2 * (B / (A * A) + 1) / (A * K * K)
      + K1 * K1 * K1 * (C / (A * A * A) - 3 * B / (A * A) - 2 - 3 * B * B / (A * A * A * A))
        / (A * K * K * K)
    let D := K1 * v1 / K
    let dD := v1 * (K2 / K - K1 * K1 / (K * K))
    let E := (v1 * K1 + v0 * K2) / K
    let dE := 2 * v1 * K2 / K + v0 * K3 / K - v1 * K1 * K1 / (K * K) - v0 * K1 * K2 / (K * K)
    let F := -v0 * K1 * K1 * (A - e + B / A) / (A * K * K)
    let dF := (-v1 * K1 * K1 - 2 * v0 * K1 * K2 + 2 * v0 * K1 * K1 * K1 / K
        + v0 * K1 * K1 * K1 * B / (A * A * K)) * (A - e + B / A) / (A * K * K)
      - v0 * K1 * K1 * K1 * (B - e2 + C / A - B * B / (A * A)) / (A * A * K * K * K)
    let d3v := 3 * (dD + dE + dF) / (A * w5) - 3 * (D + E + F) * K1 * (B / A - e) / (K * A * A * w5)
    p * d3v + 3 * d2m * f1 * f1 * K1 / K + 6 * dm * v1 * f1 * K1 / (K * v0)
      + 3 * dm * f2 * K1 / K + d3m * f1 * f1 * f1 + 3 * d2m * f1 * f1 * v1 / v0
      + 3 * dm * f1 * K2 / K + 3 * d2m * f1 * f2 + 3 * m * v1 * K2 / (v0 * K)
      + 3 * dm * v1 * f2 / v0 + m * K3 / K + dm * f3 =
    -(((9 + 27 * f) * A + 9 * f * g * B) / A ^ 2 * (-K1 / (A * K))) * K1 ^ 2 * v0 / K
      - 9 * f * g / A * (2 * K1 * K2 * v0 / K + K1 ^ 2 * v1 / K - K1 ^ 3 * v0 / K ^ 2)
      + 9 * f * g * (-K1 / (A * K)) * (2 * K1 * v1 + K2 * v0)
      + 9 / 2 * (f ^ 2 + f ^ 3) * (3 * K2 * v1 + K3 * v0) := by
  dsimp only
  field_simp
  subst hg'
  ring

lemma bmPart_eq (l : Liq) (W : BmSolver) {t p : ℝ} (hp : 1 < p) (hv : 0 < bmV0 l t)
    (hvp : bmV0p l t < 0) (h : BmRoot (bmV0 l t) (bmK l t) p (W (bmV0 l t) (bmK l t) p)) :
    bmPart l W t p = bmRec l (fun t p => bmF (bmV0 l t) (W (bmV0 l t) (bmK l t) p)) t p := by
  have hK : 0 < bmK l t := by
    have : bmK l t = bmV0 l t / (-bmV0p l t) := by rw [bmK, neg_div, div_neg]
    rw [this]; exact div_pos hv (by linarith)
  obtain ⟨hf, hφ, hval⟩ := bmRoot_strain hv hK h
  have hA := bmA_pos hf
  simp only [bmPart, pr, gt_iff_lt, hp, ne_eq, hvp.ne, not_false_eq_true, and_self, if_true, bmRec,
    ofG]
  generalize W (bmV0 l t) (bmK l t) p = v at *
  generalize bmF (bmV0 l t) v = f at *
  have hw : 0 < √(1 + 2 * f) := Real.sqrt_pos.2 (by positivity)
  have hw2 : √(1 + 2 * f) ^ 2 = 1 + 2 * f := Real.sq_sqrt (by positivity)
  have hl : 0 < 1 + 2 * f := by positivity
  have e3 : (1 + 2 * f) ^ (3 / 2 : ℝ) = √(1 + 2 * f) ^ 3 := by
    rw [rpow15 hl]; nlinarith
  have e5 : (1 + 2 * f) ^ (5 / 2 : ℝ) = √(1 + 2 * f) ^ 5 := by
    have e4 : (1 + 2 * f) ^ 2 = √(1 + 2 * f) ^ 4 := by
      calc (1 + 2 * f) ^ 2 = (√(1 + 2 * f) ^ 2) ^ 2 := by rw [hw2]
        _ = _ := by ring
    rw [rpow25 hl, e4]; ring
  have hpk : p = 3 * bmK l t * f * √(1 + 2 * f) ^ 5 * (1 + 3 / 2 * f) := by
    rw [eq_div_iff hK.ne', bmPhi] at hφ
    linear_combination -hφ
  have hg : 0 < 1 + 3 / 2 * f := by positivity
  have he : 5 / (1 + 2 * f) = bmA f - 1 / f - 3 / 2 / (1 + 3 / 2 * f) := by rw [bmA_eq]; ring
  have third := bm_third (e2 := 10 / (1 + 2 * f) ^ 2) (C := bmC f) (K1 := bmK1 l t) (K2 := bmK2 l t)
    (K3 := bmK3 l t) (v1 := l.dvdt) (w5 := √(1 + 2 * f) ^ 5) hf.ne' hA.ne' hK.ne' hv.ne'
    (by positivity) hg.ne' rfl
  dsimp only at third
  have hB : bmB f = 1 / f ^ 2 + 10 / (1 + 2 * f) ^ 2 + (3 / 2 / (1 + 3 / 2 * f)) ^ 2 := bmB_eq f
  have e10 : 10 / ((1 + 2 * f) * (1 + 2 * f)) = 10 / (1 + 2 * f) ^ 2 := by rw [sq]
  have hk : kp - 4 = 1 := by norm_num [kp]
  have hM : bmM f = 9 / 2 * (f ^ 2 + f ^ 3) := rfl
  rw [← hB, ← he, ← hpk] at third
  simp only [e3, e5, e10, hk, mul_one, one_mul]
  have hg' : (9 : ℝ) / 2 * bmK l t * bmV0 l t * f * f * f + 9 / 2 * bmK l t * bmV0 l t * f * f
      = bmK l t * bmV0 l t * bmM f := by rw [hM]; ring
  have hs : p * (3 * bmV0 l t * bmK1 l t / (bmA f * √(1 + 2 * f) ^ 5 * bmK l t)
        + l.dvdt / √(1 + 2 * f) ^ 3) - l.dvdt
        + bmK l t * bmV0 l t * bmM f / bmV0 l t * l.dvdt
        + bmK l t * bmV0 l t * bmM f / bmK l t * bmK1 l t
        + (27 / 2 * bmK l t * bmV0 l t * f * f + 9 * bmK l t * bmV0 l t * f)
          * (-bmK1 l t / (bmA f * bmK l t))
      = p * (l.dvdt / √(1 + 2 * f) ^ 3) - l.dvdt
        + bmM f * (bmK l t * l.dvdt + bmK1 l t * bmV0 l t) := by
    clear third he hB e10 e3 e5 hw2 hval hφ h
    generalize √(1 + 2 * f) = w at *
    subst hpk
    field_simp
    ring
  have hc : p * (3 / (bmA f * √(1 + 2 * f) ^ 5) * (l.dvdt * bmK1 l t / bmK l t
        + (bmK2 l t * bmV0 l t + bmK1 l t * l.dvdt) / bmK l t
        - bmV0 l t * bmK1 l t * bmK1 l t * (bmA f - 5 / (1 + 2 * f) + bmB f / bmA f)
          / (bmA f * bmK l t * bmK l t)))
        + 2 * (bmK l t * bmV0 l t * bmM f / (bmV0 l t * bmK l t)) * bmK1 l t * l.dvdt
        + 2 * ((27 / 2 * bmK l t * bmV0 l t * f * f + 9 * bmK l t * bmV0 l t * f) / bmV0 l t)
          * (-bmK1 l t / (bmA f * bmK l t)) * l.dvdt
        + 2 * ((27 / 2 * bmK l t * bmV0 l t * f * f + 9 * bmK l t * bmV0 l t * f) / bmK l t)
          * (-bmK1 l t / (bmA f * bmK l t)) * bmK1 l t
        + (27 * bmK l t * bmV0 l t * f + 9 * bmK l t * bmV0 l t)
          * (-bmK1 l t / (bmA f * bmK l t)) * (-bmK1 l t / (bmA f * bmK l t))
        + bmK l t * bmV0 l t * bmM f / bmK l t * bmK2 l t
        + (27 / 2 * bmK l t * bmV0 l t * f * f + 9 * bmK l t * bmV0 l t * f)
          * (-bmK2 l t / (bmA f * bmK l t) + bmK1 l t * bmK1 l t / (bmA f * bmK l t * bmK l t)
            + bmK1 l t * bmK1 l t * bmB f / (bmA f * bmA f * bmA f * bmK l t * bmK l t))
      = -(9 * f * (1 + 3 / 2 * f) / bmA f) * (bmK1 l t ^ 2 * bmV0 l t / bmK l t)
        + bmM f * (2 * bmK1 l t * l.dvdt + bmK2 l t * bmV0 l t) := by
    rw [he]
    clear third he hB e10 e3 e5 hw2 hval hφ h hs
    generalize √(1 + 2 * f) = w at *
    generalize bmM f = m at *
    generalize bmB f = B at *
    generalize bmA f = A at *
    obtain ⟨g, hgg⟩ : ∃ g, g = 1 + 3 / 2 * f := ⟨_, rfl⟩
    rw [← hgg] at hpk hg ⊢
    subst hpk
    field_simp
    subst hgg
    ring
  rw [hg', ← hM] at third
  rw [hg', hs, hc, third, hval]
  ext <;> ring

/-- A solver that finds the volume at every pressure above one bar. -/
def BmOk (W : BmSolver) : Prop :=
  ∀ v0 K p, 0 < v0 → 0 < K → pr < p → BmRoot v0 K p (W v0 K p)

/-- **The volume equation has exactly one solution** below the one-bar volume, for every positive
one-bar volume, bulk modulus and pressure. -/
theorem C63_volume_unique {v0 K p : ℝ} (hv0 : 0 < v0) (hK : 0 < K) (hp : 0 < p) :
    ∃! v, BmRoot v0 K p v := by
  have hc : Continuous bmPhi := by unfold bmPhi; fun_prop
  obtain ⟨f, ⟨hf0, -⟩, hf⟩ : p / K ∈ bmPhi '' Set.Icc 0 (p / K) := by
    refine intermediate_value_Icc (by positivity) hc.continuousOn ⟨?_, ?_⟩
    · simp only [bmPhi]; norm_num; positivity
    · have hq : 0 < p / K := by positivity
      have h1 : 1 ≤ √(1 + 2 * (p / K)) := Real.one_le_sqrt.2 (by linarith)
      have h5 : 1 ≤ √(1 + 2 * (p / K)) ^ 5 := one_le_pow₀ h1
      have h6 : 1 ≤ 1 + 3 / 2 * (p / K) := by linarith
      unfold bmPhi
      nlinarith [mul_nonneg (mul_nonneg hq.le (sub_nonneg.2 h5)) (by linarith : (0:ℝ) ≤ 1 + 3 / 2 * (p / K)),
        mul_pos hq hq]
  have hfp : 0 < f := by
    rcases hf0.eq_or_lt with h | h
    · subst h
      have : 0 < p / K := by positivity
      norm_num [bmPhi] at hf; rw [← hf] at this; exact absurd this (lt_irrefl _)
    · exact h
  refine ⟨v0 / √(1 + 2 * f) ^ 3, ?_, ?_⟩
  · have hx : 1 < √(1 + 2 * f) := by
      rw [Real.lt_sqrt (by norm_num)]; linarith
    have hx2 : √(1 + 2 * f) ^ 2 = 1 + 2 * f := Real.sq_sqrt (by positivity)
    unfold bmPhi at hf
    generalize √(1 + 2 * f) = x at *
    have hx0 : 0 < x := by linarith
    have hr : v0 / (v0 / x ^ 3) = x ^ 3 := by field_simp
    have e : ∀ n : ℕ, (x ^ 3) ^ ((n : ℝ) / 3) = x ^ n := by
      intro n
      rw [← Real.rpow_natCast x 3, ← Real.rpow_mul hx0.le, ← Real.rpow_natCast x n]
      congr 1; push_cast; ring
    have e2 := e 2
    have e5 := e 5
    have e7 := e 7
    push_cast at e2 e5 e7
    refine ⟨by positivity, ?_, ?_⟩
    · rw [div_lt_iff₀ (by positivity)]
      have : 1 < x ^ 3 := one_lt_pow₀ hx (by norm_num)
      nlinarith
    · rw [hr, e2, e5, e7]
      rw [eq_div_iff hK.ne'] at hf
      have hfx : f = (x ^ 2 - 1) / 2 := by linarith
      rw [hfx] at hf
      simp only [kp]
      linear_combination hf
  · intro v hv
    obtain ⟨h1, h2, h3⟩ := bmRoot_strain hv0 hK hv
    have := bmPhi_inj h1 hfp (by rw [h2, hf])
    rw [h3, this]

lemma bm_consistent (l : Liq) {W : BmSolver} {t p : ℝ} (ht : 0 < t) (hp : pr < p)
    (hv : 0 < bmV0 l t) (hvp : bmV0p l t < 0) (hW : BmOk W) : Consistent (bmPart l W) t p := by
  have hp1 : 1 < p := hp
  have hK : ∀ t, 0 < bmV0 l t → bmV0p l t < 0 → 0 < bmK l t := by
    intro t hv hvp
    have : bmK l t = bmV0 l t / (-bmV0p l t) := by rw [bmK, neg_div, div_neg]
    rw [this]; exact div_pos hv (by linarith)
  have hv' : ∀ᶠ t' in 𝓝 t, 0 < bmV0 l t' :=
    (bmV0_deriv l t).continuousAt.eventually (lt_mem_nhds hv)
  have hvp' : ∀ᶠ t' in 𝓝 t, bmV0p l t' < 0 :=
    (bmV0p_deriv l t).continuousAt.eventually (gt_mem_nhds hvp)
  have hp' : ∀ᶠ p' in 𝓝 p, 1 < p' := lt_mem_nhds hp1
  refine (bmRec_consistent l (F := fun t p => bmF (bmV0 l t) (W (bmV0 l t) (bmK l t) p)) ht
    (by linarith) hv hvp ?_ ?_).congr ?_ ?_
  · filter_upwards [hv', hvp'] with t' h1 h2
    have := bmRoot_strain h1 (hK _ h1 h2) (hW _ _ _ h1 (hK _ h1 h2) hp)
    exact ⟨this.1, this.2.1⟩
  · filter_upwards [hp'] with p' h1
    have := bmRoot_strain hv (hK _ hv hvp) (hW _ _ _ hv (hK _ hv hvp) h1)
    exact ⟨this.1, this.2.1⟩
  · filter_upwards [hv', hvp'] with t' h1 h2
    exact bmPart_eq l W hp1 h1 h2 (hW _ _ _ h1 (hK _ h1 h2) hp)
  · filter_upwards [hp'] with p' h1
    exact bmPart_eq l W h1 hv hvp (hW _ _ _ hv (hK _ hv hvp) h1)

lemma h2oP_consistent {w : ℝ → Std} (l : Liq) {t : ℝ} (p : ℝ) (ht : 0 < t) (hw : Thermal w t) :
    Consistent (fun t _ => h2oP w l t) t p := by
  refine ((thermal_consistent ht hw).add (shift_consistent l.h l.s ht)).congr ?_ ?_
  · filter_upwards [lt_mem_nhds ht] with t' h'
    have hr : rgas ≠ 0 := by norm_num [rgas]
    simp only [h2oP, std_add, shift, Std.mk.injEq]
    refine ⟨?_, ?_, ?_, ?_, ?_, ?_, ?_, ?_, ?_, ?_, ?_⟩ <;> (try field_simp) <;> ring
  · refine Eventually.of_forall fun _ => ?_
    have hr : rgas ≠ 0 := by norm_num [rgas]
    simp only [h2oP, std_add, shift, Std.mk.injEq]
    refine ⟨?_, ?_, ?_, ?_, ?_, ?_, ?_, ?_, ?_, ?_, ?_⟩ <;> (try field_simp) <;> ring

lemma thermalP_consistent (L : String → Liq) (V : Solver) (w : ℝ → Std) (name : String) {t : ℝ}
    (p : ℝ) (ht : 0 < t) (hf : name ≠ "H2O" → (L name).tfus ≠ 0)
    (hs : name ≠ "H2O" → (L name).NotAtGlass t) (hw : Thermal w t) :
    Consistent (fun t _ => if name = "H2O" then h2oP w (L "H2O") t else liqThermal (L name) V t)
      t p := by
  by_cases h : name = "H2O"
  · simp only [h, if_true]; exact h2oP_consistent _ p ht hw
  · simp only [h, if_false]; exact liq_consistent _ V p ht (hf h) (hs h)

/-- **C63**, pMELTS: above one bar and with a positive one-bar volume and compressibility, every
liquid component reports consistent properties: the entropy, volume, heat capacity and the
derivatives of the volume are the derivatives of the Gibbs energy, up to the third order.  `w` is
the table of water at 9550 bar, `W` the volume solver. -/
theorem C63_liquid_pMELTS (L : String → Liq) (V : Solver) (W : BmSolver) (w : ℝ → Std)
    (name : String) {t p : ℝ} (ht : 0 < t) (hp : pr < p) (hv : 0 < bmV0 (L name) t)
    (hvp : bmV0p (L name) t < 0) (hW : BmOk W) (hf : name ≠ "H2O" → (L name).tfus ≠ 0)
    (hs : name ≠ "H2O" → (L name).NotAtGlass t) (hw : Thermal w t) :
    Consistent (gibbsLiquidP L V W w name) t p :=
  (thermalP_consistent L V w name p ht hf hs hw).add (bm_consistent (L name) ht hp hv hvp hW)

/-- **C63**, pMELTS, *a defect*: below one bar, or without compressibility data at any pressure, the
Gibbs energy of a component does not depend on the pressure, but the reported volume is that of the
table.  Everything else is consistent. -/
theorem C63_no_pressure_term (L : String → Liq) (V : Solver) (W : BmSolver) (w : ℝ → Std)
    (name : String) {t p : ℝ} (ht : 0 < t)
    (hp : p < pr ∨ (L name).dvdp = 0 ∧ (L name).d2vdtp = 0)
    (hf : name ≠ "H2O" → (L name).tfus ≠ 0) (hs : name ≠ "H2O" → (L name).NotAtGlass t)
    (hw : Thermal w t) :
    (gibbsLiquidP L V W w name t p).v = (L name).vl ∧
    HasDerivAt (fun p' => (gibbsLiquidP L V W w name t p').g) 0 p ∧
    Consistent (fun t p => (gibbsLiquidP L V W w name t p).lessV (L name).vl) t p := by
  have hb : ∀ p', (p' < pr ∨ (L name).dvdp = 0 ∧ (L name).d2vdtp = 0) → ∀ t',
      bmPart (L name) W t' p' = ⟨0, 0, 0, (L name).vl, 0, 0, 0, 0, 0, 0, 0⟩ := by
    intro p' h t'
    rw [bmPart, if_neg]
    rintro ⟨h1, h2⟩
    rcases h with h | ⟨h3, h4⟩
    · exact absurd h1 (not_lt.2 h.le)
    · exact h2 (by rw [bmV0p, h3, h4]; ring)
  have hp' : ∀ᶠ p' in 𝓝 p, p' < pr ∨ (L name).dvdp = 0 ∧ (L name).d2vdtp = 0 := by
    rcases hp with h | h
    · filter_upwards [gt_mem_nhds h] with p' h' using Or.inl h'
    · exact Eventually.of_forall fun _ => Or.inr h
  have hT := thermalP_consistent L V w name p ht hf hs hw
  have hC : Consistent (fun t p => (gibbsLiquidP L V W w name t p).lessV (L name).vl) t p := by
    refine hT.congr (Eventually.of_forall fun t' => ?_) ?_
    · simp only [gibbsLiquidP, hb p hp t', std_add, Std.lessV]
      simp only [add_zero, add_sub_cancel_right]
    · filter_upwards [hp'] with p' h'
      simp only [gibbsLiquidP, hb p' h' t, std_add, Std.lessV]
      simp only [add_zero, add_sub_cancel_right]
  have hv0 : (if name = "H2O" then h2oP w (L "H2O") t else liqThermal (L name) V t).v = 0 := by
    split
    · rfl
    · unfold liqThermal; dsimp only; split
      · rfl
      · split <;> rfl
  have hv : (gibbsLiquidP L V W w name t p).v = (L name).vl := by
    simp only [gibbsLiquidP, hb p hp t, std_add, hv0, zero_add]
  refine ⟨hv, ?_, hC⟩
  have := hC.volume
  simpa only [Std.lessV, hv, sub_self] using this

/-- Row "TiO2" of `pMeltsLiquid` (`liq_struct_data.h` 1241-1255, `corrH02`). -/
noncomputable def tio2P : Liq := { tio2 with h := -944750 - 16940.793 }

example (V : Solver) : ∃ W, BmOk W ∧
    Consistent (gibbsLiquidP (fun _ => tio2P) V W cp30 "TiO2") 1700 10000 ∧
    Consistent (gibbsLiquidP (fun _ => tio2P) V W cp30 "H2O") 1700 10000 ∧
    (gibbsLiquidP (fun _ => tio2P) V W cp30 "TiO2" 1700 0.5).v = 2.316 := by
  classical
  let W : BmSolver := fun v0 K p => if h : ∃ v, BmRoot v0 K p v then h.choose else 0
  have hW : BmOk W := by
    intro v0 K p h1 h2 h3
    have hp : (0:ℝ) < p := lt_trans (by norm_num [pr]) h3
    have h := (C63_volume_unique h1 h2 hp).exists
    simp only [W, dif_pos h]
    exact h.choose_spec
  have hng : tio2P.NotAtGlass 1700 :=
    ⟨by norm_num [tio2P, tio2], fun h => by norm_num [tio2P, tio2] at h⟩
  have hf : tio2P.tfus ≠ 0 := by norm_num [tio2P, tio2]
  have ht : (0:ℝ) < 1700 := by norm_num
  have hv : 0 < bmV0 tio2P 1700 := by norm_num [bmV0, tio2P, tio2, trl]
  have hvp : bmV0p tio2P 1700 < 0 := by norm_num [bmV0p, tio2P, tio2, trl]
  refine ⟨W, hW, C63_liquid_pMELTS _ V W cp30 _ ht (by norm_num [pr]) hv hvp hW (fun _ => hf)
      (fun _ => hng) (cp30_thermal ht), C63_liquid_pMELTS _ V W cp30 _ ht (by norm_num [pr]) hv hvp
      hW (fun _ => hf) (fun _ => hng) (cp30_thermal ht), ?_⟩
  exact (C63_no_pressure_term _ V W cp30 "TiO2" ht (Or.inl (by norm_num [pr])) (fun _ => hf)
    (fun _ => hng) (cp30_thermal ht)).1

end Verif.Thermo.StdState
