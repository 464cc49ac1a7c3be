import Verif.Thermo.Fluid.MixOk

/-!
# C81: one residual energy behind the mixture's fugacity coefficients, and the Gibbs energy of mixing
-/

open Filter Topology

namespace Verif.Thermo.Fluid

open Verif.Thermo.Water

/-! ## The residual energy -/

/-- The molar residual Helmholtz energy over `RT`, the integral of `(z - 1)/v` from `v` to infinity
(specification; not code). -/
noncomputable def Loc.a (l : Loc) (v : ℝ) : ℝ :=
  l.b / v + l.c / 2 / v ^ 2 + l.d / 4 / v ^ 4 + l.e / 5 / v ^ 5
    + l.f / 2 / l.g * (l.be * (1 - xp l.g v) + 1 - (1 + l.g / v ^ 2) * xp l.g v)

/-- The residual Helmholtz energy over `RT` of `x` moles of H2O and `y` moles of CO2 in the volume `V`
(specification). -/
noncomputable def resid (q : Q) (x y V : ℝ) : ℝ := (x + y) * (q.mol x y).a (V / (x + y))

section

variable {X Y V : ℝ → ℝ} {x' y' w' s : ℝ} {q : Q}

lemma resid_path (hX : HasDerivAt X x' s) (hY : HasDerivAt Y y' s) (hV : HasDerivAt V w' s)
    (h1 : X s + Y s = 1) (h0 : V s ≠ 0) (hg : (q.at (X s) (Y s)).g ≠ 0) :
    HasDerivAt (fun s => resid q (X s) (Y s) (V s))
      (((q.at (X s) (Y s)).ln .h2o (V s) + Real.log ((q.at (X s) (Y s)).z (V s))) * x'
        + ((q.at (X s) (Y s)).ln .co2 (V s) + Real.log ((q.at (X s) (Y s)).z (V s))) * y'
        - ((q.at (X s) (Y s)).z (V s) - 1) / V s * w') s := by
  have hU := u_path hX hY hV h1 h0
  have hG := form_path q.g 3 hX hY h1
  have hg' : form 3 q.g (X s / (X s + Y s)) (Y s / (X s + Y s)) ≠ 0 := by simpa [h1, Q.at] using hg
  have gi := hG.inv hg'
  have hx := xp_path hG hU
  have P1 := ((((form_path q.b 2 hX hY h1).mul hU).add (((form_path q.c 3 hX hY h1).div_const 2).mul
    (hU.pow 2))).add (((form_path q.d 5 hX hY h1).div_const 4).mul (hU.pow 4))).add
    (((form_path q.e 6 hX hY h1).div_const 5).mul (hU.pow 5))
  have P2 := ((form_path q.be 1 hX hY h1).mul (hx.const_sub 1)).add
    ((((hG.mul (hU.pow 2)).const_add 1).mul hx).const_sub 1)
  have P3 := (((form_path q.f 2 hX hY h1).div_const 2).mul gi).mul P2
  have P := (hX.add hY).mul (P1.add P3)
  refine (P.congr_deriv ?_).congr_of_eventuallyEq (Eventually.of_forall fun s' => ?_)
  · simp only [Pi.add_apply, Pi.mul_apply, Pi.pow_apply, Pi.inv_apply, h1, div_one]
    simp only [Q.at] at hg
    simp only [Loc.ln, Loc.z, Q.at, xp, div_eq_mul_inv, inv_pow]
    generalize Real.exp (-form 3 q.g (X s) (Y s) * (V s ^ 2)⁻¹) = x
    generalize form 3 q.g (X s) (Y s) = G at *
    generalize hu : (V s)⁻¹ = u
    simp only [← inv_pow, hu]
    push_cast
    field_simp
    ring
  · simp only [resid, Loc.a, Q.mol, Q.at, xp, Pi.add_apply, Pi.mul_apply, Pi.pow_apply, Pi.inv_apply,
      div_eq_mul_inv, inv_pow]
    ring

/-- The residual energy is extensive. -/
lemma resid_scale (q : Q) (x y V : ℝ) {k : ℝ} (hk : k ≠ 0) : resid q (k * x) (k * y) (k * V) = k * resid q x y V := by
  have e1 : k * x / (k * x + k * y) = x / (x + y) := by rw [← mul_add, mul_div_mul_left _ _ hk]
  have e2 : k * y / (k * x + k * y) = y / (x + y) := by rw [← mul_add, mul_div_mul_left _ _ hk]
  have e3 : k * V / (k * x + k * y) = V / (x + y) := by rw [← mul_add, mul_div_mul_left _ _ hk]
  simp only [resid, Q.mol, e1, e2, e3]
  ring

/-- The mean of the logarithms of the two fugacity coefficients. -/
lemma mean_ln (q : Q) {r v : ℝ} (hv : v ≠ 0) (hg : (q.at (1 - r) r).g ≠ 0) :
    (1 - r) * (q.at (1 - r) r).ln .h2o v + r * (q.at (1 - r) r).ln .co2 v
      = (q.at (1 - r) r).a v + (q.at (1 - r) r).z v - 1 - Real.log ((q.at (1 - r) r).z v) := by
  have hX : HasDerivAt (fun s : ℝ => s * (1 - r)) (1 - r) 1 := by simpa using (hasDerivAt_id (1 : ℝ)).mul_const (1 - r)
  have hY : HasDerivAt (fun s : ℝ => s * r) r 1 := by simpa using (hasDerivAt_id (1 : ℝ)).mul_const r
  have hV : HasDerivAt (fun s : ℝ => s * v) v 1 := by simpa using (hasDerivAt_id (1 : ℝ)).mul_const v
  have h := resid_path (q := q) hX hY hV (by ring) (by simpa using hv) (by simpa using hg)
  have h2 : HasDerivAt (fun s : ℝ => resid q (s * (1 - r)) (s * r) (s * v)) (resid q (1 - r) r v) 1 := by
    have := (hasDerivAt_id (1 : ℝ)).mul_const (resid q (1 - r) r v)
    rw [one_mul] at this
    refine this.congr_of_eventuallyEq ?_
    filter_upwards [eventually_ne_nhds (one_ne_zero : (1 : ℝ) ≠ 0)] with s hs
    exact resid_scale q _ _ _ hs
  have e := h.unique h2
  simp only [one_mul] at e
  have e2 : resid q (1 - r) r v = (q.at (1 - r) r).a v := by
    simp [resid, Q.mol]
  rw [e2, div_mul_cancel₀ _ hv] at e
  linarith

end

/-- The compressibility factor is intensive. -/
lemma zn_mean (q : Q) {r v : ℝ} (hv : v ≠ 0) :
    (1 - r) * (q.at (1 - r) r).zn .h2o v + r * (q.at (1 - r) r).zn .co2 v = -(v * (q.at (1 - r) r).zv v) := by
  have hX : HasDerivAt (fun s : ℝ => s * (1 - r)) (1 - r) 1 := by simpa using (hasDerivAt_id (1 : ℝ)).mul_const (1 - r)
  have hY : HasDerivAt (fun s : ℝ => s * r) r 1 := by simpa using (hasDerivAt_id (1 : ℝ)).mul_const r
  have hV : HasDerivAt (fun s : ℝ => s * v) v 1 := by simpa using (hasDerivAt_id (1 : ℝ)).mul_const v
  have h := mix_z_path (q := q) hX hY hV (by ring) (by simpa using hv)
  have h2 : HasDerivAt (fun s : ℝ => (q.mol (s * (1 - r)) (s * r)).z (s * v / (s * (1 - r) + s * r))) 0 1 := by
    refine (hasDerivAt_const (1 : ℝ) ((q.at (1 - r) r).z v)).congr_of_eventuallyEq ?_
    filter_upwards [eventually_ne_nhds (one_ne_zero : (1 : ℝ) ≠ 0)] with s hs
    simp only [Q.mol]
    rw [show s * (1 - r) + s * r = s by ring, mul_div_cancel_left₀ _ hs, mul_div_cancel_left₀ _ hs,
      mul_div_cancel_left₀ _ hs]
  have e := h.unique h2
  simp only [one_mul] at e
  linarith

/-- The volume derivative of the fugacity coefficients: the one the residual energy requires. -/
lemma lnv_zn (l : Loc) (i : Species) {v : ℝ} (hv : v ≠ 0) :
    l.lnv i v = -l.zv v / l.z v - (l.zn i v + l.z v - 1) / v := by
  simp only [Loc.lnv, Loc.zn]
  field_simp
  ring

/-! ## The interaction volume is positive -/

lemma crt_pos {a : ℝ} (h : 0 < a) : 0 < crt a := by
  rw [crt, if_pos h.le]; positivity

lemma powSum_pos {a fa b fb : ℝ} (ha : 0 < a) (hfa : 0 < fa) (hb : 0 < b) (hfb : 0 < fb) :
    0 < powSum a fa b fb := by
  have h : 0 < fa * crt a + fb * crt b :=
    add_pos (mul_pos hfa (crt_pos ha)) (mul_pos hfb (crt_pos hb))
  simp only [powSum, if_pos h.le]
  positivity

lemma mixed_pos {n m : ℕ} {a b va vb kk : ℝ} (ha : 0 < a) (hb : 0 < b) (hva : 0 < va) (hvb : 0 < vb)
    (hk : 0 < kk) {k : ℕ} (hn : k ≤ n) : 0 < mixed n m a b va vb kk k := by
  unfold mixed
  split_ifs with h1 h2
  · positivity
  · positivity
  · have c1 : (0 : ℝ) < (n : ℝ) - k := by
      have : (k : ℝ) < n := by exact_mod_cast lt_of_le_of_ne hn h2
      linarith
    have c2 : (0 : ℝ) < k := by exact_mod_cast Nat.pos_of_ne_zero h1
    have p1 := powSum_pos ha c1 hb c2
    have p2 := powSum_pos hva c1 hvb c2
    positivity

lemma form_pos : ∀ (n : ℕ) {q : ℕ → ℝ} {x y : ℝ}, (∀ k ≤ n, 0 < q k) → 0 ≤ x → 0 ≤ y → 0 < x + y →
    0 < form n q x y
  | 0, _, _, _, h, _, _, _ => h 0 le_rfl
  | n + 1, q, x, y, h, hx, hy, hs => by
    have h1 := form_pos n (q := q) (x := x) (y := y) (fun k hk => h k (by omega)) hx hy hs
    have h2 := form_pos n (q := fun k => q (k + 1)) (x := x) (y := y) (fun k hk => h (k + 1) (by omega)) hx hy hs
    simp only [form]
    rcases hx.eq_or_lt with rfl | hx
    · have : 0 < y := by linarith
      rw [zero_mul, zero_add]; positivity
    · positivity

lemma vc_pos (s : Species) (low : Bool) : 0 < (coef s low).vc := by
  cases s <;> cases low <;> simp only [coef, Coef.vc, Rv] <;> norm_num

lemma c_pos (s : Species) (low : Bool) : 0 < (coef s low).c := by
  cases s <;> cases low <;> simp only [coef] <;> norm_num

lemma gam_pos (low : Bool) (t : ℝ) {r : ℝ} (h0 : 0 ≤ r) (h1 : r ≤ 1) : 0 < ((mixQ low t).at (1 - r) r).g :=
  form_pos 3 (fun _ hk => mixed_pos (c_pos _ _) (c_pos _ _) (vc_pos _ _) (vc_pos _ _)
    (by cases low <;> simp [k3]; norm_num) hk) (by linarith) h0 (by linarith)

/-! ## The volume of the mixture -/

lemma D.of {f : ℝ × ℝ → ℝ} {x y a b : ℝ} (h : DifferentiableAt ℝ f (x, y))
    (h1 : HasDerivAt (fun x => f (x, y)) a x) (h2 : HasDerivAt (fun y => f (x, y)) b y) : D f a b (x, y) := by
  have h0 : D f (fderiv ℝ f (x, y) (1, 0)) (fderiv ℝ f (x, y) (0, 1)) (x, y) := by
    refine h.hasFDerivAt.congr_fderiv (ContinuousLinearMap.ext fun w => ?_)
    have : w = w.1 • ((1 : ℝ), (0 : ℝ)) + w.2 • ((0 : ℝ), (1 : ℝ)) := by ext <;> simp
    conv_lhs => rw [this, map_add, map_smul, map_smul]
    simp [mul_comm]
  exact h0.to (h0.left.unique h1) (h0.right.unique h2)

section

variable {q : Q} {r v : ℝ}

lemma form_diff (q : ℕ → ℝ) (z : ℝ × ℝ) : ∀ n, DifferentiableAt ℝ (fun w : ℝ × ℝ => form n q (1 - w.1) w.1) z
  | 0 => by simp only [form]; fun_prop
  | n + 1 => by
    have h1 := form_diff q z n
    have h2 := form_diff (fun k => q (k + 1)) z n
    simp only [form]
    fun_prop

lemma form'_diff (q : ℕ → ℝ) (n : ℕ) (i : Species) (z : ℝ × ℝ) :
    DifferentiableAt ℝ (fun w : ℝ × ℝ => form' n q i (1 - w.1) w.1) z := by
  have := form_diff (shift i q) z (n - 1)
  simp only [form']
  fun_prop

lemma mix_diff (q : Q) (hv : v ≠ 0) :
    DifferentiableAt ℝ (fun w : ℝ × ℝ => (q.at (1 - w.1) w.1).z w.2) (r, v) := by
  simp only [Loc.z, xp, Q.at]
  have h1 := form_diff q.b (r, v) 2
  have h2 := form_diff q.c (r, v) 3
  have h3 := form_diff q.d (r, v) 5
  have h4 := form_diff q.e (r, v) 6
  have h5 := form_diff q.f (r, v) 2
  have h6 := form_diff q.be (r, v) 1
  have h7 := form_diff q.g (r, v) 3
  have hp : ∀ n : ℕ, v ^ n ≠ 0 := fun n => pow_ne_zero n hv
  fun_prop (disch := first | exact hp _ | exact hv)

lemma mix_ln_diff (q : Q) (i : Species) (hv : v ≠ 0) (hz : (q.at (1 - r) r).z v ≠ 0)
    (hg : (q.at (1 - r) r).g ≠ 0) :
    DifferentiableAt ℝ (fun w : ℝ × ℝ => (q.at (1 - w.1) w.1).ln i w.2) (r, v) := by
  have h0 : DifferentiableAt ℝ (fun w : ℝ × ℝ => Real.log ((q.at (1 - w.1) w.1).z w.2)) (r, v) :=
    (mix_diff q (r := r) hv).log hz
  obtain ⟨y, hy⟩ : ∃ y : ℝ × ℝ → ℝ, ∀ w : ℝ × ℝ, Real.log ((q.at (1 - w.1) w.1).z w.2) = y w := ⟨_, fun _ => rfl⟩
  simp only [hy] at h0
  simp only [Q.at] at hg
  simp only [Loc.ln, hy]
  simp only [Q.at, xp]
  have h2 := form_diff q.f (r, v) 2
  have h3 := form_diff q.be (r, v) 1
  have h4 := form_diff q.g (r, v) 3
  have d1 := form'_diff q.b 2 i (r, v)
  have d2 := form'_diff q.c 3 i (r, v)
  have d3 := form'_diff q.d 5 i (r, v)
  have d4 := form'_diff q.e 6 i (r, v)
  have d5 := form'_diff q.f 2 i (r, v)
  have d6 := form'_diff q.be 1 i (r, v)
  have d7 := form'_diff q.g 3 i (r, v)
  have hp : ∀ n : ℕ, v ^ n ≠ 0 := fun n => pow_ne_zero n hv
  fun_prop (disch := first | exact hp _ | exact hv | exact hg)

/-- The compressibility factor as a function of composition and volume. -/
lemma mix_z_D (q : Q) (hv : v ≠ 0) :
    D (fun w : ℝ × ℝ => (q.at (1 - w.1) w.1).z w.2)
      ((q.at (1 - r) r).zn .co2 v - (q.at (1 - r) r).zn .h2o v) ((q.at (1 - r) r).zv v) (r, v) := by
  have hX : HasDerivAt (fun s : ℝ => 1 - s) (-1) r := (hasDerivAt_id r).const_sub 1
  have hY := hasDerivAt_id r
  have hc := fun x : ℝ => hasDerivAt_const v x
  refine D.of (mix_diff q hv) ?_ ?_
  · have h := mix_z_path (q := q) hX hY (hasDerivAt_const r v) (by simp) hv
    refine (h.congr_deriv ?_).congr_of_eventuallyEq (Eventually.of_forall fun s => ?_)
    · simp only [id]; ring
    · simp only [id, Q.mol, sub_add_cancel, div_one]
  · have h := mix_z_path (q := q) (hc (1 - r)) (hc r) (hasDerivAt_id v) (by simp) hv
    refine (h.congr_deriv ?_).congr_of_eventuallyEq (Eventually.of_forall fun s => ?_)
    · simp only [id]; ring
    · simp only [id, Q.mol, sub_add_cancel, div_one]

/-- The fugacity coefficients as functions of composition and volume. -/
lemma mix_ln_D (q : Q) (i : Species) (hv : v ≠ 0) (hz : (q.at (1 - r) r).z v ≠ 0)
    (hg : (q.at (1 - r) r).g ≠ 0) :
    D (fun w : ℝ × ℝ => (q.at (1 - w.1) w.1).ln i w.2)
      ((q.at (1 - r) r).lnn i .co2 v - (q.at (1 - r) r).lnn i .h2o v) ((q.at (1 - r) r).lnv i v) (r, v) := by
  have hX : HasDerivAt (fun s : ℝ => 1 - s) (-1) r := (hasDerivAt_id r).const_sub 1
  have hY := hasDerivAt_id r
  have hc := fun x : ℝ => hasDerivAt_const v x
  refine D.of (mix_ln_diff q i hv hz hg) ?_ ?_
  · have h := mix_ln_path (q := q) i hX hY (hasDerivAt_const r v) (by simp) hv hz hg
    refine (h.congr_deriv ?_).congr_of_eventuallyEq (Eventually.of_forall fun s => ?_)
    · simp only [id]; ring
    · simp only [id, Q.mol, sub_add_cancel, div_one]
  · have h := mix_ln_path (q := q) i (hc (1 - r)) (hc r) (hasDerivAt_id v) (by simp) hv hz hg
    refine (h.congr_deriv ?_).congr_of_eventuallyEq (Eventually.of_forall fun s => ?_)
    · simp only [id]; ring
    · simp only [id, Q.mol, sub_add_cancel, div_one]

end

/-- `vol` solves the equation of state of the mixture near the composition `r` and the pressure `p`: the
compressibility factor at the volume is `p v / R t`, the volume is positive and continuous, and the
pressure responds to the volume. -/
structure MixSolves (low : Bool) (t : ℝ) (vol : ℝ × ℝ → ℝ) (r p : ℝ) : Prop where
  cont : ContinuousAt vol (r, p)
  pos : 0 < vol (r, p)
  eos : ∀ᶠ w in 𝓝 (r, p), ((mixQ low t).at (1 - w.1) w.1).z (vol w) * Rv * t = w.2 * vol w
  stable : ((mixQ low t).at (1 - r) r).zv (vol (r, p)) / ((mixQ low t).at (1 - r) r).z (vol (r, p))
    ≠ 1 / vol (r, p)

/-- What the driver returns is what its names say, at one composition and pressure. -/
structure MixOk (o : ℝ × ℝ → MOut) (t r p : ℝ) : Prop where
  phi : ∀ w i, 0 < (o w).phi i
  v : D (fun w => (o w).v) (Rv * t * ((o (r, p)).lp .co2 - (o (r, p)).lp .h2o)) (o (r, p)).dvdp (r, p)
  ln : ∀ i, D (fun w => Real.log ((o w).phi i)) ((o (r, p)).lr i) ((o (r, p)).lp i) (r, p)
  eos : (o (r, p)).z * Rv * t = p * (o (r, p)).v
  gas : (1 - r) * (o (r, p)).lp .h2o + r * (o (r, p)).lp .co2 = ((o (r, p)).z - 1) / p
  duhem : (1 - r) * (o (r, p)).lr .h2o + r * (o (r, p)).lr .co2 = 0

lemma mix_driver_ok {low : Bool} {t r p : ℝ} {vol : ℝ × ℝ → ℝ} (ht : 0 < t) (hp : 0 < p) (h0 : 0 ≤ r)
    (h1 : r ≤ 1) (h : MixSolves low t vol r p) :
    MixOk (fun w => mixDriver Rv (mixQ low t) t w.2 w.1 (vol w)) t r p := by
  obtain ⟨hcont, hv, heos, hst⟩ := h
  have e0 := heos.self_of_nhds
  simp only at e0
  have hg := (gam_pos low t h0 h1).ne'
  have hR : (0 : ℝ) < Rv := by norm_num [Rv]
  have hg' : ∀ᶠ s in 𝓝 r, ((mixQ low t).at (1 - s) s).g ≠ 0 := by
    have := (form_diff (mixQ low t).g (r, 0) 3).continuousAt
    have h2 : ContinuousAt (fun s : ℝ => form 3 (mixQ low t).g (1 - s) s) r :=
      ContinuousAt.comp (f := fun s : ℝ => (s, (0 : ℝ))) this (by fun_prop)
    exact h2.eventually_ne hg
  set q := mixQ low t with hq
  set v := vol (r, p) with hvd
  set l := q.at (1 - r) r with hl
  have hz : 0 < l.z v := by
    have : 0 < l.z v * (Rv * t) := by rw [← mul_assoc, e0]; positivity
    exact pos_of_mul_pos_left this (by positivity)
  have q1 : l.zv v / l.z v - 1 / v ≠ 0 := fun h => hst (by linarith)
  have dz := mix_z_D (r := r) q hv.ne'
  have dP : D (fun w : ℝ × ℝ => (q.at (1 - w.1) w.1).z w.2 * Rv * t / w.2) _ _ (r, v) :=
    ((dz.mul (D.const Rv)).mul (D.const t)).div D.snd hv.ne'
  obtain ⟨u, hu⟩ : ∃ u, u = l.zv v / l.z v - 1 / v := ⟨_, rfl⟩
  have hu0 : u ≠ 0 := hu ▸ q1
  have s1 : l.zv v = l.z v * (u + 1 / v) := by rw [hu]; field_simp; ring
  have ep : p = l.z v * Rv * t / v := by rw [e0]; field_simp
  have hvp : (mixDriver Rv q t p r v).dvdp = 1 / (p * u) := by simp only [mixDriver, ← hl, hu]
  have hlpd : (mixDriver Rv q t p r v).lp .co2 - (mixDriver Rv q t p r v).lp .h2o
      = -(l.zn .co2 v - l.zn .h2o v) / v * (1 / (p * u)) := by
    simp only [mixDriver, ← hl, lnv_zn l _ hv.ne', ← hu]; ring
  have dv : D vol (Rv * t * ((mixDriver Rv q t p r v).lp .co2 - (mixDriver Rv q t p r v).lp .h2o))
      (mixDriver Rv q t p r v).dvdp (r, p) := by
    have hh := implicit (z := (r, p)) (ρ := vol) dP ?_ hcont
      ((heos.and (hcont.eventually_ne hv.ne')).mono fun w hw => by
        rw [hw.1, mul_div_assoc, div_self hw.2, mul_one])
    · refine hh.to ?_ ?_
      · rw [hlpd]
        simp only [← hl]
        rw [s1, ep]
        field_simp
        ring_nf
        field_simp
      · rw [hvp]
        simp only [← hl]
        rw [s1, ep]
        field_simp
        ring_nf
        field_simp
    · intro h
      rw [div_eq_zero_iff] at h
      rcases h with h | h
      · have h3 : l.z v * u * (Rv * t) * v = 0 := by
          simp only [← hl] at h
          rw [s1] at h
          field_simp at h
          linear_combination h
        exact absurd h3 (by positivity)
      · exact absurd h (by positivity)
  have F : D (fun w : ℝ × ℝ => w.1) 1 0 (r, p) := D.fst
  have cl : ∀ i, D (fun w => (q.at (1 - w.1) w.1).ln i (vol w)) _ _ (r, p) := fun i =>
    (mix_ln_D q i hv.ne' hz.ne' hg).comp₂ (z := (r, p)) (x := Prod.fst) (y := vol) F dv
  have hln : ∀ i, D (fun w => Real.log ((mixDriver Rv q t w.2 w.1 (vol w)).phi i))
      ((mixDriver Rv q t p r v).lr i) ((mixDriver Rv q t p r v).lp i) (r, p) := fun i => by
    refine ((cl i).to ?_ ?_).congr (Eventually.of_forall fun w => by simp only [mixDriver, Real.log_exp])
    · simp only [mixDriver, ← hl]; ring
    · simp only [mixDriver, ← hl]; ring
  refine ⟨fun w i => Real.exp_pos _, dv, hln, e0, ?_, ?_⟩
  · have e := zn_mean q (r := r) hv.ne'
    simp only [← hl] at e
    simp only [mixDriver, ← hl, lnv_zn l _ hv.ne', ← hvd, ← hu]
    have e2 : (1 - r) * (-l.zv v / l.z v - (l.zn .h2o v + l.z v - 1) / v)
        + r * (-l.zv v / l.z v - (l.zn .co2 v + l.z v - 1) / v) = (l.z v - 1) * u := by
      have e4 : (1 - r) * (-l.zv v / l.z v - (l.zn .h2o v + l.z v - 1) / v)
          + r * (-l.zv v / l.z v - (l.zn .co2 v + l.z v - 1) / v)
          = -l.zv v / l.z v - (((1 - r) * l.zn .h2o v + r * l.zn .co2 v) + l.z v - 1) / v := by ring
      rw [e4, e, s1]
      field_simp
      ring
    have e3 : ∀ a b : ℝ, (1 - r) * (a * (1 / (p * u))) + r * (b * (1 / (p * u)))
        = ((1 - r) * a + r * b) * (1 / (p * u)) := fun a b => by ring
    rw [e3, e2]
    field_simp
  · have hX : HasDerivAt (fun s : ℝ => 1 - s) (-1) r := (hasDerivAt_id r).const_sub 1
    have hV : HasDerivAt (fun s : ℝ => vol (s, p))
      (Rv * t * ((mixDriver Rv q t p r v).lp .co2 - (mixDriver Rv q t p r v).lp .h2o)) r := dv.left
    obtain ⟨v', hv'⟩ : ∃ v', v' = Rv * t * ((mixDriver Rv q t p r v).lp .co2
      - (mixDriver Rv q t p r v).lp .h2o) := ⟨_, rfl⟩
    rw [← hv'] at hV
    have hA := resid_path (q := q) hX (hasDerivAt_id r) hV (by simp) hv.ne' (by simpa using hg)
    have hline : Tendsto (fun s : ℝ => (s, p)) (𝓝 r) (𝓝 (r, p)) :=
      (continuous_id.prodMk continuous_const).tendsto r
    have hZ : HasDerivAt (fun s : ℝ => (q.at (1 - s) s).z (vol (s, p))) (p * v' / (Rv * t)) r := by
      refine ((hV.const_mul p).div_const (Rv * t)).congr_of_eventuallyEq ?_
      filter_upwards [hline.eventually heos] with s hs
      rw [eq_div_iff (by positivity), ← mul_assoc]
      exact hs
    have hZl := hZ.log (by simpa using hz.ne')
    have hL := ((hX.mul (hln .h2o).left).add ((hasDerivAt_id r).mul (hln .co2).left))
    have hR' := (((hA.add hZ).sub_const 1).sub hZl)
    have hU := hL.unique (hR'.congr_of_eventuallyEq ?_)
    · simp only [id, mixDriver, Real.log_exp, ← hl, ← hvd] at hU
      simp only [mixDriver, ← hl, ← hvd]
      have ez : p * v' / (Rv * t) = l.z v * v' / v := by rw [ep]; field_simp
      rw [ez] at hU
      have e5 : l.z v * v' / v / l.z v = v' / v := by field_simp
      rw [e5] at hU
      linear_combination hU
    · filter_upwards [hline.eventually (hcont.eventually_ne hv.ne'), hg'] with s hs hgs
      have := mean_ln q (r := s) hs hgs
      simp only [Pi.add_apply, Pi.mul_apply, Pi.sub_apply, id, mixDriver, Real.log_exp]
      rw [this, resid]
      simp only [Q.mol, sub_add_cancel, div_one, one_mul]

end Verif.Thermo.Fluid
