import Verif.Thermo.Fluid.Duan

/-!
# The derivatives written out in the drivers

Each derivative that `sources/fluidPhase.c` writes out for the compressibility factor and for the
logarithm of the fugacity coefficient is the derivative of what it says.
-/

open Filter Topology

namespace Verif.Thermo.Fluid

open Verif.Thermo.Water

lemma d_inv (n : ℕ) {v : ℝ} (hv : v ≠ 0) : HasDerivAt (fun v : ℝ => 1 / v ^ n) (-n / v ^ (n + 1)) v := by
  have h := (hasDerivAt_pow n v).inv (pow_ne_zero n hv)
  refine (h.congr_deriv ?_).congr_of_eventuallyEq (Eventually.of_forall fun w => by simp [one_div])
  rcases n with _ | n
  · simp
  · simp only [Nat.add_sub_cancel]
    field_simp
    ring

lemma d_tau (n : ℕ) {t tc : ℝ} (ht : t ≠ 0) (hc : tc ≠ 0) :
    HasDerivAt (fun t : ℝ => 1 / (t / tc) ^ n) (-n * (1 / tc) / (t / tc) ^ (n + 1)) t := by
  have h0 : HasDerivAt (fun t : ℝ => t / tc) (1 / tc) t := (hasDerivAt_id t).div_const tc
  have h1 : HasDerivAt (fun v : ℝ => 1 / v ^ n) (-n / (t / tc) ^ (n + 1)) ((fun t : ℝ => t / tc) t) :=
    d_inv n (div_ne_zero ht hc)
  refine (h1.comp t h0).congr_deriv ?_
  ring

lemma inv_d (x y w : ℝ) {t tc : ℝ} (ht : t ≠ 0) (hc : tc ≠ 0) :
    HasDerivAt (fun t => (inv x y w tc t).x) (inv x y w tc t).d t := by
  have h := ((hasDerivAt_const t x).add ((d_tau 2 ht hc).const_mul y)).add ((d_tau 3 ht hc).const_mul w)
  refine (h.congr_deriv ?_).congr_of_eventuallyEq (Eventually.of_forall fun w => ?_)
  · simp only [inv]; push_cast; ring
  · simp only [inv, Pi.add_apply]; ring

lemma inv_dd (x y w : ℝ) {t tc : ℝ} (ht : t ≠ 0) (hc : tc ≠ 0) :
    HasDerivAt (fun t => (inv x y w tc t).d) (inv x y w tc t).dd t := by
  have h := ((d_tau 3 ht hc).const_mul (-2 * y * (1 / tc))).add
    ((d_tau 4 ht hc).const_mul (-3 * w * (1 / tc)))
  refine (h.congr_deriv ?_).congr_of_eventuallyEq (Eventually.of_forall fun w => ?_)
  · simp only [inv]; push_cast; ring
  · simp only [inv, Pi.add_apply]; ring

/-- A coefficient with its two derivatives. -/
structure T2Ok (f : ℝ → T2) (t : ℝ) : Prop where
  x : HasDerivAt (fun t => (f t).x) (f t).d t
  d : HasDerivAt (fun t => (f t).d) (f t).dd t
  dd : DifferentiableAt ℝ (fun t => (f t).dd) t

lemma inv_ok (x y w c : ℝ) {t tc : ℝ} (ht : t ≠ 0) (hc : tc ≠ 0) :
    T2Ok (fun t => (inv x y w tc t).scale c) t where
  x := (inv_d x y w ht hc).mul_const c
  d := (inv_dd x y w ht hc).mul_const c
  dd := by
    have h := (((d_tau 4 ht hc).const_mul (6 * y * (1 / tc) * (1 / tc))).add
      ((d_tau 5 ht hc).const_mul (12 * w * (1 / tc) * (1 / tc)))).mul_const c
    refine (h.congr_of_eventuallyEq (Eventually.of_forall fun w => ?_)).differentiableAt
    simp only [inv, T2.scale, Pi.add_apply]; ring

variable {k : Coef} {t v : ℝ}

lemma ex_d (k : Coef) (hv : v ≠ 0) : HasDerivAt k.ex (2 * k.gam / v ^ 3 * k.ex v) v := by
  have h := ((d_inv 2 hv).const_mul (-k.gam)).exp
  refine (h.congr_deriv ?_).congr_of_eventuallyEq (Eventually.of_forall fun w => ?_)
  · simp only [Coef.ex]; push_cast
    rw [show -k.gam * (1 / v ^ 2) = -k.gam / v ^ 2 by ring]; ring
  · simp only [Coef.ex]; congr 1; ring

/-- A linear form in five coefficients that depend on temperature. -/
lemma lin {b c d e f q1 q2 q3 q4 q5 : ℝ → ℝ} {b' c' d' e' f' r1 r2 r3 r4 r5 : ℝ}
    (hb : HasDerivAt b b' t) (hc : HasDerivAt c c' t) (hd : HasDerivAt d d' t) (he : HasDerivAt e e' t)
    (hf : HasDerivAt f f' t) (h1 : HasDerivAt q1 r1 v) (h2 : HasDerivAt q2 r2 v) (h3 : HasDerivAt q3 r3 v)
    (h4 : HasDerivAt q4 r4 v) (h5 : HasDerivAt q5 r5 v) :
    D (fun z : ℝ × ℝ => b z.1 * q1 z.2 + c z.1 * q2 z.2 + d z.1 * q3 z.2 + e z.1 * q4 z.2 + f z.1 * q5 z.2)
      (b' * q1 v + c' * q2 v + d' * q3 v + e' * q4 v + f' * q5 v)
      (b t * r1 + c t * r2 + d t * r3 + e t * r4 + f t * r5) (t, v) := by
  have F : D (fun z : ℝ × ℝ => z.1) 1 0 (t, v) := D.fst
  have S : D (fun z : ℝ × ℝ => z.2) 0 1 (t, v) := D.snd
  exact ((((((D.comp hb F).mul (D.comp h1 S)).add ((D.comp hc F).mul (D.comp h2 S))).add
    ((D.comp hd F).mul (D.comp h3 S))).add ((D.comp he F).mul (D.comp h4 S))).add
    ((D.comp hf F).mul (D.comp h5 S))).to (by ring) (by ring)

/-- The part of the compressibility factor that is linear in the coefficients; not code. -/
noncomputable def Coef.zTail (k : Coef) (b c d e f v : ℝ) : ℝ :=
  b / v + c / v ^ 2 + d / v ^ 4 + e / v ^ 5 + f / v ^ 2 * (k.b + k.gam / v ^ 2) * k.ex v

/-- Its derivative. -/
noncomputable def Coef.zTailV (k : Coef) (b c d e f v : ℝ) : ℝ :=
  -b / v ^ 2 - 2 * c / v ^ 3 - 4 * d / v ^ 5 - 5 * e / v ^ 6
    - 2 * (f / v ^ 3) * (k.b + k.gam / v ^ 2) * k.ex v
    - 2 * (f / v ^ 2) * (k.gam / v ^ 3) * k.ex v
    + 2 * (f / v ^ 2) * (k.b + k.gam / v ^ 2) * (k.gam / v ^ 3) * k.ex v

/-- Its second derivative. -/
noncomputable def Coef.zTailVV (k : Coef) (b c d e f v : ℝ) : ℝ :=
  2 * b / v ^ 3 + 6 * c / v ^ 4 + 20 * d / v ^ 6 + 30 * e / v ^ 7
    + 6 * (f / v ^ 4) * (k.b + k.gam / v ^ 2) * k.ex v
    + 14 * (f / v ^ 3) * (k.gam / v ^ 3) * k.ex v
    - 14 * (f / v ^ 3) * (k.gam / v ^ 3) * (k.b + k.gam / v ^ 2) * k.ex v
    - 8 * (f / v ^ 2) * (k.gam / v ^ 3) * (k.gam / v ^ 3) * k.ex v
    + 4 * (f / v ^ 2) * (k.gam / v ^ 3) * (k.gam / v ^ 3) * (k.b + k.gam / v ^ 2) * k.ex v

section

variable {b c d e f : ℝ → ℝ} {b' c' d' e' f' : ℝ}

lemma zTail_D (k : Coef) (hv : v ≠ 0) (hb : HasDerivAt b b' t) (hc : HasDerivAt c c' t)
    (hd : HasDerivAt d d' t) (he : HasDerivAt e e' t) (hf : HasDerivAt f f' t) :
    D (fun z : ℝ × ℝ => k.zTail (b z.1) (c z.1) (d z.1) (e z.1) (f z.1) z.2)
      (k.zTail b' c' d' e' f' v) (k.zTailV (b t) (c t) (d t) (e t) (f t) v) (t, v) := by
  have h5 := (((d_inv 2 hv).const_mul k.b).add ((d_inv 4 hv).const_mul k.gam)).mul (ex_d k hv)
  have h := lin hb hc hd he hf (d_inv 1 hv) (d_inv 2 hv) (d_inv 4 hv) (d_inv 5 hv) h5
  refine (h.to ?_ ?_).congr (Eventually.of_forall fun w => ?_)
  · simp only [Coef.zTail, Pi.add_apply, Pi.mul_apply]; ring
  · simp only [Coef.zTailV, Pi.add_apply]; push_cast; ring
  · simp only [Coef.zTail, Pi.add_apply, Pi.mul_apply]; ring

lemma zTailV_D (k : Coef) (hv : v ≠ 0) (hb : HasDerivAt b b' t) (hc : HasDerivAt c c' t)
    (hd : HasDerivAt d d' t) (he : HasDerivAt e e' t) (hf : HasDerivAt f f' t) :
    D (fun z : ℝ × ℝ => k.zTailV (b z.1) (c z.1) (d z.1) (e z.1) (f z.1) z.2)
      (k.zTailV b' c' d' e' f' v) (k.zTailVV (b t) (c t) (d t) (e t) (f t) v) (t, v) := by
  have h5 := ((((d_inv 3 hv).const_mul (-2 * k.b)).add ((d_inv 5 hv).const_mul
    (-4 * k.gam + 2 * k.b * k.gam))).add ((d_inv 7 hv).const_mul (2 * k.gam ^ 2))).mul (ex_d k hv)
  have h := lin hb hc hd he hf (((d_inv 2 hv).const_mul (-1))) ((d_inv 3 hv).const_mul (-2))
    ((d_inv 5 hv).const_mul (-4)) ((d_inv 6 hv).const_mul (-5)) h5
  refine (h.to ?_ ?_).congr (Eventually.of_forall fun w => ?_)
  · simp only [Coef.zTailV, Pi.add_apply, Pi.mul_apply]; ring
  · simp only [Coef.zTailVV, Pi.add_apply]; push_cast; ring
  · simp only [Coef.zTailV, Pi.add_apply, Pi.mul_apply]; ring

lemma lnTail_D (k : Coef) (hg : k.gam ≠ 0) (hv : v ≠ 0) (hb : HasDerivAt b b' t) (hc : HasDerivAt c c' t)
    (hd : HasDerivAt d d' t) (he : HasDerivAt e e' t) (hf : HasDerivAt f f' t) :
    D (fun z : ℝ × ℝ => k.lnTail (b z.1) (c z.1) (d z.1) (e z.1) (f z.1) z.2)
      (k.lnTail b' c' d' e' f' v) (k.lnTailV (b t) (c t) (d t) (e t) (f t) v) (t, v) := by
  have h5 := ((((hasDerivAt_const v (1 : ℝ)).sub (ex_d k hv)).const_mul (3 * k.b / 2 / k.gam)).add
    (((hasDerivAt_const v (1 : ℝ)).sub (((((d_inv 2 hv).const_mul k.gam).add_const 1)).mul
      (ex_d k hv))).const_mul ((5 - 2 * k.b) / 2 / k.gam))).add
    ((((((d_inv 4 hv).const_mul (k.gam ^ 2)).add ((d_inv 2 hv).const_mul (2 * k.gam))).add_const 2).mul
      (ex_d k hv)).const_add (-2) |>.const_mul (1 / k.gam))
  have h := lin hb hc hd he hf ((d_inv 1 hv).const_mul 2) ((d_inv 2 hv).const_mul (3 / 2))
    ((d_inv 4 hv).const_mul (5 / 4)) ((d_inv 5 hv).const_mul (6 / 5)) h5
  refine (h.to ?_ ?_).congr (Eventually.of_forall fun w => ?_)
  · simp only [Coef.lnTail, Pi.add_apply, Pi.mul_apply, Pi.sub_apply]; field_simp; ring
  · simp only [Coef.lnTailV, Pi.add_apply, Pi.mul_apply, Pi.sub_apply]; push_cast; field_simp; ring
  · simp only [Coef.lnTail, Pi.add_apply, Pi.mul_apply, Pi.sub_apply]
    by_cases hw : w.2 = 0
    · simp only [hw]; field_simp; ring
    · field_simp; ring

lemma lnTailV_D (k : Coef) (hv : v ≠ 0) (hb : HasDerivAt b b' t) (hc : HasDerivAt c c' t)
    (hd : HasDerivAt d d' t) (he : HasDerivAt e e' t) (hf : HasDerivAt f f' t) :
    D (fun z : ℝ × ℝ => k.lnTailV (b z.1) (c z.1) (d z.1) (e z.1) (f z.1) z.2)
      (k.lnTailV b' c' d' e' f' v) (k.lnTailVV (b t) (c t) (d t) (e t) (f t) v) (t, v) := by
  have h5 := ((((d_inv 3 hv).const_mul (-3 * k.b)).add ((d_inv 5 hv).const_mul
    (-5 * k.gam + 2 * k.b * k.gam))).add ((d_inv 7 hv).const_mul (2 * k.gam ^ 2))).mul (ex_d k hv)
  have h := lin hb hc hd he hf (((d_inv 2 hv).const_mul (-2))) ((d_inv 3 hv).const_mul (-3))
    ((d_inv 5 hv).const_mul (-5)) ((d_inv 6 hv).const_mul (-6)) h5
  refine (h.to ?_ ?_).congr (Eventually.of_forall fun w => ?_)
  · simp only [Coef.lnTailV, Pi.add_apply, Pi.mul_apply]; ring
  · simp only [Coef.lnTailVV, Pi.add_apply]; push_cast; ring
  · simp only [Coef.lnTailV, Pi.add_apply, Pi.mul_apply]; ring

end

/-! ## The compressibility factor and the fugacity coefficient -/

section

variable (k : Coef) (hc : k.tc ≠ 0) (ht : t ≠ 0) (hv : v ≠ 0)
include hc ht hv

omit hv in
lemma B_ok : T2Ok k.B t := inv_ok _ _ _ _ ht hc
omit hv in
lemma C_ok : T2Ok k.C t := inv_ok _ _ _ _ ht hc
omit hv in
lemma Dd_ok : T2Ok k.Dd t := inv_ok _ _ _ _ ht hc
omit hv in
lemma E_ok : T2Ok k.E t := inv_ok _ _ _ _ ht hc
omit hv in
lemma F_ok : T2Ok k.F t := inv_ok _ _ _ _ ht hc

lemma z_D : D (fun w => k.z w.1 w.2) (k.zt t v) (k.zv t v) (t, v) :=
  ((D.const 1).add (zTail_D k hv (B_ok k hc ht).x (C_ok k hc ht).x (Dd_ok k hc ht).x
    (E_ok k hc ht).x (F_ok k hc ht).x)).to
    (by simp only [zero_add, Coef.zTail, Coef.zt]) (by simp only [zero_add, Coef.zTailV, Coef.zv])
    |>.congr (Eventually.of_forall fun w => by simp only [Coef.z, Coef.zTail]; ring)

lemma zt_D : D (fun w => k.zt w.1 w.2) (k.ztt t v) (k.zvt t v) (t, v) :=
  zTail_D k hv (B_ok k hc ht).d (C_ok k hc ht).d (Dd_ok k hc ht).d
    (E_ok k hc ht).d (F_ok k hc ht).d

lemma zv_D : D (fun w => k.zv w.1 w.2) (k.zvt t v) (k.zvv t v) (t, v) := by
  have h := zTailV_D k hv (B_ok k hc ht).x (C_ok k hc ht).x (Dd_ok k hc ht).x
    (E_ok k hc ht).x (F_ok k hc ht).x
  simp only [Coef.zTailV, Coef.zTailVV] at h
  simp only [Coef.zv, Coef.zvt, Coef.zvv]
  exact h

variable (hz : k.z t v ≠ 0)
include hz

lemma lnv_D : D (fun w => k.lnv w.1 w.2) (k.lnvt t v) (k.lnvv t v) (t, v) := by
  refine (((zv_D k hc ht hv).neg.div (z_D k hc ht hv) hz).add
    (lnTailV_D k hv (B_ok k hc ht).x (C_ok k hc ht).x (Dd_ok k hc ht).x
    (E_ok k hc ht).x (F_ok k hc ht).x)).to ?_ ?_
  · simp only [Coef.lnvt]; congr 1; field_simp; ring
  · simp only [Coef.lnvv]; congr 1; field_simp; ring

variable (hg : k.gam ≠ 0)
include hg

lemma ln_D : D (fun w => k.ln w.1 w.2) (k.lnt t v) (k.lnv t v) (t, v) := by
  refine ((D.comp (Real.hasDerivAt_log hz) (z_D k hc ht hv)).neg.add
    (lnTail_D k hg hv (B_ok k hc ht).x (C_ok k hc ht).x (Dd_ok k hc ht).x
    (E_ok k hc ht).x (F_ok k hc ht).x)).to ?_ ?_
  · simp only [Coef.lnt]; congr 1; field_simp
  · simp only [Coef.lnv]; congr 1; field_simp

lemma lnt_D : D (fun w => k.lnt w.1 w.2) (k.lntt t v) (k.lnvt t v) (t, v) := by
  refine (((zt_D k hc ht hv).neg.div (z_D k hc ht hv) hz).add
    (lnTail_D k hg hv (B_ok k hc ht).d (C_ok k hc ht).d (Dd_ok k hc ht).d
    (E_ok k hc ht).d (F_ok k hc ht).d)).to ?_ ?_
  · simp only [Coef.lntt]; congr 1; field_simp; ring
  · simp only [Coef.lnvt]; congr 1; field_simp; ring

end

/-- The volume derivative of the fugacity coefficient is the one the equation of state requires. -/
lemma lnv_eq (k : Coef) (hv : v ≠ 0) (hz : k.z t v ≠ 0) :
    k.lnv t v = (k.z t v - 1) * (k.zv t v / k.z t v - 1 / v) := by
  have e : k.lnTailV (k.B t).x (k.C t).x (k.Dd t).x (k.E t).x (k.F t).x v
      = k.zv t v - (k.z t v - 1) / v := by
    simp only [Coef.lnTailV, Coef.zv, Coef.z]; ring
  rw [Coef.lnv, e]
  field_simp
  ring

end Verif.Thermo.Fluid
