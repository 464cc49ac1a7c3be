import Mathlib.Analysis.SpecialFunctions.Sqrt
import Mathlib.Analysis.SpecialFunctions.Log.Deriv
import Mathlib.Analysis.SpecialFunctions.ExpDeriv
import Mathlib.Analysis.SpecialFunctions.Pow.Deriv
import Mathlib.Analysis.Calculus.Deriv.Inv
import Mathlib.Analysis.Calculus.Deriv.Inverse
import Mathlib.Tactic.Linarith
import Mathlib.Tactic.FieldSimp
import Mathlib.Tactic.Ring

/-!
# Standard-state properties of the solids (`sources/gibbs.c`)

`gibbs` fills a record of eleven quantities at a temperature and a pressure: Gibbs energy, enthalpy,
entropy, volume, heat capacity and six derivatives.  Every one of them is written out by hand in the
source, so that they can disagree.  This file models the general solid (Berman or Saxena heat
capacity with the optional lambda transition, Berman or Vinet equation of state) and the special
solids built on it, over the real numbers, and proves that the eleven outputs are mutually
consistent for every parameter set.
-/

open Real Filter Topology

set_option linter.unusedTactic false

namespace Verif.Thermo.StdState

/-! ## Specification -/

/-- The result record (`ThermoData`, `includes/silmin.h` 416-421). -/
@[ext] structure Std where
  g : ℝ
  h : ℝ
  s : ℝ
  v : ℝ
  cp : ℝ
  dcpdt : ℝ
  dvdt : ℝ
  dvdp : ℝ
  d2vdt2 : ℝ
  d2vdp2 : ℝ
  d2vdtdp : ℝ

/-- What "thermodynamically consistent at `(t, p)`" means for a function that reports the eleven
quantities: each is the derivative it claims to be of the others (specification, no code). -/
structure Consistent (F : ℝ → ℝ → Std) (t p : ℝ) : Prop where
  gibbs : (F t p).g = (F t p).h - t * (F t p).s
  entropy : HasDerivAt (fun t' => (F t' p).g) (-(F t p).s) t
  volume : HasDerivAt (fun p' => (F t p').g) (F t p).v p
  heat : HasDerivAt (fun t' => (F t' p).h) (F t p).cp t
  heatS : HasDerivAt (fun t' => (F t' p).s) ((F t p).cp / t) t
  maxwell : HasDerivAt (fun p' => (F t p').s) (-(F t p).dvdt) p
  dcpdt : HasDerivAt (fun t' => (F t' p).cp) (F t p).dcpdt t
  dvdt : HasDerivAt (fun t' => (F t' p).v) (F t p).dvdt t
  dvdp : HasDerivAt (fun p' => (F t p').v) (F t p).dvdp p
  d2vdt2 : HasDerivAt (fun t' => (F t' p).dvdt) (F t p).d2vdt2 t
  d2vdp2 : HasDerivAt (fun p' => (F t p').dvdp) (F t p).d2vdp2 p
  d2vdtdp : HasDerivAt (fun p' => (F t p').dvdt) (F t p).d2vdtdp p
  d2vdpdt : HasDerivAt (fun t' => (F t' p).dvdp) (F t p).d2vdtdp t

/-! ## Calculus helpers -/

lemma d_sqrt {t : ℝ} (ht : 0 < t) : HasDerivAt (fun t => √t) (1 / (2 * √t)) t :=
  Real.hasDerivAt_sqrt ht.ne'

lemma d_ipow (n : ℕ) {t : ℝ} (ht : 0 < t) :
    HasDerivAt (fun t : ℝ => 1 / t ^ n) (-(n / t ^ (n + 1))) t := by
  have := (hasDerivAt_pow n t).inv (pow_ne_zero n ht.ne')
  refine (this.congr_deriv ?_).congr_of_eventuallyEq
    (Filter.Eventually.of_forall fun x => one_div _)
  rcases n with _ | n
  · simp
  · field_simp; push_cast; simp; ring

lemma d_inv {t : ℝ} (ht : 0 < t) : HasDerivAt (fun t : ℝ => 1 / t) (-(1 / t ^ 2)) t := by
  simpa using d_ipow 1 ht

lemma rpow15 {t : ℝ} (ht : 0 < t) : t ^ (3 / 2 : ℝ) = t * √t := by
  rw [show (3 / 2 : ℝ) = 1 + 1/2 by norm_num, Real.rpow_add ht, Real.rpow_one, Real.sqrt_eq_rpow]

lemma rpow25 {t : ℝ} (ht : 0 < t) : t ^ (5 / 2 : ℝ) = t ^ 2 * √t := by
  rw [show (5 / 2 : ℝ) = (2:ℕ) + 1/2 by norm_num, Real.rpow_add ht, Real.rpow_natCast,
    Real.sqrt_eq_rpow]

lemma d_isqrt {t : ℝ} (ht : 0 < t) :
    HasDerivAt (fun t => 1 / √t) (-(1 / (2 * (t * √t)))) t := by
  have h := (d_sqrt ht).inv (Real.sqrt_pos.2 ht).ne'
  refine (h.congr_deriv ?_).congr_of_eventuallyEq
    (Filter.Eventually.of_forall fun x => one_div _)
  rw [Real.sq_sqrt ht.le]; field_simp

lemma d_log {t : ℝ} (ht : 0 < t) : HasDerivAt (fun t => Real.log t) (1 / t) t := by
  simpa using Real.hasDerivAt_log ht.ne'

lemma d_logq {c t : ℝ} (hc : c ≠ 0) (ht : 0 < t) :
    HasDerivAt (fun t => Real.log (t / c)) (1 / t) t := by
  have h := ((hasDerivAt_id t).div_const c).log (div_ne_zero ht.ne' hc)
  refine h.congr_deriv ?_
  simp; field_simp

lemma d_i15 {t : ℝ} (ht : 0 < t) :
    HasDerivAt (fun t : ℝ => 1 / t ^ (3 / 2 : ℝ)) (-(3 / 2 / t ^ (5 / 2 : ℝ))) t := by
  have h := (Real.hasDerivAt_rpow_const (p := -(3 / 2:ℝ)) (Or.inl ht.ne'))
  refine (h.congr_deriv ?_).congr_of_eventuallyEq ?_
  · rw [show (-(3 / 2) - 1 : ℝ) = -(5 / 2) by norm_num, Real.rpow_neg ht.le]; ring
  · filter_upwards [lt_mem_nhds ht] with x hx
    rw [Real.rpow_neg hx.le, one_div]

/-! ## Algebra of records -/

instance : Add Std := ⟨fun a b => ⟨a.g + b.g, a.h + b.h, a.s + b.s, a.v + b.v, a.cp + b.cp,
  a.dcpdt + b.dcpdt, a.dvdt + b.dvdt, a.dvdp + b.dvdp, a.d2vdt2 + b.d2vdt2, a.d2vdp2 + b.d2vdp2,
  a.d2vdtdp + b.d2vdtdp⟩⟩

/-- Every field multiplied by a constant (used for the composite end members). -/
def Std.scale (c : ℝ) (a : Std) : Std := ⟨c * a.g, c * a.h, c * a.s, c * a.v, c * a.cp,
  c * a.dcpdt, c * a.dvdt, c * a.dvdp, c * a.d2vdt2, c * a.d2vdp2, c * a.d2vdtdp⟩

lemma Consistent.add {F G : ℝ → ℝ → Std} {t p : ℝ} (hF : Consistent F t p)
    (hG : Consistent G t p) : Consistent (fun t p => F t p + G t p) t p where
  gibbs := by
    show (F t p).g + (G t p).g = (F t p).h + (G t p).h - t * ((F t p).s + (G t p).s)
    rw [hF.gibbs, hG.gibbs]; ring
  entropy := (hF.entropy.add hG.entropy).congr_deriv (neg_add _ _).symm
  volume := hF.volume.add hG.volume
  heat := hF.heat.add hG.heat
  heatS := (hF.heatS.add hG.heatS).congr_deriv (add_div _ _ _).symm
  maxwell := (hF.maxwell.add hG.maxwell).congr_deriv (neg_add _ _).symm
  dcpdt := hF.dcpdt.add hG.dcpdt
  dvdt := hF.dvdt.add hG.dvdt
  dvdp := hF.dvdp.add hG.dvdp
  d2vdt2 := hF.d2vdt2.add hG.d2vdt2
  d2vdp2 := hF.d2vdp2.add hG.d2vdp2
  d2vdtdp := hF.d2vdtdp.add hG.d2vdtdp
  d2vdpdt := hF.d2vdpdt.add hG.d2vdpdt

lemma Consistent.scale {F : ℝ → ℝ → Std} {t p : ℝ} (c : ℝ) (hF : Consistent F t p) :
    Consistent (fun t p => (F t p).scale c) t p where
  gibbs := by
    show c * (F t p).g = c * (F t p).h - t * (c * (F t p).s)
    rw [hF.gibbs]; ring
  entropy := (hF.entropy.const_mul c).congr_deriv (by simp only [Std.scale]; ring)
  volume := hF.volume.const_mul c
  heat := hF.heat.const_mul c
  heatS := (hF.heatS.const_mul c).congr_deriv (by simp only [Std.scale]; ring)
  maxwell := (hF.maxwell.const_mul c).congr_deriv (by simp only [Std.scale]; ring)
  dcpdt := hF.dcpdt.const_mul c
  dvdt := hF.dvdt.const_mul c
  dvdp := hF.dvdp.const_mul c
  d2vdt2 := hF.d2vdt2.const_mul c
  d2vdp2 := hF.d2vdp2.const_mul c
  d2vdtdp := hF.d2vdtdp.const_mul c
  d2vdpdt := hF.d2vdpdt.const_mul c

/-- Consistency is local. -/
lemma Consistent.congr {F G : ℝ → ℝ → Std} {t p : ℝ} (hG : Consistent G t p)
    (ht : ∀ᶠ t' in 𝓝 t, F t' p = G t' p) (hp : ∀ᶠ p' in 𝓝 p, F t p' = G t p') :
    Consistent F t p := by
  have e : F t p = G t p := ht.self_of_nhds
  exact {
    gibbs := by rw [e]; exact hG.gibbs
    entropy := by
      rw [e]; exact hG.entropy.congr_of_eventuallyEq (ht.mono fun x hx => by simp only [hx])
    volume := by
      rw [e]; exact hG.volume.congr_of_eventuallyEq (hp.mono fun x hx => by simp only [hx])
    heat := by
      rw [e]; exact hG.heat.congr_of_eventuallyEq (ht.mono fun x hx => by simp only [hx])
    heatS := by
      rw [e]; exact hG.heatS.congr_of_eventuallyEq (ht.mono fun x hx => by simp only [hx])
    maxwell := by
      rw [e]; exact hG.maxwell.congr_of_eventuallyEq (hp.mono fun x hx => by simp only [hx])
    dcpdt := by
      rw [e]; exact hG.dcpdt.congr_of_eventuallyEq (ht.mono fun x hx => by simp only [hx])
    dvdt := by
      rw [e]; exact hG.dvdt.congr_of_eventuallyEq (ht.mono fun x hx => by simp only [hx])
    dvdp := by
      rw [e]; exact hG.dvdp.congr_of_eventuallyEq (hp.mono fun x hx => by simp only [hx])
    d2vdt2 := by
      rw [e]; exact hG.d2vdt2.congr_of_eventuallyEq (ht.mono fun x hx => by simp only [hx])
    d2vdp2 := by
      rw [e]; exact hG.d2vdp2.congr_of_eventuallyEq (hp.mono fun x hx => by simp only [hx])
    d2vdtdp := by
      rw [e]; exact hG.d2vdtdp.congr_of_eventuallyEq (hp.mono fun x hx => by simp only [hx])
    d2vdpdt := by
      rw [e]; exact hG.d2vdpdt.congr_of_eventuallyEq (ht.mono fun x hx => by simp only [hx]) }

/-- A purely thermal contribution (no pressure dependence, no volume): it is enough that the
enthalpy and the entropy integrate the heat capacity. -/
lemma thermal {H S C D : ℝ → ℝ} {t p : ℝ} (ht : 0 < t) (hH : HasDerivAt H (C t) t)
    (hS : HasDerivAt S (C t / t) t) (hC : HasDerivAt C (D t) t) :
    Consistent (fun t _ => ⟨H t - t * S t, H t, S t, 0, C t, D t, 0, 0, 0, 0, 0⟩) t p where
  gibbs := rfl
  entropy := by
    refine (hH.sub ((hasDerivAt_id t).mul hS)).congr_deriv ?_
    simp only [id]; field_simp; ring
  volume := hasDerivAt_const _ _
  heat := hH
  heatS := hS
  maxwell := (hasDerivAt_const _ _).congr_deriv (by simp)
  dcpdt := hC
  dvdt := hasDerivAt_const _ _
  dvdp := hasDerivAt_const _ _
  d2vdt2 := hasDerivAt_const _ _
  d2vdp2 := hasDerivAt_const _ _
  d2vdtdp := hasDerivAt_const _ _
  d2vdpdt := hasDerivAt_const _ _

/-! ## The code -/

/-- `tr` (`gibbs.c` 453, 853). -/
noncomputable def tr : ℝ := 298.15
/-- `pr` (`gibbs.c` 454, 854). -/
noncomputable def pr : ℝ := 1

lemma tr_pos : 0 < tr := by unfold tr; norm_num

/-- Berman heat-capacity parameters (`_CP`, `includes/silmin.h` 396). -/
structure Berman where
  k0 : ℝ
  k1 : ℝ
  k2 : ℝ
  k3 : ℝ
  Tt : ℝ
  deltah : ℝ
  l1 : ℝ
  l2 : ℝ

/-- Saxena heat-capacity parameters (`includes/silmin.h` 397). -/
structure Saxena where
  a : ℝ
  b : ℝ
  c : ℝ
  d : ℝ
  e : ℝ
  g : ℝ
  h : ℝ

/-- Heat-capacity formulation (`cp_type`, `cp`). -/
inductive CpModel where
  | berman (b : Berman)
  | saxena (s : Saxena)

/-- Equation-of-state formulation (`eos_type`, `eos`); the Saxena equation of state, which no row of
the tables in use selects, is not modelled. -/
inductive Eos where
  | berman (v1 v2 v3 v4 : ℝ)
  | vinet (alpha K Kp : ℝ)

/-- Reference properties of a solid (`ThermoRef`, `includes/silmin.h` 400-406). -/
structure Ref where
  h : ℝ
  s : ℝ
  v : ℝ
  cp : CpModel
  eos : Eos

/-- `gibbs.c` 2475-2519 and 2537, the Berman heat capacity integrated from `tr`, with the lambda
term of a transition at `Tt` (`Tt = 0` means none).  Result before the equation of state is added:
the volume fields are still zero. -/
noncomputable def cpBerman (h0 s0 : ℝ) (b : Berman) (t : ℝ) : Std :=
  let cps := b.k0 + b.k1 / √t + b.k2 / t ^ 2 + b.k3 / t ^ 3
  let dcps := -(1 / 2) * b.k1 / t ^ (3 / 2 : ℝ) - 2 * b.k2 / t ^ 3 - 3 * b.k3 / t ^ 4
  let hs := h0 + b.k0 * (t - tr) + 2 * b.k1 * (√t - √tr) - b.k2 * (1 / t - 1 / tr)
    - 1 / 2 * b.k3 * (1 / (t * t) - 1 / (tr * tr))
  let ss := s0 + b.k0 * Real.log (t / tr) - 2 * b.k1 * (1 / √t - 1 / √tr)
    - 1 / 2 * b.k2 * (1 / (t * t) - 1 / (tr * tr))
    - (1 / 3) * b.k3 * (1 / (t * t * t) - 1 / (tr * tr * tr))
  if b.Tt ≠ 0 then
    if t > b.Tt then
      let hs := hs + b.deltah + 1 / 2 * b.l1 * b.l1 * (b.Tt * b.Tt - tr * tr)
        + (2 / 3) * b.l1 * b.l2 * (b.Tt * b.Tt * b.Tt - tr * tr * tr)
        + 1 / 4 * b.l2 * b.l2 * (b.Tt * b.Tt * b.Tt * b.Tt - tr * tr * tr * tr)
      let ss := ss + b.deltah / b.Tt + b.l1 * b.l1 * (b.Tt - tr)
        + b.l1 * b.l2 * (b.Tt * b.Tt - tr * tr)
        + (1 / 3) * b.l2 * b.l2 * (b.Tt * b.Tt * b.Tt - tr * tr * tr)
      ⟨hs - t * ss, hs, ss, 0, cps, dcps, 0, 0, 0, 0, 0⟩
    else
      let hs := hs + 1 / 2 * b.l1 * b.l1 * (t * t - tr * tr)
        + (2 / 3) * b.l1 * b.l2 * (t * t * t - tr * tr * tr)
        + 1 / 4 * b.l2 * b.l2 * (t * t * t * t - tr * tr * tr * tr)
      let ss := ss + b.l1 * b.l1 * (t - tr) + b.l1 * b.l2 * (t * t - tr * tr)
        + (1 / 3) * b.l2 * b.l2 * (t * t * t - tr * tr * tr)
      ⟨hs - t * ss, hs, ss, 0, cps + t * (b.l1 + b.l2 * t) ^ 2,
        dcps + ((b.l1 + b.l2 * t) ^ 2 + t * 2 * (b.l1 + b.l2 * t) * b.l2), 0, 0, 0, 0, 0⟩
  else ⟨hs - t * ss, hs, ss, 0, cps, dcps, 0, 0, 0, 0, 0⟩

/-- `gibbs.c` 2520-2537, the Saxena heat capacity integrated from `tr`. -/
noncomputable def cpSaxena (h0 s0 : ℝ) (c : Saxena) (t : ℝ) : Std :=
  let cps := c.a + c.b * t + c.c / t ^ 2 + c.d * t ^ 2 + c.e / t ^ 3 + c.g / √t + c.h / t
  let hs := h0 + c.a * (t - tr) + (c.b / 2) * (t ^ 2 - tr ^ 2) - c.c * (1 / t - 1 / tr)
    + (c.d / 3) * (t ^ 3 - tr ^ 3) - (c.e / 2) * (1 / t ^ 2 - 1 / tr ^ 2)
    + 2 * c.g * (√t - √tr) + c.h * Real.log (t / tr)
  let ss := s0 + c.a * Real.log (t / tr) + c.b * (t - tr)
    - (c.c / 2) * (1 / t ^ 2 - 1 / tr ^ 2) + (c.d / 2) * (t ^ 2 - tr ^ 2)
    - (c.e / 3) * (1 / t ^ 3 - 1 / tr ^ 3) - 2 * c.g * (1 / √t - 1 / √tr)
    - c.h * (1 / t - 1 / tr)
  let dcps := c.b - 2 * c.c / t ^ 3 + 2 * c.d * t - 3 * c.e / t ^ 4
    - (c.g / 2) / t ^ (3 / 2 : ℝ) - c.h / t ^ 2
  ⟨hs - t * ss, hs, ss, 0, cps, dcps, 0, 0, 0, 0, 0⟩

/-- `intEOSsolid`, Berman branch (`gibbs.c` 456-473): what is added to each field. -/
noncomputable def eosBerman (v0 v1 v2 v3 v4 t p : ℝ) : Std where
  g := v0 * ((v1 / 2 - v2) * (p * p - pr * pr) + v2 * (p * p * p - pr * pr * pr) / 3
    + (1 - v1 + v2 + v3 * (t - tr) + v4 * (t - tr) ^ 2) * (p - pr))
  h := v0 * ((v1 / 2 - v2) * (p * p - pr * pr) + v2 * (p * p * p - pr * pr * pr) / 3
    + (1 - v1 + v2 + v3 * (t - tr) + v4 * (t - tr) ^ 2) * (p - pr))
    - t * v0 * (v3 + 2 * (t - tr) * v4) * (p - pr)
  s := -v0 * (v3 + 2 * (t - tr) * v4) * (p - pr)
  cp := -t * v0 * 2 * v4 * (p - pr)
  dcpdt := -v0 * 2 * v4 * (p - pr)
  v := v0 * (1 + (p - pr) * v1 + (p - pr) * (p - pr) * v2 + (t - tr) * v3
    + (t - tr) * (t - tr) * v4)
  dvdt := v0 * (v3 + 2 * (t - tr) * v4)
  dvdp := v0 * (v1 + 2 * (p - pr) * v2)
  d2vdt2 := v0 * 2 * v4
  d2vdtdp := 0
  d2vdp2 := v0 * 2 * v2

/-! ## Proofs for the heat-capacity part -/

lemma cpBerman_base (h0 s0 : ℝ) (b : Berman) {t : ℝ} (p : ℝ) (ht : 0 < t) (c : ℝ → ℝ)
    (H S C D : ℝ → ℝ)
    (hH : HasDerivAt H (c t) t) (hS : HasDerivAt S (c t / t) t) (hC : HasDerivAt C (D t) t)
    (hc : C t = c t) :
    Consistent (fun t _ =>
      let hs := h0 + b.k0 * (t - tr) + 2 * b.k1 * (√t - √tr) - b.k2 * (1 / t - 1 / tr)
        - 1 / 2 * b.k3 * (1 / (t * t) - 1 / (tr * tr)) + H t
      let ss := s0 + b.k0 * Real.log (t / tr) - 2 * b.k1 * (1 / √t - 1 / √tr)
        - 1 / 2 * b.k2 * (1 / (t * t) - 1 / (tr * tr))
        - (1 / 3) * b.k3 * (1 / (t * t * t) - 1 / (tr * tr * tr)) + S t
      ⟨hs - t * ss, hs, ss, 0, b.k0 + b.k1 / √t + b.k2 / t ^ 2 + b.k3 / t ^ 3 + C t,
        -(1 / 2) * b.k1 / t ^ (3 / 2 : ℝ) - 2 * b.k2 / t ^ 3 - 3 * b.k3 / t ^ 4 + D t,
        0, 0, 0, 0, 0⟩) t p := by
  have hr : 0 < √t := Real.sqrt_pos.2 ht
  have hrr : √t ^ 2 = t := Real.sq_sqrt ht.le
  refine thermal (H := fun t => _) (S := fun t => _) (C := fun t => _) (D := fun t => _)
    ht ?_ ?_ ?_
  · have := ((((((hasDerivAt_id t).sub_const tr).const_mul b.k0).const_add h0).add
      (((d_sqrt ht).sub_const (√tr)).const_mul (2 * b.k1))).sub
      (((d_inv ht).sub_const (1 / tr)).const_mul b.k2)).sub
      (((d_ipow 2 ht).sub_const (1 / tr ^ 2)).const_mul (1 / 2 * b.k3)) |>.add hH
    refine (this.congr_deriv ?_).congr_of_eventuallyEq (Eventually.of_forall fun x => ?_)
    · rw [hc]; field_simp; push_cast; ring
    · simp only [Pi.add_apply, Pi.sub_apply, id]; push_cast; ring
  · have := ((((((d_logq tr_pos.ne' ht).const_mul b.k0).const_add s0).sub
      (((d_isqrt ht).sub_const (1 / √tr)).const_mul (2 * b.k1))).sub
      (((d_ipow 2 ht).sub_const (1 / tr ^ 2)).const_mul (1 / 2 * b.k2))).sub
      (((d_ipow 3 ht).sub_const (1 / tr ^ 3)).const_mul (1 / 3 * b.k3))) |>.add hS
    refine (this.congr_deriv ?_).congr_of_eventuallyEq (Eventually.of_forall fun x => ?_)
    · rw [hc]; field_simp; push_cast; ring
    · simp only [Pi.add_apply, Pi.sub_apply]; ring
  · have := (((((d_isqrt ht).const_mul b.k1).const_add b.k0).add
      ((d_ipow 2 ht).const_mul b.k2)).add ((d_ipow 3 ht).const_mul b.k3)).add hC
    refine (this.congr_deriv ?_).congr_of_eventuallyEq (Eventually.of_forall fun x => ?_)
    · rw [rpow15 ht]; field_simp; push_cast; ring
    · simp only [Pi.add_apply]; ring

/-- **C60** (heat capacity, Berman): away from the transition temperature the quantities reported
for the heat-capacity part are consistent, for all parameters. -/
theorem C60_cpBerman (h0 s0 : ℝ) (b : Berman) {t : ℝ} (p : ℝ) (ht : 0 < t)
    (hT : b.Tt = 0 ∨ t ≠ b.Tt) : Consistent (fun t _ => cpBerman h0 s0 b t) t p := by
  by_cases h : b.Tt ≠ 0
  · rcases lt_or_gt_of_ne (hT.resolve_left h) with hlt | hgt
    · have := cpBerman_base h0 s0 b p ht (fun t => t * (b.l1 + b.l2 * t) ^ 2)
        (fun t => 1 / 2 * b.l1 * b.l1 * (t * t - tr * tr)
        + (2 / 3) * b.l1 * b.l2 * (t * t * t - tr * tr * tr)
        + 1 / 4 * b.l2 * b.l2 * (t * t * t * t - tr * tr * tr * tr))
        (fun t => b.l1 * b.l1 * (t - tr) + b.l1 * b.l2 * (t * t - tr * tr)
        + (1 / 3) * b.l2 * b.l2 * (t * t * t - tr * tr * tr))
        (fun t => t * (b.l1 + b.l2 * t) ^ 2)
        (fun t => (b.l1 + b.l2 * t) ^ 2 + t * 2 * (b.l1 + b.l2 * t) * b.l2) ?_ ?_ ?_ rfl
      · refine this.congr ?_ (Eventually.of_forall fun p' => ?_)
        · filter_upwards [gt_mem_nhds hlt] with x hx
          simp only [cpBerman, if_pos h, if_neg (not_lt.2 (le_of_lt hx)), gt_iff_lt]
          ext <;> simp <;> ring
        · simp only [cpBerman, if_pos h, if_neg (not_lt.2 (le_of_lt hlt)), gt_iff_lt]
          ext <;> simp <;> ring
      · have h2 := (((((hasDerivAt_pow 2 t).sub_const (tr ^ 2)).const_mul (1 / 2 * b.l1 ^ 2)).add
          (((hasDerivAt_pow 3 t).sub_const (tr ^ 3)).const_mul (2 / 3 * b.l1 * b.l2))).add
          (((hasDerivAt_pow 4 t).sub_const (tr ^ 4)).const_mul (1 / 4 * b.l2 ^ 2)))
        refine (h2.congr_deriv ?_).congr_of_eventuallyEq (Eventually.of_forall fun x => ?_)
        · push_cast; ring
        · simp only [Pi.add_apply]; push_cast; ring
      · have h2 := (((((hasDerivAt_id t).sub_const tr).const_mul (b.l1 ^ 2)).add
          (((hasDerivAt_pow 2 t).sub_const (tr ^ 2)).const_mul (b.l1 * b.l2))).add
          (((hasDerivAt_pow 3 t).sub_const (tr ^ 3)).const_mul (1 / 3 * b.l2 ^ 2)))
        refine (h2.congr_deriv ?_).congr_of_eventuallyEq (Eventually.of_forall fun x => ?_)
        · field_simp; push_cast; ring
        · simp only [Pi.add_apply, id]; push_cast; ring
      · have h2 := (hasDerivAt_id t).mul
          ((((hasDerivAt_id t).const_mul b.l2).const_add b.l1).fun_pow 2)
        refine (h2.congr_deriv ?_).congr_of_eventuallyEq (Eventually.of_forall fun x => ?_)
        · simp only [id]; push_cast; ring
        · simp
    · have := cpBerman_base h0 s0 b p ht (fun _ => 0)
        (fun _ => b.deltah + 1 / 2 * b.l1 * b.l1 * (b.Tt * b.Tt - tr * tr)
        + (2 / 3) * b.l1 * b.l2 * (b.Tt * b.Tt * b.Tt - tr * tr * tr)
        + 1 / 4 * b.l2 * b.l2 * (b.Tt * b.Tt * b.Tt * b.Tt - tr * tr * tr * tr))
        (fun _ => b.deltah / b.Tt + b.l1 * b.l1 * (b.Tt - tr)
        + b.l1 * b.l2 * (b.Tt * b.Tt - tr * tr)
        + (1 / 3) * b.l2 * b.l2 * (b.Tt * b.Tt * b.Tt - tr * tr * tr))
        (fun _ => 0) (fun _ => 0) (hasDerivAt_const _ _)
        ((hasDerivAt_const _ _).congr_deriv (by simp)) (hasDerivAt_const _ _) rfl
      refine this.congr ?_ (Eventually.of_forall fun p' => ?_)
      · filter_upwards [lt_mem_nhds hgt] with x hx
        simp only [cpBerman, if_pos h, if_pos hx, gt_iff_lt]
        ext <;> simp <;> ring
      · simp only [cpBerman, if_pos h, if_pos hgt, gt_iff_lt]
        ext <;> simp <;> ring
  · have := cpBerman_base h0 s0 b p ht (fun _ => 0) (fun _ => 0) (fun _ => 0)
        (fun _ => 0) (fun _ => 0) (hasDerivAt_const _ _)
        ((hasDerivAt_const _ _).congr_deriv (by simp)) (hasDerivAt_const _ _) rfl
    refine this.congr (Eventually.of_forall fun x => ?_) (Eventually.of_forall fun p' => ?_) <;>
      (simp only [cpBerman, if_neg h]; ext <;> simp)

/-- **C60** (heat capacity, Saxena). -/
theorem C60_cpSaxena (h0 s0 : ℝ) (c : Saxena) {t : ℝ} (p : ℝ) (ht : 0 < t) :
    Consistent (fun t _ => cpSaxena h0 s0 c t) t p := by
  have hr : 0 < √t := Real.sqrt_pos.2 ht
  have hrr : √t ^ 2 = t := Real.sq_sqrt ht.le
  unfold cpSaxena
  refine thermal (H := fun t => _) (S := fun t => _) (C := fun t => _) (D := fun t => _)
    ht ?_ ?_ ?_
  · have := (((((((((hasDerivAt_id t).sub_const tr).const_mul c.a).const_add h0).add
      (((hasDerivAt_pow 2 t).sub_const (tr ^ 2)).const_mul (c.b / 2))).sub
      (((d_inv ht).sub_const (1 / tr)).const_mul c.c)).add
      (((hasDerivAt_pow 3 t).sub_const (tr ^ 3)).const_mul (c.d / 3))).sub
      (((d_ipow 2 ht).sub_const (1 / tr ^ 2)).const_mul (c.e / 2))).add
      (((d_sqrt ht).sub_const (√tr)).const_mul (2 * c.g))).add
      ((d_logq tr_pos.ne' ht).const_mul c.h)
    refine (this.congr_deriv ?_).congr_of_eventuallyEq (Eventually.of_forall fun x => ?_)
    · field_simp; push_cast; ring
    · simp only [Pi.add_apply, Pi.sub_apply, id]
  · have := (((((((((d_logq tr_pos.ne' ht).const_mul c.a).const_add s0).add
      (((hasDerivAt_id t).sub_const tr).const_mul c.b)).sub
      (((d_ipow 2 ht).sub_const (1 / tr ^ 2)).const_mul (c.c / 2))).add
      (((hasDerivAt_pow 2 t).sub_const (tr ^ 2)).const_mul (c.d / 2))).sub
      (((d_ipow 3 ht).sub_const (1 / tr ^ 3)).const_mul (c.e / 3))).sub
      (((d_isqrt ht).sub_const (1 / √tr)).const_mul (2 * c.g))).sub
      (((d_inv ht).sub_const (1 / tr)).const_mul c.h))
    refine (this.congr_deriv ?_).congr_of_eventuallyEq (Eventually.of_forall fun x => ?_)
    · field_simp; push_cast; ring
    · simp only [Pi.add_apply, Pi.sub_apply, id]
  · have := (((((((hasDerivAt_id t).const_mul c.b).const_add c.a).add
      ((d_ipow 2 ht).const_mul c.c)).add ((hasDerivAt_pow 2 t).const_mul c.d)).add
      ((d_ipow 3 ht).const_mul c.e)).add ((d_isqrt ht).const_mul c.g)).add
      ((d_inv ht).const_mul c.h)
    refine (this.congr_deriv ?_).congr_of_eventuallyEq (Eventually.of_forall fun x => ?_)
    · rw [rpow15 ht]; field_simp; push_cast; ring
    · simp only [Pi.add_apply, id]; ring

/-- **C60** (equation of state, Berman). -/
theorem C60_eosBerman (v0 v1 v2 v3 v4 : ℝ) {t : ℝ} (p : ℝ) (ht : 0 < t) :
    Consistent (eosBerman v0 v1 v2 v3 v4) t p := by
  have hi := hasDerivAt_id t
  have hq : HasDerivAt (fun t : ℝ => (t - tr) ^ 2) (2 * (t - tr)) t :=
    ((hi.sub_const tr).pow 2).congr_deriv (by simp)
  have hl : HasDerivAt (fun t : ℝ => t - tr) 1 t := hi.sub_const tr
  have pi := hasDerivAt_id p
  have pl : HasDerivAt (fun p : ℝ => p - pr) 1 p := pi.sub_const pr
  have ps : HasDerivAt (fun p : ℝ => v3 + 2 * (t - tr) * v4) 0 p := hasDerivAt_const _ _
  exact {
    gibbs := by simp only [eosBerman]; ring
    entropy := by
      have := ((((((hl.const_mul v3).const_add (1 - v1 + v2)).add (hq.const_mul v4)).mul_const
        (p - pr)).const_add ((v1 / 2 - v2) * (p * p - pr * pr)
          + v2 * (p * p * p - pr * pr * pr) / 3)).const_mul v0)
      refine (this.congr_deriv ?_).congr_of_eventuallyEq (Eventually.of_forall fun x => ?_)
      · simp only [eosBerman]; push_cast; ring
      · simp only [eosBerman, Pi.add_apply]
    volume := by
      have := (((((hasDerivAt_pow 2 p).sub_const (pr ^ 2)).const_mul (v1 / 2 - v2)).add
        (((hasDerivAt_pow 3 p).sub_const (pr ^ 3)).const_mul (v2 / 3))).add
        (pl.const_mul (1 - v1 + v2 + v3 * (t - tr) + v4 * (t - tr) ^ 2))).const_mul v0
      refine (this.congr_deriv ?_).congr_of_eventuallyEq (Eventually.of_forall fun x => ?_)
      · simp only [eosBerman, pr]; push_cast; ring
      · simp only [eosBerman, Pi.add_apply]; push_cast; ring
    heat := by
      have := ((((((hl.const_mul v3).const_add (1 - v1 + v2)).add (hq.const_mul v4)).mul_const
        (p - pr)).const_add ((v1 / 2 - v2) * (p * p - pr * pr)
          + v2 * (p * p * p - pr * pr * pr) / 3)).const_mul v0).sub
        ((hi.mul ((hl.const_mul (2 * v4)).const_add v3)).const_mul (v0 * (p - pr)))
      refine (this.congr_deriv ?_).congr_of_eventuallyEq (Eventually.of_forall fun x => ?_)
      · simp only [eosBerman, id]; push_cast; ring
      · simp only [eosBerman, Pi.add_apply, Pi.sub_apply, Pi.mul_apply, id]; push_cast; ring
    heatS := by
      have := ((hl.const_mul (2 * v4)).const_add v3).const_mul (-v0 * (p - pr))
      refine (this.congr_deriv ?_).congr_of_eventuallyEq (Eventually.of_forall fun x => ?_)
      · simp only [eosBerman]; field_simp
      · simp only [eosBerman]; push_cast; ring
    maxwell := by
      have := pl.const_mul (-v0 * (v3 + 2 * (t - tr) * v4))
      exact this.congr_deriv (by simp only [eosBerman]; ring)
    dcpdt := by
      have := hi.const_mul (-v0 * 2 * v4 * (p - pr))
      refine (this.congr_deriv ?_).congr_of_eventuallyEq (Eventually.of_forall fun x => ?_)
      · simp only [eosBerman]; ring
      · simp only [eosBerman, id]; push_cast; ring
    dvdt := by
      have := (((hl.const_mul v3).const_add (1 + (p - pr) * v1 + (p - pr) * (p - pr) * v2)).add
        (hq.const_mul v4)).const_mul v0
      refine (this.congr_deriv ?_).congr_of_eventuallyEq (Eventually.of_forall fun x => ?_)
      · simp only [eosBerman]; push_cast; ring
      · simp only [eosBerman, Pi.add_apply]; push_cast; ring
    dvdp := by
      have := (((pl.const_mul v1).const_add (1 + (t - tr) * v3 + (t - tr) * (t - tr) * v4)).add
        ((pl.fun_pow 2).const_mul v2)).const_mul v0
      refine (this.congr_deriv ?_).congr_of_eventuallyEq (Eventually.of_forall fun x => ?_)
      · simp only [eosBerman]; push_cast; ring
      · simp only [eosBerman, Pi.add_apply]; push_cast; ring
    d2vdt2 := by
      have := ((hl.const_mul (2 * v4)).const_add v3).const_mul v0
      refine (this.congr_deriv ?_).congr_of_eventuallyEq (Eventually.of_forall fun x => ?_)
      · simp only [eosBerman]; push_cast; ring
      · simp only [eosBerman]; push_cast; ring
    d2vdp2 := by
      have := ((pl.const_mul (2 * v2)).const_add v1).const_mul v0
      refine (this.congr_deriv ?_).congr_of_eventuallyEq (Eventually.of_forall fun x => ?_)
      · simp only [eosBerman]; push_cast; ring
      · simp only [eosBerman]; push_cast; ring
    d2vdtdp := (hasDerivAt_const p (v0 * (v3 + 2 * (t - tr) * v4))).congr_deriv
      (by simp only [eosBerman])
    d2vdpdt := (hasDerivAt_const t (v0 * (v1 + 2 * (p - pr) * v2))).congr_deriv
      (by simp only [eosBerman]) }

/-! ## The Vinet equation of state -/

/-- The function whose zero the loop at `gibbs.c` 486-491 looks for (first of the two loops; the
second, 504-509, is the same with `pr`). -/
noncomputable def vinetFn (alpha K eta t p x : ℝ) : ℝ :=
  x * x * (p / 10000) - 3 * K * (1 - x) * exp (eta * (1 - x)) - x * x * alpha * K * (t - tr)

/-- `dxdt` (`gibbs.c` 492; `dx0dt` at 510). -/
noncomputable def vDxdt (alpha K eta x : ℝ) : ℝ :=
  -(1 / 3) * x * x * x * alpha * K / (K * exp (eta * (1 - x)) * (-2 + x - eta * x + eta * x * x))

/-- `d2xdt2` (`gibbs.c` 493-496; `d2x0dt2` at 511-514). -/
noncomputable def vD2xdt2 (alpha K eta t p x dxdt : ℝ) : ℝ :=
  -dxdt * (2 * (p / 10000) * dxdt - 6 * K * eta * dxdt * exp (eta * (1 - x))
      - 3 * K * eta * eta * dxdt * exp (eta * (1 - x))
      + 3 * K * eta * eta * x * dxdt * exp (eta * (1 - x))
      - 4 * alpha * K * x - 2 * alpha * K * dxdt * (t - tr))
    / (2 * (p / 10000) * x + 3 * K * exp (eta * (1 - x)) + 3 * K * eta * exp (eta * (1 - x))
      - 3 * K * eta * x * exp (eta * (1 - x)) - 2 * alpha * K * x * (t - tr))

/-- `dxdp` (`gibbs.c` 497). -/
noncomputable def vDxdp (K eta x : ℝ) : ℝ :=
  -(1 / 3) * x * x * x / (K * exp (eta * (1 - x)) * (2 - x + eta * x - eta * x * x))

/-- `d2xdtdp` (`gibbs.c` 498-500). -/
noncomputable def vD2xdtdp (alpha K eta t p x dxdt dxdp : ℝ) : ℝ :=
  -(2 * x * dxdt + 2 * (p / 10000) * dxdp * dxdt - 2 * alpha * K * dxdp * dxdt * (t - tr)
      - 3 * K * eta * eta * dxdt * dxdp * exp (eta * (1 - x))
      - 6 * K * dxdt * eta * dxdp * exp (eta * (1 - x)) - 2 * alpha * K * x * dxdp
      + 3 * K * eta * eta * dxdt * dxdp * exp (eta * (1 - x)) * x)
    / (2 * (p / 10000) * x + 3 * K * exp (eta * (1 - x)) + 3 * K * eta * exp (eta * (1 - x))
      - 3 * K * eta * exp (eta * (1 - x)) * x - 2 * alpha * K * x * (t - tr))

/-- `d2xdp2` (`gibbs.c` 501). -/
noncomputable def vD2xdp2 (eta x dxdp : ℝ) : ℝ :=
  -dxdp * dxdp * ((-6 + 2 * x - 4 * eta * x + 2 * eta * x * x - eta * eta * x * x
      + eta * eta * x * x * x) * exp (eta * (1 - x)))
    / (x * exp (eta * (1 - x)) * (2 - x + eta * x - eta * x * x))

/-- `intEOSsolid`, Vinet branch (`gibbs.c` 474-533): what is added to each field.  `X t p` stands for
the value the Newton loop has converged to (its stopping tolerance is not modelled). -/
noncomputable def eosVinet (v0 alpha K Kp : ℝ) (X : ℝ → ℝ → ℝ) (t p : ℝ) : Std :=
  let eta := 3 * (Kp - 1) / 2
  let x := X t p
  let dxdt := vDxdt alpha K eta x
  let d2xdt2 := vD2xdt2 alpha K eta t p x dxdt
  let dxdp := vDxdp K eta x
  let d2xdtdp := vD2xdtdp alpha K eta t p x dxdt dxdp
  let d2xdp2 := vD2xdp2 eta x dxdp
  let x0 := X t pr
  let dx0dt := vDxdt alpha K eta x0
  let d2x0dt2 := vD2xdt2 alpha K eta t pr x0 dx0dt
  let a := (9 * v0 * K / (eta * eta)) * (1 - eta * (1 - x)) * exp (eta * (1 - x))
    + (v0 * (t - tr) * K * alpha * (x * x * x - 1) - 9 * v0 * K / (eta * eta))
    - (9 * v0 * K / (eta * eta)) * (1 - eta * (1 - x0)) * exp (eta * (1 - x0))
    - (v0 * (t - tr) * K * alpha * (x0 * x0 * x0 - 1) - 9 * v0 * K / (eta * eta))
  { g := -a * 10000 + p * v0 * x * x * x - pr * v0 * x0 * x0 * x0
    h := -a * 10000 + p * v0 * x * x * x - pr * v0 * x0 * x0 * x0
      + 10000 * t * alpha * K * v0 * (x * x * x - x0 * x0 * x0)
    s := 10000 * alpha * K * v0 * (x * x * x - x0 * x0 * x0)
    cp := 10000 * t * alpha * K * v0 * 3 * (x * x * dxdt - x0 * x0 * dx0dt)
    dcpdt := 10000 * alpha * K * v0 * 3 * (x * x * dxdt - x0 * x0 * dx0dt)
      + 10000 * t * alpha * K * v0 * 3 * (2 * x * dxdt * dxdt + x * x * d2xdt2
        - 2 * x0 * dx0dt * dx0dt - x0 * x0 * d2x0dt2)
    v := v0 * x * x * x
    dvdt := 3 * v0 * x * x * dxdt
    dvdp := 3 * v0 * x * x * dxdp / 10000
    d2vdt2 := 3 * v0 * (2 * x * dxdt * dxdt + x * x * d2xdt2)
    d2vdtdp := 3 * v0 * (2 * x * dxdt * dxdp + x * x * d2xdtdp) / 10000
    d2vdp2 := 3 * v0 * (2 * x * dxdp * dxdp + x * x * d2xdp2) / (10000 * 10000) }

/-- What is assumed of the converged value at `(t, p)`: it is a zero of the function of the loop, it
is positive, and it lies on the branch that contains the starting value 1 (where pressure falls as
the volume grows; `-2 + x - ηx + ηx²` is -1 at `x = 1`). -/
def VinetRoot (alpha K Kp : ℝ) (X : ℝ → ℝ → ℝ) (t p : ℝ) : Prop :=
  0 < X t p ∧ -2 + X t p - 3 * (Kp - 1) / 2 * X t p + 3 * (Kp - 1) / 2 * X t p * X t p < 0 ∧
    vinetFn alpha K (3 * (Kp - 1) / 2) t p (X t p) = 0

/-- Pressure (in 10 kbar, thermal pressure removed) as a function of the linear compression. -/
noncomputable def vF (K eta x : ℝ) : ℝ := 3 * K * (1 - x) * exp (eta * (1 - x)) / x ^ 2

lemma vF_deriv (K eta : ℝ) {x : ℝ} (hx : x ≠ 0) :
    HasStrictDerivAt (vF K eta)
      (3 * K * exp (eta * (1 - x)) * (-2 + x - eta * x + eta * x * x) / x ^ 3) x := by
  have h1 : HasStrictDerivAt (fun x : ℝ => 1 - x) (-1) x :=
    (hasStrictDerivAt_id x).const_sub 1
  have h2 := (h1.const_mul eta).exp
  have h3 := ((h1.const_mul (3 * K)).mul h2).div (hasStrictDerivAt_pow 2 x) (pow_ne_zero 2 hx)
  refine h3.congr_deriv ?_
  simp only [Pi.mul_apply]
  field_simp
  push_cast
  ring

/-- The branch of the Vinet curve that contains `x = 1`. -/
def vU (eta : ℝ) : Set ℝ := {x | 0 < x ∧ -2 + x - eta * x + eta * x * x < 0}

lemma vU_open (eta : ℝ) : IsOpen (vU eta) :=
  (isOpen_lt continuous_const continuous_id).inter
    (isOpen_lt (f := fun x : ℝ => -2 + x - eta * x + eta * x * x) (by fun_prop) continuous_const)

lemma vU_down {eta x y : ℝ} (he : 0 < eta) (hy : y ∈ vU eta) (hx : 0 < x) (hxy : x ≤ y) :
    x ∈ vU eta := by
  refine ⟨hx, ?_⟩
  have h := hy.2
  have h0 : 0 < y := hy.1
  -- `q(x) ≤ max (q 0) (q y)` by convexity
  have h1 : eta * x * x ≤ eta * x * y := by
    have : 0 < eta * x := mul_pos he hx
    nlinarith
  by_contra hn
  push Not at hn
  have h2 : 0 ≤ -2 + x * (1 - eta + eta * y) := by nlinarith
  have h3 : 0 < 1 - eta + eta * y := by
    by_contra h4
    push Not at h4
    nlinarith
  have h4 : x * (1 - eta + eta * y) ≤ y * (1 - eta + eta * y) :=
    mul_le_mul_of_nonneg_right hxy h3.le
  nlinarith

lemma vF_anti {K eta x y : ℝ} (hK : 0 < K) (he : 0 < eta) (hx : x ∈ vU eta) (hy : y ∈ vU eta)
    (hxy : x < y) : vF K eta y < vF K eta x := by
  have hd : ∀ z ∈ Set.Icc x y, HasDerivAt (vF K eta)
      (3 * K * exp (eta * (1 - z)) * (-2 + z - eta * z + eta * z * z) / z ^ 3) z :=
    fun z hz => (vF_deriv K eta (lt_of_lt_of_le hx.1 hz.1).ne').hasDerivAt
  have := strictAntiOn_of_deriv_neg (convex_Icc x y)
    (fun z hz => (hd z hz).continuousAt.continuousWithinAt) (fun z hz => by
      rw [interior_Icc] at hz
      have hz' : z ∈ Set.Icc x y := ⟨hz.1.le, hz.2.le⟩
      rw [(hd z hz').deriv]
      have hz0 : 0 < z := lt_trans hx.1 hz.1
      have hq := (vU_down he hy hz0 hz.2.le).2
      refine div_neg_of_neg_of_pos (mul_neg_of_pos_of_neg (by positivity) hq) (by positivity))
  exact this ⟨le_rfl, hxy.le⟩ ⟨hxy.le, le_rfl⟩ hxy

lemma vF_inj {K eta x y : ℝ} (hK : 0 < K) (he : 0 < eta) (hx : x ∈ vU eta) (hy : y ∈ vU eta)
    (h : vF K eta x = vF K eta y) : x = y := by
  rcases lt_trichotomy x y with h1 | h1 | h1
  · exact absurd h (vF_anti hK he hx hy h1).ne'
  · exact h1
  · exact absurd h (vF_anti hK he hy hx h1).ne

/-- Implicit differentiation on the branch: no continuity of the solution is assumed. -/
lemma vImplicit {K eta : ℝ} (hK : 0 < K) (he : 0 < eta) {y w : ℝ → ℝ} {a w' : ℝ}
    (hy : ∀ᶠ s in 𝓝 a, y s ∈ vU eta ∧ vF K eta (y s) = w s) (hw : HasDerivAt w w' a) :
    HasDerivAt y (w' * (y a ^ 3 /
      (3 * K * exp (eta * (1 - y a)) * (-2 + y a - eta * y a + eta * y a * y a)))) a := by
  obtain ⟨ha, hwa⟩ := hy.self_of_nhds
  have hx0 : y a ≠ 0 := ha.1.ne'
  have hF := vF_deriv K eta hx0
  have hF0 : 3 * K * exp (eta * (1 - y a)) * (-2 + y a - eta * y a + eta * y a * y a) / y a ^ 3
      ≠ 0 := by
    have := ha.2.ne
    positivity
  have hloc := hF.to_localInverse hF0
  have hinv : ∀ᶠ u in 𝓝 (vF K eta (y a)), vF K eta (hF.localInverse _ _ _ hF0 u) = u :=
    hF.eventually_right_inverse hF0
  have hval : hF.localInverse _ _ _ hF0 (vF K eta (y a)) = y a :=
    (hF.eventually_left_inverse hF0).self_of_nhds
  have hin : ∀ᶠ u in 𝓝 (vF K eta (y a)), hF.localInverse _ _ _ hF0 u ∈ vU eta := by
    have hc := hloc.hasDerivAt.continuousAt
    exact hc.eventually (by rw [hval]; exact (vU_open eta).mem_nhds ha)
  have htend : Tendsto w (𝓝 a) (𝓝 (vF K eta (y a))) := by
    rw [hwa]; exact hw.continuousAt
  have heq : ∀ᶠ s in 𝓝 a, y s = hF.localInverse _ _ _ hF0 (w s) := by
    filter_upwards [hy, htend.eventually hinv, htend.eventually hin] with s h1 h2 h3
    exact vF_inj hK he h1.1 h3 (by rw [h1.2, h2])
  have hl := hloc.hasDerivAt
  rw [hwa] at hl
  have := (hl.comp a hw).congr_of_eventuallyEq heq
  refine this.congr_deriv ?_
  have := ha.2.ne
  field_simp

/-- `dx/dw` on the branch. -/
noncomputable def vPhi (K eta x : ℝ) : ℝ :=
  x ^ 3 / (3 * K * exp (eta * (1 - x)) * (-2 + x - eta * x + eta * x * x))

/-- `d²x/dw²` on the branch. -/
noncomputable def vPsi (K eta x : ℝ) : ℝ :=
  vPhi K eta x ^ 2 * (3 / x + eta - (1 - eta + 2 * eta * x) / (-2 + x - eta * x + eta * x * x))

lemma vPhi_deriv {K eta x : ℝ} (hK : 0 < K) (hx : x ∈ vU eta) :
    HasDerivAt (vPhi K eta) (vPhi K eta x *
      (3 / x + eta - (1 - eta + 2 * eta * x) / (-2 + x - eta * x + eta * x * x))) x := by
  have hq := hx.2.ne
  have hx0 := hx.1.ne'
  have h1 : HasDerivAt (fun x : ℝ => 1 - x) (-1) x := (hasDerivAt_id x).const_sub 1
  have h2 := ((h1.const_mul eta).exp).const_mul (3 * K)
  have hq' : HasDerivAt (fun x : ℝ => -2 + x - eta * x + eta * x * x) (1 - eta + 2 * eta * x) x := by
    have := ((((hasDerivAt_id x).const_add (-2)).sub ((hasDerivAt_id x).const_mul eta)).add
      (((hasDerivAt_id x).const_mul eta).mul (hasDerivAt_id x)))
    refine this.congr_deriv ?_
    simp only [id]; ring
  have := (hasDerivAt_pow 3 x).div (h2.mul hq') (by
    have := exp_ne_zero (eta * (1 - x))
    have := hK.ne'
    simp only [Pi.mul_apply]
    positivity)
  refine this.congr_deriv ?_
  simp only [vPhi, Pi.mul_apply]
  have hE := exp_ne_zero (eta * (1 - x))
  have hK' := hK.ne'
  clear this h2 hq' h1
  generalize exp (eta * (1 - x)) = E at *
  generalize hqd : -2 + x - eta * x + eta * x * x = q at *
  field_simp
  push_cast
  subst hqd
  ring

lemma vDxdt_eq {alpha K eta x : ℝ} (hK : 0 < K) (hx : x ∈ vU eta) :
    vDxdt alpha K eta x = -(alpha * K) * vPhi K eta x := by
  have hq := hx.2.ne
  have := exp_ne_zero (eta * (1 - x))
  have := hK.ne'
  simp only [vDxdt, vPhi]
  field_simp

lemma vDxdp_eq {K eta x : ℝ} (hK : 0 < K) (hx : x ∈ vU eta) : vDxdp K eta x = vPhi K eta x := by
  have hq := hx.2.ne
  have := exp_ne_zero (eta * (1 - x))
  have := hK.ne'
  have h3 : 2 - x + eta * x - eta * x * x = -(-2 + x - eta * x + eta * x * x) := by ring
  simp only [vDxdp, vPhi, h3]
  field_simp

lemma vDen_eq {alpha K eta t p x : ℝ} (hx : x ∈ vU eta)
    (hw : vF K eta x = p / 10000 - alpha * K * (t - tr)) :
    2 * (p / 10000) * x + 3 * K * exp (eta * (1 - x)) + 3 * K * eta * exp (eta * (1 - x))
      - 3 * K * eta * x * exp (eta * (1 - x)) - 2 * alpha * K * x * (t - tr)
      = -(3 * K * exp (eta * (1 - x)) * (-2 + x - eta * x + eta * x * x) / x) := by
  have hx0 := hx.1.ne'
  have h : p / 10000 = vF K eta x + alpha * K * (t - tr) := by linarith
  rw [h, vF]
  field_simp
  ring

lemma vD2xdt2_eq {alpha K eta t p x : ℝ} (hK : 0 < K) (hx : x ∈ vU eta)
    (hw : vF K eta x = p / 10000 - alpha * K * (t - tr)) :
    vD2xdt2 alpha K eta t p x (vDxdt alpha K eta x) = (alpha * K) ^ 2 * vPsi K eta x := by
  have hq := hx.2.ne
  have hx0 := hx.1.ne'
  have := exp_ne_zero (eta * (1 - x))
  have := hK.ne'
  have h : p / 10000 = vF K eta x + alpha * K * (t - tr) := by linarith
  simp only [vD2xdt2]
  rw [vDen_eq hx hw, vDxdt_eq hK hx, h]
  simp only [vPsi, vPhi, vF]
  have hE := exp_ne_zero (eta * (1 - x))
  have hK' := hK.ne'
  generalize exp (eta * (1 - x)) = E at *
  generalize hqd : -2 + x - eta * x + eta * x * x = q at *
  field_simp
  subst hqd
  ring

lemma vD2xdtdp_eq {alpha K eta t p x : ℝ} (hK : 0 < K) (hx : x ∈ vU eta)
    (hw : vF K eta x = p / 10000 - alpha * K * (t - tr)) :
    vD2xdtdp alpha K eta t p x (vDxdt alpha K eta x) (vDxdp K eta x)
      = -(alpha * K) * vPsi K eta x := by
  have hq := hx.2.ne
  have hx0 := hx.1.ne'
  have := exp_ne_zero (eta * (1 - x))
  have := hK.ne'
  have h : p / 10000 = vF K eta x + alpha * K * (t - tr) := by linarith
  have hd := vDen_eq (alpha := alpha) (t := t) (p := p) hx hw
  simp only [vD2xdtdp]
  rw [show 3 * K * eta * exp (eta * (1 - x)) * x = 3 * K * eta * x * exp (eta * (1 - x)) by ring,
    hd, vDxdt_eq hK hx, vDxdp_eq hK hx, h]
  simp only [vPsi, vPhi, vF]
  have hE := exp_ne_zero (eta * (1 - x))
  have hK' := hK.ne'
  generalize exp (eta * (1 - x)) = E at *
  generalize hqd : -2 + x - eta * x + eta * x * x = q at *
  field_simp
  subst hqd
  ring

lemma vD2xdp2_eq {K eta x : ℝ} (hK : 0 < K) (hx : x ∈ vU eta) :
    vD2xdp2 eta x (vDxdp K eta x) = vPsi K eta x := by
  have hq := hx.2.ne
  have hx0 := hx.1.ne'
  have := exp_ne_zero (eta * (1 - x))
  have := hK.ne'
  have h3 : 2 - x + eta * x - eta * x * x = -(-2 + x - eta * x + eta * x * x) := by ring
  simp only [vD2xdp2]
  rw [vDxdp_eq hK hx, h3]
  simp only [vPsi, vPhi]
  have hE := exp_ne_zero (eta * (1 - x))
  have hK' := hK.ne'
  generalize exp (eta * (1 - x)) = E at *
  generalize hqd : -2 + x - eta * x + eta * x * x = q at *
  field_simp
  subst hqd
  ring

lemma vRoot_iff {alpha K Kp t p : ℝ} {X : ℝ → ℝ → ℝ} (h : VinetRoot alpha K Kp X t p) :
    X t p ∈ vU (3 * (Kp - 1) / 2) ∧
      vF K (3 * (Kp - 1) / 2) (X t p) = p / 10000 - alpha * K * (t - tr) := by
  obtain ⟨h1, h2, h3⟩ := h
  refine ⟨⟨h1, h2⟩, ?_⟩
  have h1' := h1.ne'
  simp only [vinetFn] at h3
  simp only [vF]
  rw [div_eq_iff (pow_ne_zero 2 h1')]
  linear_combination -h3

/-- `(1 - η(1-x)) e^{η(1-x)}`, the compression part of the Helmholtz energy. -/
lemma vE_deriv (eta x : ℝ) : HasDerivAt (fun x => (1 - eta * (1 - x)) * exp (eta * (1 - x)))
    (eta ^ 2 * (1 - x) * exp (eta * (1 - x))) x := by
  have h1 : HasDerivAt (fun x : ℝ => eta * (1 - x)) (-eta) x :=
    (((hasDerivAt_id x).const_sub 1).const_mul eta).congr_deriv (by ring)
  have := (h1.const_sub 1).mul h1.exp
  refine this.congr_deriv ?_
  ring

section
variable {alpha K Kp : ℝ} {X : ℝ → ℝ → ℝ} {t p : ℝ}

lemma vX_t (hK : 0 < K) (hKp : 1 < Kp) (h : ∀ᶠ t' in 𝓝 t, VinetRoot alpha K Kp X t' p) :
    HasDerivAt (fun t' => X t' p) (vDxdt alpha K (3 * (Kp - 1) / 2) (X t p)) t := by
  have he : 0 < 3 * (Kp - 1) / 2 := by linarith
  have hw : HasDerivAt (fun t' => p / 10000 - alpha * K * (t' - tr)) (-(alpha * K)) t :=
    ((((hasDerivAt_id t).sub_const tr).const_mul (alpha * K)).const_sub _).congr_deriv (by ring)
  refine (vImplicit hK he (h.mono fun t' ht' => vRoot_iff ht') hw).congr_deriv ?_
  rw [vDxdt_eq hK (vRoot_iff h.self_of_nhds).1, vPhi]

lemma vX_p (hK : 0 < K) (hKp : 1 < Kp) (h : ∀ᶠ p' in 𝓝 p, VinetRoot alpha K Kp X t p') :
    HasDerivAt (fun p' => X t p') (vDxdp K (3 * (Kp - 1) / 2) (X t p) / 10000) p := by
  have he : 0 < 3 * (Kp - 1) / 2 := by linarith
  have hw : HasDerivAt (fun p' => p' / 10000 - alpha * K * (t - tr)) (1 / 10000) p :=
    (((hasDerivAt_id p).div_const 10000).sub_const _)
  refine (vImplicit hK he (h.mono fun t' ht' => vRoot_iff ht') hw).congr_deriv ?_
  rw [vDxdp_eq hK (vRoot_iff h.self_of_nhds).1, vPhi]; ring

lemma vDt_t (hK : 0 < K) (hKp : 1 < Kp) (h : ∀ᶠ t' in 𝓝 t, VinetRoot alpha K Kp X t' p) :
    HasDerivAt (fun t' => vDxdt alpha K (3 * (Kp - 1) / 2) (X t' p))
      (vD2xdt2 alpha K (3 * (Kp - 1) / 2) t p (X t p)
        (vDxdt alpha K (3 * (Kp - 1) / 2) (X t p))) t := by
  obtain ⟨hU, hw⟩ := vRoot_iff h.self_of_nhds
  have := ((vPhi_deriv hK hU).comp t (vX_t hK hKp h)).const_mul (-(alpha * K))
  refine (this.congr_deriv ?_).congr_of_eventuallyEq (h.mono fun t' ht' => ?_)
  · rw [vD2xdt2_eq hK hU hw, vDxdt_eq hK hU, vPsi]; ring
  · exact vDxdt_eq hK (vRoot_iff ht').1

lemma vDt_p (hK : 0 < K) (hKp : 1 < Kp) (h : ∀ᶠ p' in 𝓝 p, VinetRoot alpha K Kp X t p') :
    HasDerivAt (fun p' => vDxdt alpha K (3 * (Kp - 1) / 2) (X t p'))
      (vD2xdtdp alpha K (3 * (Kp - 1) / 2) t p (X t p)
        (vDxdt alpha K (3 * (Kp - 1) / 2) (X t p)) (vDxdp K (3 * (Kp - 1) / 2) (X t p)) / 10000)
      p := by
  obtain ⟨hU, hw⟩ := vRoot_iff h.self_of_nhds
  have := ((vPhi_deriv hK hU).comp p (vX_p hK hKp h)).const_mul (-(alpha * K))
  refine (this.congr_deriv ?_).congr_of_eventuallyEq (h.mono fun t' ht' => ?_)
  · rw [vD2xdtdp_eq hK hU hw, vDxdp_eq hK hU, vPsi]; ring
  · exact vDxdt_eq hK (vRoot_iff ht').1

lemma vDp_p (hK : 0 < K) (hKp : 1 < Kp) (h : ∀ᶠ p' in 𝓝 p, VinetRoot alpha K Kp X t p') :
    HasDerivAt (fun p' => vDxdp K (3 * (Kp - 1) / 2) (X t p'))
      (vD2xdp2 (3 * (Kp - 1) / 2) (X t p) (vDxdp K (3 * (Kp - 1) / 2) (X t p)) / 10000) p := by
  obtain ⟨hU, hw⟩ := vRoot_iff h.self_of_nhds
  have := ((vPhi_deriv hK hU).comp p (vX_p hK hKp h))
  refine (this.congr_deriv ?_).congr_of_eventuallyEq (h.mono fun t' ht' => ?_)
  · rw [vD2xdp2_eq hK hU, vDxdp_eq hK hU, vPsi]; ring
  · exact vDxdp_eq hK (vRoot_iff ht').1

lemma vDp_t (hK : 0 < K) (hKp : 1 < Kp) (h : ∀ᶠ t' in 𝓝 t, VinetRoot alpha K Kp X t' p) :
    HasDerivAt (fun t' => vDxdp K (3 * (Kp - 1) / 2) (X t' p))
      (vD2xdtdp alpha K (3 * (Kp - 1) / 2) t p (X t p)
        (vDxdt alpha K (3 * (Kp - 1) / 2) (X t p)) (vDxdp K (3 * (Kp - 1) / 2) (X t p))) t := by
  obtain ⟨hU, hw⟩ := vRoot_iff h.self_of_nhds
  have := ((vPhi_deriv hK hU).comp t (vX_t hK hKp h))
  refine (this.congr_deriv ?_).congr_of_eventuallyEq (h.mono fun t' ht' => ?_)
  · rw [vD2xdtdp_eq hK hU hw, vDxdt_eq hK hU, vPsi]; ring
  · exact vDxdp_eq hK (vRoot_iff ht').1

/-- **C60** (equation of state, Vinet): wherever the volume loop has converged, the eleven added
quantities are consistent, for all parameters with a positive bulk modulus and `K' > 1`. -/
theorem C60_eosVinet (v0 : ℝ) (ht : 0 < t) (hK : 0 < K) (hKp : 1 < Kp)
    (h1 : ∀ᶠ t' in 𝓝 t, VinetRoot alpha K Kp X t' p)
    (h2 : ∀ᶠ p' in 𝓝 p, VinetRoot alpha K Kp X t p')
    (h3 : ∀ᶠ t' in 𝓝 t, VinetRoot alpha K Kp X t' pr) :
    Consistent (eosVinet v0 alpha K Kp X) t p := by
  have he : 0 < 3 * (Kp - 1) / 2 := by linarith
  have x_t := vX_t hK hKp h1
  have x_p := vX_p hK hKp h2
  have y_t := vX_t hK hKp h3
  have dt_t := vDt_t hK hKp h1
  have dt_p := vDt_p hK hKp h2
  have dp_p := vDp_p hK hKp h2
  have dp_t := vDp_t hK hKp h1
  have dy_t := vDt_t hK hKp h3
  have rx := (vRoot_iff h1.self_of_nhds)
  have ry := (vRoot_iff h3.self_of_nhds)
  have x0 := rx.1.1.ne'
  have y0 := ry.1.1.ne'
  have wx : X t p ^ 2 * (p / 10000 - alpha * K * (t - tr)) =
      3 * K * (1 - X t p) * exp (3 * (Kp - 1) / 2 * (1 - X t p)) := by
    rw [← rx.2, vF]; field_simp
  have wy : X t pr ^ 2 * (pr / 10000 - alpha * K * (t - tr)) =
      3 * K * (1 - X t pr) * exp (3 * (Kp - 1) / 2 * (1 - X t pr)) := by
    rw [← ry.2, vF]; field_simp
  have x3_t := x_t.fun_pow 3
  have x3_p := x_p.fun_pow 3
  have y3_t := y_t.fun_pow 3
  have hid := hasDerivAt_id t
  have hlt : HasDerivAt (fun t => t - tr) 1 t := hid.sub_const tr
  have Ex_t := (vE_deriv (3 * (Kp - 1) / 2) (X t p)).comp t x_t
  have Ey_t := (vE_deriv (3 * (Kp - 1) / 2) (X t pr)).comp t y_t
  have Ex_p := (vE_deriv (3 * (Kp - 1) / 2) (X t p)).comp p x_p
  generalize hed : 3 * (Kp - 1) / 2 = eta at *
  -- Gibbs energy in the temperature
  have hg : HasDerivAt (fun t' => (eosVinet v0 alpha K Kp X t' p).g)
      (-(eosVinet v0 alpha K Kp X t p).s) t := by
    have := ((((Ex_t.const_mul (9 * v0 * K / (eta * eta))).add
      ((hlt.mul (x3_t.sub_const 1)).const_mul (v0 * K * alpha))).sub
      (Ey_t.const_mul (9 * v0 * K / (eta * eta)))).sub
      ((hlt.mul (y3_t.sub_const 1)).const_mul (v0 * K * alpha))).const_mul (-10000)
      |>.add (x3_t.const_mul (p * v0)) |>.sub (y3_t.const_mul (pr * v0))
    refine (this.congr_deriv ?_).congr_of_eventuallyEq (Eventually.of_forall fun t' => ?_)
    · simp only [eosVinet, hed]
      generalize vDxdt alpha K eta (X t p) = d at *
      generalize vDxdt alpha K eta (X t pr) = e at *
      generalize exp (eta * (1 - X t p)) = E at *
      generalize exp (eta * (1 - X t pr)) = E' at *
      have e1 : 9 * v0 * K / (eta * eta) * (eta ^ 2 * (1 - X t p) * E * d) =
        3 * v0 * (X t p ^ 2 * (p / 10000 - alpha * K * (t - tr))) * d := by
        rw [wx]; field_simp; ring
      have e2 : 9 * v0 * K / (eta * eta) * (eta ^ 2 * (1 - X t pr) * E' * e) =
        3 * v0 * (X t pr ^ 2 * (pr / 10000 - alpha * K * (t - tr))) * e := by
        rw [wy]; field_simp; ring
      rw [e1, e2]; push_cast; ring
    · simp only [eosVinet, hed, Pi.add_apply, Pi.sub_apply, Pi.mul_apply, Function.comp]
      ring
  have hs : HasDerivAt (fun t' => (eosVinet v0 alpha K Kp X t' p).s)
      ((eosVinet v0 alpha K Kp X t p).cp / t) t := by
    have := (x3_t.sub y3_t).const_mul (10000 * alpha * K * v0)
    refine (this.congr_deriv ?_).congr_of_eventuallyEq (Eventually.of_forall fun t' => ?_)
    · simp only [eosVinet, hed]; field_simp; push_cast; ring
    · simp only [eosVinet, Pi.sub_apply]; ring
  have hgib : ∀ t' p', (eosVinet v0 alpha K Kp X t' p').h
      = (eosVinet v0 alpha K Kp X t' p').g + t' * (eosVinet v0 alpha K Kp X t' p').s := by
    intro t' p'; simp only [eosVinet]; ring
  exact {
    gibbs := by rw [hgib]; ring
    entropy := hg
    volume := by
      have := ((Ex_p.const_mul (9 * v0 * K / (eta * eta))).add
        ((x3_p.sub_const 1).const_mul (v0 * (t - tr) * K * alpha))).const_mul (-10000)
        |>.add (((hasDerivAt_id p).mul x3_p).const_mul v0)
        |>.add (hasDerivAt_const p ((eosVinet v0 alpha K Kp X t 0).g
          - (-((9 * v0 * K / (eta * eta)) * (1 - eta * (1 - X t 0)) * exp (eta * (1 - X t 0))
          + (v0 * (t - tr) * K * alpha * (X t 0 * X t 0 * X t 0 - 1))) * 10000)))
      refine (this.congr_deriv ?_).congr_of_eventuallyEq (Eventually.of_forall fun t' => ?_)
      · simp only [eosVinet, id]
        generalize vDxdp K eta (X t p) = d at *
        generalize exp (eta * (1 - X t p)) = E at *
        have e1 : 9 * v0 * K / (eta * eta) * (eta ^ 2 * (1 - X t p) * E * (d / 10000)) =
          3 * v0 * (X t p ^ 2 * (p / 10000 - alpha * K * (t - tr))) * (d / 10000) := by
          rw [wx]; field_simp; ring
        rw [e1]; push_cast; ring
      · simp only [eosVinet, hed, Pi.add_apply, Pi.mul_apply, Function.comp, id]
        ring
    heat := by
      have := hg.add (hid.mul hs)
      refine (this.congr_deriv ?_).congr_of_eventuallyEq (Eventually.of_forall fun t' => ?_)
      · simp only [id]; field_simp; ring
      · simp only [Pi.add_apply, Pi.mul_apply, id]; exact hgib t' p
    heatS := hs
    maxwell := by
      have := (x3_p.sub_const (X t pr ^ 3)).const_mul (10000 * alpha * K * v0)
      refine (this.congr_deriv ?_).congr_of_eventuallyEq (Eventually.of_forall fun t' => ?_)
      · simp only [eosVinet, hed]
        rw [← hed] at rx ⊢
        rw [vDxdt_eq hK rx.1, vDxdp_eq hK rx.1]; push_cast; ring
      · simp only [eosVinet]; ring
    dcpdt := by
      have := (hid.mul (((x_t.fun_pow 2).mul dt_t).sub ((y_t.fun_pow 2).mul dy_t))).const_mul
        (10000 * alpha * K * v0 * 3)
      refine (this.congr_deriv ?_).congr_of_eventuallyEq (Eventually.of_forall fun t' => ?_)
      · simp only [eosVinet, hed, Pi.sub_apply, Pi.mul_apply, id]; push_cast; ring
      · simp only [eosVinet, hed, Pi.sub_apply, Pi.mul_apply, id]; ring
    dvdt := by
      have := x3_t.const_mul v0
      refine (this.congr_deriv ?_).congr_of_eventuallyEq (Eventually.of_forall fun t' => ?_)
      · simp only [eosVinet, hed]; push_cast; ring
      · simp only [eosVinet]; ring
    dvdp := by
      have := x3_p.const_mul v0
      refine (this.congr_deriv ?_).congr_of_eventuallyEq (Eventually.of_forall fun t' => ?_)
      · simp only [eosVinet, hed]; push_cast; ring
      · simp only [eosVinet]; ring
    d2vdt2 := by
      have := ((x_t.fun_pow 2).mul dt_t).const_mul (3 * v0)
      refine (this.congr_deriv ?_).congr_of_eventuallyEq (Eventually.of_forall fun t' => ?_)
      · simp only [eosVinet, hed]; push_cast; ring
      · simp only [eosVinet, hed, Pi.mul_apply]; ring
    d2vdp2 := by
      have := ((x_p.fun_pow 2).mul dp_p).const_mul (3 * v0 / 10000)
      refine (this.congr_deriv ?_).congr_of_eventuallyEq (Eventually.of_forall fun t' => ?_)
      · simp only [eosVinet, hed]; push_cast; ring
      · simp only [eosVinet, hed, Pi.mul_apply]; ring
    d2vdtdp := by
      have := ((x_p.fun_pow 2).mul dt_p).const_mul (3 * v0)
      refine (this.congr_deriv ?_).congr_of_eventuallyEq (Eventually.of_forall fun t' => ?_)
      · simp only [eosVinet, hed]; push_cast; ring
      · simp only [eosVinet, hed, Pi.mul_apply]; ring
    d2vdpdt := by
      have := ((x_t.fun_pow 2).mul dp_t).const_mul (3 * v0 / 10000)
      refine (this.congr_deriv ?_).congr_of_eventuallyEq (Eventually.of_forall fun t' => ?_)
      · simp only [eosVinet, hed]; push_cast; ring
      · simp only [eosVinet, hed, Pi.mul_apply]; ring }

end

/-! ## The Vinet loop has a solution -/

/-- For every converged-side parameter set there is a function that returns the solution, on the
whole region of temperature and pressure below the expansion limit set by some `z` of the branch. -/
theorem C60_vinet_solvable {alpha K Kp z : ℝ} (hK : 0 < K) (hKp : 1 < Kp)
    (hz : z ∈ vU (3 * (Kp - 1) / 2)) :
    ∃ X : ℝ → ℝ → ℝ, ∀ t p, vF K (3 * (Kp - 1) / 2) z ≤ p / 10000 - alpha * K * (t - tr) →
      VinetRoot alpha K Kp X t p := by
  have he : 0 < 3 * (Kp - 1) / 2 := by linarith
  generalize hed : 3 * (Kp - 1) / 2 = eta at *
  have key : ∀ w, vF K eta z ≤ w → ∃ x ∈ vU eta, vF K eta x = w := by
    intro w hw
    -- a point with a larger pressure
    set y := min (min z (1 / 2)) (3 * K / (2 * (|w| + 1))) with hy
    have hw1 : 0 < |w| + 1 := by positivity
    have hy0 : 0 < y := lt_min (lt_min hz.1 (by norm_num)) (by positivity)
    have hyz : y ≤ z := (min_le_left _ _).trans (min_le_left _ _)
    have hyh : y ≤ 1 / 2 := (min_le_left _ _).trans (min_le_right _ _)
    have hyk : y ≤ 3 * K / (2 * (|w| + 1)) := min_le_right _ _
    have hbig : w ≤ vF K eta y := by
      have h1 : 1 ≤ exp (eta * (1 - y)) := one_le_exp (by nlinarith)
      have h2 : (|w| + 1) * (2 * y) ≤ 3 * K := by
        rw [le_div_iff₀ (by positivity)] at hyk; linarith
      rw [vF, le_div_iff₀ (by positivity)]
      have h3 : w * y ^ 2 ≤ (|w| + 1) * y := by
        have : w ≤ |w| + 1 := by linarith [le_abs_self w]
        have hyy : y ^ 2 ≤ y := by nlinarith
        exact (mul_le_mul_of_nonneg_right this (sq_nonneg y)).trans
          (mul_le_mul_of_nonneg_left hyy hw1.le)
      have h4 : 3 * K * (1 / 2) ≤ 3 * K * (1 - y) := by nlinarith
      have h5 : 3 * K * (1 - y) ≤ 3 * K * (1 - y) * exp (eta * (1 - y)) :=
        le_mul_of_one_le_right (by nlinarith) h1
      nlinarith
    have hc : ContinuousOn (vF K eta) (Set.Icc y z) := fun x hx =>
      (vF_deriv K eta (lt_of_lt_of_le hy0 hx.1).ne').hasDerivAt.continuousAt.continuousWithinAt
    obtain ⟨x, hx, hxw⟩ := intermediate_value_Icc' hyz hc ⟨hw, hbig⟩
    exact ⟨x, vU_down he hz (lt_of_lt_of_le hy0 hx.1) hx.2, hxw⟩
  classical
  refine ⟨fun t p => if h : vF K eta z ≤ p / 10000 - alpha * K * (t - tr)
    then Classical.choose (key _ h) else 1, fun t p h => ?_⟩
  have hs := Classical.choose_spec (key _ h)
  simp only [VinetRoot, hed]
  rw [dif_pos h]
  refine ⟨hs.1.1, hs.1.2, ?_⟩
  have hx := hs.1.1.ne'
  have h2 := hs.2
  generalize Classical.choose (key _ h) = x at *
  simp only [vinetFn]
  rw [vF, div_eq_iff (pow_ne_zero 2 hx)] at h2
  linear_combination -h2

/-! ## The general solid -/

/-- The heat-capacity part, `gibbs.c` 2475-2537. -/
noncomputable def cpPart (r : Ref) (t : ℝ) : Std :=
  match r.cp with
  | .berman b => cpBerman r.h r.s b t
  | .saxena c => cpSaxena r.h r.s c t

/-- The volume loop: for the parameters `alpha`, `K`, `Kp`, the value of `x` it ends with at a
temperature and a pressure. -/
abbrev Solver := ℝ → ℝ → ℝ → ℝ → ℝ → ℝ

/-- What `intEOSsolid` adds (`gibbs.c` 449-533). -/
noncomputable def eosPart (r : Ref) (V : Solver) (t p : ℝ) : Std :=
  match r.eos with
  | .berman v1 v2 v3 v4 => eosBerman r.v v1 v2 v3 v4 t p
  | .vinet a K Kp => eosVinet r.v a K Kp (V a K Kp) t p

/-- `gibbs.c` 2475-2538, the general solid: heat capacity, then `gs = hs - t*ss`, then the equation
of state added to the (zero) volume fields.  `V` is the volume solver of the Vinet branch. -/
noncomputable def solid (r : Ref) (V : Solver) (t p : ℝ) : Std :=
  cpPart r t + eosPart r V t p

/-- No first-order transition of the heat-capacity formulation at this temperature. -/
def NotAtTransition (r : Ref) (t : ℝ) : Prop :=
  ∀ b, r.cp = .berman b → b.Tt = 0 ∨ t ≠ b.Tt

/-- The volume solver has converged around `(t, p)` and around `(t, pr)` (vacuous for a Berman
equation of state). -/
def SolverOk (r : Ref) (V : Solver) (t p : ℝ) : Prop :=
  ∀ a K Kp, r.eos = .vinet a K Kp → 0 < K ∧ 1 < Kp ∧ (∀ᶠ t' in 𝓝 t, VinetRoot a K Kp (V a K Kp) t' p) ∧
    (∀ᶠ p' in 𝓝 p, VinetRoot a K Kp (V a K Kp) t p') ∧ (∀ᶠ t' in 𝓝 t, VinetRoot a K Kp (V a K Kp) t' pr)

/-- **C60**: the standard-state properties reported for a general solid are thermodynamically
consistent, for every parameter record, every temperature that is not the transition temperature
and every pressure. -/
theorem C60_solid (r : Ref) (V : Solver) {t p : ℝ} (ht : 0 < t) (hT : NotAtTransition r t)
    (hV : SolverOk r V t p) : Consistent (solid r V) t p := by
  refine Consistent.add (F := fun t _ => cpPart r t) (G := eosPart r V) ?_ ?_
  · unfold cpPart
    rcases h : r.cp with b | c
    · exact C60_cpBerman r.h r.s b p ht (hT b h)
    · exact C60_cpSaxena r.h r.s c p ht
  · unfold eosPart
    rcases h : r.eos with ⟨v1, v2, v3, v4⟩ | ⟨a, K, Kp⟩
    · exact C60_eosBerman r.v v1 v2 v3 v4 p ht
    · obtain ⟨h1, h2, h3, h4, h5⟩ := hV a K Kp h
      exact C60_eosVinet r.v ht h1 h2 h3 h4 h5

/-- At the reference temperature and pressure a solid without transition reports its tabulated
enthalpy, entropy and volume (Berman equation of state). -/
theorem C60_reference (r : Ref) (V : Solver) {v1 v2 v3 v4 : ℝ}
    (he : r.eos = .berman v1 v2 v3 v4) (hb : ∀ b, r.cp = .berman b → b.Tt = 0 ∨ tr < b.Tt) :
    (solid r V tr pr).h = r.h ∧ (solid r V tr pr).s = r.s ∧ (solid r V tr pr).v = r.v ∧
      (solid r V tr pr).g = r.h - tr * r.s := by
  have e : eosPart r V tr pr = ⟨0, 0, 0, r.v, 0, 0, r.v * v3, r.v * v1, r.v * 2 * v4,
      r.v * 2 * v2, 0⟩ := by
    simp only [eosPart, he, eosBerman]
    ext <;> simp
  have c : (cpPart r tr).h = r.h ∧ (cpPart r tr).s = r.s ∧ (cpPart r tr).v = 0 ∧
      (cpPart r tr).g = r.h - tr * r.s := by
    have hl : Real.log (tr / tr) = 0 := by rw [div_self tr_pos.ne', Real.log_one]
    unfold cpPart
    rcases h : r.cp with b | c
    · rcases hb b h with h0 | h0
      · simp only [cpBerman, hl, h0]; simp
      · have h1 : b.Tt ≠ 0 := (tr_pos.trans h0).ne'
        simp only [cpBerman, hl, if_pos h1, gt_iff_lt, if_neg (not_lt.2 h0.le)]; simp
    · simp only [cpSaxena, hl]; simp
  refine ⟨?_, ?_, ?_, ?_⟩
  · show (cpPart r tr).h + _ = _; rw [e, c.1]; simp
  · show (cpPart r tr).s + _ = _; rw [e, c.2.1]; simp
  · show (cpPart r tr).v + _ = _; rw [e, c.2.2.1]; simp
  · show (cpPart r tr).g + _ = _; rw [e, c.2.2.2]; simp

/-- **C60** (transition): through a first-order transition the Gibbs energy of the heat-capacity part
is continuous: the two branches meet at `Tt`, where the enthalpy jumps by `deltah` and the entropy
by `deltah / Tt`. -/
theorem C60_transition (h0 s0 : ℝ) (b : Berman) (hT : 0 < b.Tt) :
    ContinuousAt (fun t => (cpBerman h0 s0 b t).g) b.Tt ∧
    Tendsto (fun t => (cpBerman h0 s0 b t).h - (cpBerman h0 s0 b b.Tt).h) (𝓝[>] b.Tt)
      (𝓝 b.deltah) ∧
    Tendsto (fun t => (cpBerman h0 s0 b t).s - (cpBerman h0 s0 b b.Tt).s) (𝓝[>] b.Tt)
      (𝓝 (b.deltah / b.Tt)) := by
  -- branch functions, both continuous at `Tt`
  have hne := hT.ne'
  let hs : ℝ → ℝ := fun t => h0 + b.k0 * (t - tr) + 2 * b.k1 * (√t - √tr)
    - b.k2 * (1 / t - 1 / tr) - 1 / 2 * b.k3 * (1 / (t * t) - 1 / (tr * tr))
  let ss : ℝ → ℝ := fun t => s0 + b.k0 * Real.log (t / tr) - 2 * b.k1 * (1 / √t - 1 / √tr)
    - 1 / 2 * b.k2 * (1 / (t * t) - 1 / (tr * tr))
    - (1 / 3) * b.k3 * (1 / (t * t * t) - 1 / (tr * tr * tr))
  let hl : ℝ → ℝ := fun t => 1 / 2 * b.l1 * b.l1 * (t * t - tr * tr)
        + (2 / 3) * b.l1 * b.l2 * (t * t * t - tr * tr * tr)
        + 1 / 4 * b.l2 * b.l2 * (t * t * t * t - tr * tr * tr * tr)
  let sl : ℝ → ℝ := fun t => b.l1 * b.l1 * (t - tr) + b.l1 * b.l2 * (t * t - tr * tr)
        + (1 / 3) * b.l2 * b.l2 * (t * t * t - tr * tr * tr)
  have chs : ContinuousAt hs b.Tt := by
    have h1 : b.Tt * b.Tt ≠ 0 := mul_ne_zero hne hne
    simp only [hs]
    refine ContinuousAt.sub (ContinuousAt.sub (by fun_prop) ?_) ?_
    · exact continuousAt_const.mul ((continuousAt_const.div continuousAt_id hne).sub
        continuousAt_const)
    · exact continuousAt_const.mul ((continuousAt_const.div (continuousAt_id.mul continuousAt_id)
        h1).sub continuousAt_const)
  have css : ContinuousAt ss b.Tt := by
    have h1 : b.Tt * b.Tt ≠ 0 := mul_ne_zero hne hne
    have h2 : b.Tt * b.Tt * b.Tt ≠ 0 := mul_ne_zero h1 hne
    have h3 : √b.Tt ≠ 0 := (Real.sqrt_pos.2 hT).ne'
    simp only [ss]
    refine ContinuousAt.sub (ContinuousAt.sub (ContinuousAt.sub ?_ ?_) ?_) ?_
    · exact continuousAt_const.add (continuousAt_const.mul
        ((continuousAt_id.div_const tr).log (div_ne_zero hne tr_pos.ne')))
    · exact continuousAt_const.mul ((continuousAt_const.div
        Real.continuous_sqrt.continuousAt h3).sub continuousAt_const)
    · exact continuousAt_const.mul ((continuousAt_const.div (continuousAt_id.mul continuousAt_id)
        h1).sub continuousAt_const)
    · exact continuousAt_const.mul ((continuousAt_const.div
        ((continuousAt_id.mul continuousAt_id).mul continuousAt_id) h2).sub continuousAt_const)
  have chl : Continuous hl := by simp only [hl]; fun_prop
  have csl : Continuous sl := by simp only [sl]; fun_prop
  have up : ∀ t, b.Tt < t → (cpBerman h0 s0 b t).h = hs t + b.deltah + hl b.Tt ∧
      (cpBerman h0 s0 b t).s = ss t + b.deltah / b.Tt + sl b.Tt ∧
      (cpBerman h0 s0 b t).g = (cpBerman h0 s0 b t).h - t * (cpBerman h0 s0 b t).s := by
    intro t ht
    simp only [cpBerman, ne_eq, hne, not_false_eq_true, if_true, gt_iff_lt, if_pos ht, hs, ss, hl,
      sl]
    refine ⟨by ring, by ring, trivial⟩
  have dn : ∀ t, t ≤ b.Tt → (cpBerman h0 s0 b t).h = hs t + hl t ∧
      (cpBerman h0 s0 b t).s = ss t + sl t ∧
      (cpBerman h0 s0 b t).g = (cpBerman h0 s0 b t).h - t * (cpBerman h0 s0 b t).s := by
    intro t ht
    simp only [cpBerman, ne_eq, hne, not_false_eq_true, if_true, gt_iff_lt, if_neg (not_lt.2 ht),
      hs, ss, hl, sl]
    refine ⟨by ring, by ring, trivial⟩
  refine ⟨?_, ?_, ?_⟩
  · have g1 : ContinuousAt (fun t => hs t + hl t - t * (ss t + sl t)) b.Tt :=
      (chs.add chl.continuousAt).sub (continuousAt_id.mul (css.add csl.continuousAt))
    have g2 : ContinuousAt (fun t => hs t + b.deltah + hl b.Tt
        - t * (ss t + b.deltah / b.Tt + sl b.Tt)) b.Tt :=
      ((chs.add continuousAt_const).add continuousAt_const).sub
        (continuousAt_id.mul ((css.add continuousAt_const).add continuousAt_const))
    rw [continuousAt_iff_continuous_left'_right']
    have v0 : (cpBerman h0 s0 b b.Tt).g = hs b.Tt + hl b.Tt - b.Tt * (ss b.Tt + sl b.Tt) := by
      obtain ⟨h1, h2, h3⟩ := dn b.Tt le_rfl; rw [h3, h1, h2]
    constructor
    · refine (g1.continuousWithinAt).congr (fun t ht => ?_) v0
      obtain ⟨h1, h2, h3⟩ := dn t (le_of_lt ht); rw [h3, h1, h2]
    · refine (g2.continuousWithinAt).congr (fun t ht => ?_) ?_
      · obtain ⟨h1, h2, h3⟩ := up t ht; rw [h3, h1, h2]
      · rw [v0]; field_simp; ring
  · have g2 : ContinuousAt (fun t => hs t + b.deltah + hl b.Tt - (hs b.Tt + hl b.Tt)) b.Tt :=
      ((chs.add continuousAt_const).add continuousAt_const).sub continuousAt_const
    have g3 := g2.tendsto.mono_left (nhdsWithin_le_nhds (s := Set.Ioi b.Tt))
    rw [show hs b.Tt + b.deltah + hl b.Tt - (hs b.Tt + hl b.Tt) = b.deltah by ring] at g3
    refine g3.congr' ?_
    filter_upwards [self_mem_nhdsWithin] with t ht
    rw [(up t ht).1, (dn b.Tt le_rfl).1]
  · have g2 : ContinuousAt (fun t => ss t + b.deltah / b.Tt + sl b.Tt - (ss b.Tt + sl b.Tt))
        b.Tt :=
      ((css.add continuousAt_const).add continuousAt_const).sub continuousAt_const
    have g3 := g2.tendsto.mono_left (nhdsWithin_le_nhds (s := Set.Ioi b.Tt))
    rw [show ss b.Tt + b.deltah / b.Tt + sl b.Tt - (ss b.Tt + sl b.Tt) = b.deltah / b.Tt by
      ring] at g3
    refine g3.congr' ?_
    filter_upwards [self_mem_nhdsWithin] with t ht
    rw [(up t ht).2.1, (dn b.Tt le_rfl).2.1]

/-! ## Special solids -/

/-- Order-disorder contribution with a temperature polynomial (`gibbs.c` 2563-2610 for gehlenite,
2780-2835 for sanidine; `NO_HIGH_STRUCTURAL_STATE_FELDSPAR` is the compiled choice, so `td` is
`MIN(hi, t)`).  `lo`, `hi` bound the first group of terms, `lo2`, `hi2` the pressure-dependent
group; the four numbers differ for gehlenite, whose `d5` is zero. -/
noncomputable def disorder (lo hi lo2 hi2 d0 d1 d2 d3 d4 d5 t p : ℝ) : Std :=
  let td := min hi t
  let dhdis := d0 * (td - lo) + 2 * d1 * (√td - √lo) - d2 * (1 / td - 1 / lo)
    + d3 * (td * td - lo ^ 2) / 2 + d4 * (td ^ 3 - lo ^ 3) / 3
  let dsdis := d0 * (Real.log td - Real.log lo) - 2 * d1 * (1 / √td - 1 / √lo)
    - d2 * (1 / td ^ 2 - 1 / lo ^ 2) / 2 + d3 * (td - lo) + d4 * (td ^ 2 - lo ^ 2) / 2
  let dvdis := if d5 ≠ 0 then dhdis / d5 else 0
  let c := d0 + d1 / √t + d2 / t ^ 2 + d3 * t + d4 * t ^ 2
  let dc := -d1 * (1 / 2) / t ^ (3 / 2 : ℝ) - 2 * d2 / t ^ 3 + d3 + 2 * d4 * t
  let ddc := 3 / 2 * (1 / 2) * d1 / t ^ (5 / 2 : ℝ) + 6 * d2 / t ^ 4 + 2 * d4
  { g := if t > lo then dhdis - t * dsdis + dvdis * (p - pr) else 0
    h := (if t > lo then dhdis + dvdis * (p - pr) else 0)
      + (if t > lo2 ∧ t < hi2 ∧ d5 ≠ 0 then -(p - pr) * t * c / d5 else 0)
    s := (if t > lo then dsdis else 0)
      + (if t > lo2 ∧ t < hi2 ∧ d5 ≠ 0 then -(p - pr) * c / d5 else 0)
    v := if t > lo then dvdis else 0
    cp := (if t > lo ∧ t < hi then c else 0)
      + (if t > lo2 ∧ t < hi2 ∧ d5 ≠ 0 then -(p - pr) * t * dc / d5 else 0)
    dcpdt := (if t > lo ∧ t < hi then dc else 0)
      + (if t > lo2 ∧ t < hi2 ∧ d5 ≠ 0 then -(p - pr) * dc / d5 - (p - pr) * t * ddc / d5 else 0)
    dvdt := if t > lo ∧ t < hi ∧ d5 ≠ 0 then c / d5 else 0
    dvdp := 0
    d2vdt2 := if t > lo ∧ t < hi ∧ d5 ≠ 0 then dc / d5 else 0
    d2vdp2 := 0
    d2vdtdp := 0 }

/-- A thermal contribution whose enthalpy carries a proportional volume `k` times itself. -/
lemma thermalV {H S C D E : ℝ → ℝ} {t p : ℝ} (k : ℝ) (ht : 0 < t) (hH : HasDerivAt H (C t) t)
    (hS : HasDerivAt S (C t / t) t) (hC : HasDerivAt C (D t) t) (hD : HasDerivAt D (E t) t) :
    Consistent (fun t p => ⟨H t - t * S t + k * H t * (p - pr),
      H t + k * H t * (p - pr) - (p - pr) * t * (k * C t), S t - (p - pr) * (k * C t), k * H t,
      C t - (p - pr) * t * (k * D t), D t - (p - pr) * (k * D t) - (p - pr) * t * (k * E t),
      k * C t, 0, k * D t, 0, 0⟩) t p := by
  have hid := hasDerivAt_id t
  have pl : HasDerivAt (fun p : ℝ => p - pr) 1 p := (hasDerivAt_id p).sub_const pr
  exact {
    gibbs := by show _ = _ - t * _; ring
    entropy := by
      have := (hH.sub (hid.mul hS)).add (((hH.const_mul k).mul_const (p - pr)))
      refine this.congr_deriv ?_
      simp only [id]; field_simp; ring
    volume := by
      have := (pl.const_mul (k * H t)).const_add (H t - t * S t)
      refine this.congr_deriv ?_
      simp
    heat := by
      have := (hH.add ((hH.const_mul k).mul_const (p - pr))).sub
        ((hid.mul hC).const_mul ((p - pr) * k))
      refine (this.congr_deriv ?_).congr_of_eventuallyEq (Eventually.of_forall fun t' => ?_)
      · simp only [id]; ring
      · simp only [Pi.add_apply, Pi.sub_apply, Pi.mul_apply, id]; ring
    heatS := by
      have := hS.sub (hC.const_mul ((p - pr) * k))
      refine (this.congr_deriv ?_).congr_of_eventuallyEq (Eventually.of_forall fun t' => ?_)
      · field_simp
      · simp only [Pi.sub_apply]; ring
    maxwell := by
      have := (pl.mul_const (k * C t)).const_sub (S t)
      refine this.congr_deriv ?_
      simp
    dcpdt := by
      have := hC.sub ((hid.mul hD).const_mul ((p - pr) * k))
      refine (this.congr_deriv ?_).congr_of_eventuallyEq (Eventually.of_forall fun t' => ?_)
      · simp only [id]; ring
      · simp only [Pi.sub_apply, Pi.mul_apply, id]; ring
    dvdt := hH.const_mul k
    dvdp := hasDerivAt_const _ _
    d2vdt2 := hC.const_mul k
    d2vdp2 := hasDerivAt_const _ _
    d2vdtdp := hasDerivAt_const _ _
    d2vdpdt := hasDerivAt_const _ _ }

/-- **C60** (order-disorder contribution): consistent away from the two temperatures where it sets
in and where it is complete. -/
theorem C60_disorder {lo hi lo2 hi2 : ℝ} (d0 d1 d2 d3 d4 d5 : ℝ) {t : ℝ} (p : ℝ) (ht : 0 < t)
    (hlh : lo < hi) (hb : d5 = 0 ∨ (lo2 = lo ∧ hi2 = hi)) (h1 : t ≠ lo) (h2 : t ≠ hi) :
    Consistent (disorder lo hi lo2 hi2 d0 d1 d2 d3 d4 d5) t p := by
  let H : ℝ → ℝ := fun td => d0 * (td - lo) + 2 * d1 * (√td - √lo) - d2 * (1 / td - 1 / lo)
    + d3 * (td * td - lo ^ 2) / 2 + d4 * (td ^ 3 - lo ^ 3) / 3
  let S : ℝ → ℝ := fun td => d0 * (Real.log td - Real.log lo) - 2 * d1 * (1 / √td - 1 / √lo)
    - d2 * (1 / td ^ 2 - 1 / lo ^ 2) / 2 + d3 * (td - lo) + d4 * (td ^ 2 - lo ^ 2) / 2
  let C : ℝ → ℝ := fun t => d0 + d1 / √t + d2 / t ^ 2 + d3 * t + d4 * t ^ 2
  let D : ℝ → ℝ := fun t =>
    -d1 * (1 / 2) / t ^ (3 / 2 : ℝ) - 2 * d2 / t ^ 3 + d3 + 2 * d4 * t
  let E : ℝ → ℝ := fun t => 3 / 2 * (1 / 2) * d1 / t ^ (5 / 2 : ℝ) + 6 * d2 / t ^ 4 + 2 * d4
  have hr : 0 < √t := Real.sqrt_pos.2 ht
  have hrr : √t ^ 2 = t := Real.sq_sqrt ht.le
  have hid := hasDerivAt_id t
  have hH : HasDerivAt H (C t) t := by
    have := (((((hid.sub_const lo).const_mul d0).add
      (((d_sqrt ht).sub_const (√lo)).const_mul (2 * d1))).sub
      (((d_inv ht).sub_const (1 / lo)).const_mul d2)).add
      (((hasDerivAt_pow 2 t).sub_const (lo ^ 2)).const_mul (d3 / 2))).add
      (((hasDerivAt_pow 3 t).sub_const (lo ^ 3)).const_mul (d4 / 3))
    refine (this.congr_deriv ?_).congr_of_eventuallyEq (Eventually.of_forall fun x => ?_)
    · simp only [C]; field_simp; push_cast; ring
    · simp only [H, Pi.add_apply, Pi.sub_apply, id]; ring
  have hS : HasDerivAt S (C t / t) t := by
    have := ((((((d_log ht).sub_const (Real.log lo)).const_mul d0).sub
      (((d_isqrt ht).sub_const (1 / √lo)).const_mul (2 * d1))).sub
      (((d_ipow 2 ht).sub_const (1 / lo ^ 2)).const_mul (d2 / 2))).add
      ((hid.sub_const lo).const_mul d3)).add
      (((hasDerivAt_pow 2 t).sub_const (lo ^ 2)).const_mul (d4 / 2))
    refine (this.congr_deriv ?_).congr_of_eventuallyEq (Eventually.of_forall fun x => ?_)
    · simp only [C]; field_simp; push_cast; ring
    · simp only [S, Pi.add_apply, Pi.sub_apply, id]; ring
  have hC : HasDerivAt C (D t) t := by
    have := (((((d_isqrt ht).const_mul d1).const_add d0).add ((d_ipow 2 ht).const_mul d2)).add
      (hid.const_mul d3)).add ((hasDerivAt_pow 2 t).const_mul d4)
    refine (this.congr_deriv ?_).congr_of_eventuallyEq (Eventually.of_forall fun x => ?_)
    · simp only [D]; rw [rpow15 ht]; field_simp; push_cast; ring
    · simp only [C, Pi.add_apply, id]; ring
  have hD : HasDerivAt D (E t) t := by
    have := ((((d_i15 ht).const_mul (-d1 * (1 / 2))).sub ((d_ipow 3 ht).const_mul (2 * d2))).add_const
      d3).add (hid.const_mul (2 * d4))
    refine (this.congr_deriv ?_).congr_of_eventuallyEq (Eventually.of_forall fun x => ?_)
    · simp only [E]; push_cast; ring
    · simp only [D, Pi.add_apply, Pi.sub_apply, id]; ring
  rcases lt_or_gt_of_ne h1 with hl | hl
  · -- below: nothing is added
    have z := thermalV (p := p) 0 ht (hasDerivAt_const t (0:ℝ)) (S := fun _ => 0)
      (C := fun _ => 0) (D := fun _ => 0) (E := fun _ => 0)
      ((hasDerivAt_const t (0:ℝ)).congr_deriv (by simp)) (hasDerivAt_const _ _)
      (hasDerivAt_const _ _)
    have e : ∀ t' p', t' < lo → disorder lo hi lo2 hi2 d0 d1 d2 d3 d4 d5 t' p' =
        ⟨0, 0, 0, 0, 0, 0, 0, 0, 0, 0, 0⟩ := by
      intro t' p' h
      have n1 : ¬ t' > lo := not_lt.2 h.le
      have n2 : ¬ (t' > lo2 ∧ t' < hi2 ∧ d5 ≠ 0) := by
        rintro ⟨a, -, c⟩
        rcases hb with hb | hb
        · exact c hb
        · rw [hb.1] at a; exact n1 a
      simp only [disorder, n1, n2, false_and, if_false, add_zero]
    refine z.congr ?_ (Eventually.of_forall fun p' => ?_)
    · filter_upwards [gt_mem_nhds hl] with x hx
      rw [e x p hx]; ext <;> simp
    · rw [e t p' hl]; ext <;> simp
  · rcases lt_or_gt_of_ne h2 with hh | hh
    · have z := thermalV (p := p) (1 / d5) ht hH hS hC hD
      have e : ∀ t' p', lo < t' → t' < hi → disorder lo hi lo2 hi2 d0 d1 d2 d3 d4 d5 t' p' =
          ⟨H t' - t' * S t' + 1 / d5 * H t' * (p' - pr),
          H t' + 1 / d5 * H t' * (p' - pr) - (p' - pr) * t' * (1 / d5 * C t'),
          S t' - (p' - pr) * (1 / d5 * C t'), 1 / d5 * H t',
          C t' - (p' - pr) * t' * (1 / d5 * D t'),
          D t' - (p' - pr) * (1 / d5 * D t') - (p' - pr) * t' * (1 / d5 * E t'),
          1 / d5 * C t', 0, 1 / d5 * D t', 0, 0⟩ := by
        intro t' p' ha hb'
        have hm : min hi t' = t' := min_eq_right hb'.le
        by_cases h5 : d5 = 0
        · simp only [disorder, hm, h5, gt_iff_lt, hb', ha, and_self, ne_eq,
            not_true_eq_false, and_false, if_false, if_true, H, S, C, D, E]
          ext <;> simp
        · obtain ⟨q1, q2⟩ := hb.resolve_left h5
          simp only [disorder, hm, q1, q2, gt_iff_lt, hb', ha, and_self, ne_eq, h5,
            not_false_eq_true, if_true, H, S, C, D, E]
          ext <;> simp only [] <;> ring
      refine z.congr ?_ (Eventually.of_forall fun p' => e t p' hl hh)
      filter_upwards [lt_mem_nhds hl, gt_mem_nhds hh] with x hx hx'
      exact e x p hx hx'
    · have z := thermalV (p := p) (1 / d5) ht (H := fun _ => H hi) (S := fun _ => S hi)
        (C := fun _ => 0) (D := fun _ => 0) (E := fun _ => 0) (hasDerivAt_const _ _)
        ((hasDerivAt_const _ _).congr_deriv (by simp)) (hasDerivAt_const _ _)
        (hasDerivAt_const _ _)
      have e : ∀ t' p', hi < t' → disorder lo hi lo2 hi2 d0 d1 d2 d3 d4 d5 t' p' =
          ⟨H hi - t' * S hi + 1 / d5 * H hi * (p' - pr),
          H hi + 1 / d5 * H hi * (p' - pr) - (p' - pr) * t' * (1 / d5 * 0),
          S hi - (p' - pr) * (1 / d5 * 0), 1 / d5 * H hi,
          0 - (p' - pr) * t' * (1 / d5 * 0),
          0 - (p' - pr) * (1 / d5 * 0) - (p' - pr) * t' * (1 / d5 * 0),
          1 / d5 * 0, 0, 1 / d5 * 0, 0, 0⟩ := by
        intro t' p' ha
        have hm : min hi t' = hi := min_eq_left ha.le
        have hg : lo < t' := hlh.trans ha
        have hn : ¬ t' < hi := not_lt.2 ha.le
        have n2 : ¬ (t' > lo2 ∧ t' < hi2 ∧ d5 ≠ 0) := by
          rintro ⟨-, b, c⟩
          rcases hb with hb | hb
          · exact c hb
          · rw [hb.2] at b; exact hn b
        simp only [disorder, hm, n2, gt_iff_lt, hg, hn, and_false, false_and, if_false,
          if_true, H, S]
        by_cases h5 : d5 = 0
        · simp [h5]
        · simp only [ne_eq, h5, not_false_eq_true, if_true]
          ext <;> simp only [] <;> ring
      refine z.congr ?_ (Eventually.of_forall fun p' => e t p' hh)
      filter_upwards [lt_mem_nhds hh] with x hx
      exact e x p hx

/-- A constant enthalpy and entropy added to a solid. -/
def shift (dh ds t : ℝ) : Std := ⟨dh - t * ds, dh, ds, 0, 0, 0, 0, 0, 0, 0, 0⟩

lemma shift_consistent (dh ds : ℝ) {t p : ℝ} (ht : 0 < t) :
    Consistent (fun t _ => shift dh ds t) t p :=
  thermal (H := fun _ => dh) (S := fun _ => ds) (C := fun _ => 0) (D := fun _ => 0) ht
    (hasDerivAt_const _ _) ((hasDerivAt_const _ _).congr_deriv (by simp)) (hasDerivAt_const _ _)

/-- The temporary reference record of `vc-nepheline` and `ca-nepheline` (`gibbs.c` 2613-2622,
2643-2652; only the volume differs). -/
noncomputable def naNepheline (v : ℝ) : Ref where
  h := -2093004 * 4
  s := 124.641 * 4
  v := v
  cp := .berman ⟨205.24 * 4, -7.599e2 * 4, -108.383e5 * 4, 208.182e7 * 4, 467, 241 * 4,
    -50.249e-2 * 2, 165.95e-5 * 2⟩
  eos := .vinet 31.802e-6 48.7805 1.4747

/-- `faRef`, `gibbs.c` 2681-2687. -/
noncomputable def faRef : Ref := ⟨-1479360, 150.930, 4.630,
  .berman ⟨248.93, -19.239e2, 0, -13.910e7, 0, 0, 0, 0⟩, .berman (-0.730e-6) 0 26.546e-6 79.482e-10⟩
/-- `foRef`, `gibbs.c` 2688-2694. -/
noncomputable def foRef : Ref := ⟨-2174420, 94.010, 4.366,
  .berman ⟨238.64, -20.013e2, 0, -11.624e7, 0, 0, 0, 0⟩,
  .berman (-0.791e-6) 1.351e-12 29.464e-6 88.633e-10⟩
/-- `abRef`, `gibbs.c` 2729-2735. -/
noncomputable def abRef : Ref := ⟨-3921618, 224.412, 10.083,
  .berman ⟨393.64, -24.155e2, -78.928e5, 107.064e7, 0, 0, 0, 0⟩,
  .berman (-1.945e-6) 4.861e-12 26.307e-6 32.407e-10⟩
/-- `anRef`, `gibbs.c` 2736-2742. -/
noncomputable def anRef : Ref := ⟨-4228730 + 3.7 * 4184, 200.186 + 3.7 * 4184 / 2200, 10.075,
  .berman ⟨439.37, -37.341e2, 0, -31.702e7, 0, 0, 0, 0⟩,
  .berman (-1.272e-6) 3.176e-12 10.918e-6 41.985e-10⟩

/-- `gibbs` for a solid that reaches the general branch (`gibbs.c` 2472-2836): the general solid and
then the special terms selected by name.  `alb t p` is the ordering contribution of albite
(`albite.c`).  The recursive calls for "na-nepheline", "fayalite", "forsterite" and "anorthite" reach
the general branch and no special term; the one for "albite" reaches the albite term.  The names
handled before the general branch (gases, silica polymorphs, enstatite, water, metals, the
biotites) are not modelled here. -/
noncomputable def gibbsSolid (V : Solver) (alb : ℝ → ℝ → Std) (name : String) (r : Ref)
    (t p : ℝ) : Std :=
  if name = "albite" then solid r V t p + alb t p
  else if name = "gehlenite" then solid r V t p
    + disorder 698 1600 tr 1436 (-221.74) 0 172.91e5 36.950e-2 (-146.900e-6) 0 t p
  else if name = "vc-nepheline" then
    ((solid r V t p).scale 2 + solid (naNepheline (5.434181 * 8)) V t p).scale (1 / 2)
  else if name = "ca-nepheline" then
    ((solid r V t p + shift 23096 15.8765 t).scale 2
      + solid (naNepheline (5.433181 * 8)) V t p).scale (1 / 2)
  else if name = "iron-akermanite" then
    solid r V t p + (solid faRef V t p).scale (1 / 2) + (solid foRef V t p).scale (-(1 / 2))
  else if name = "soda-melilite" then
    solid r V t p + (solid abRef V t p + alb t p).scale 2 + (solid anRef V t p).scale (-2)
  else if name = "nepheline" ∧ t ≥ 1180.15 then solid r V t p + shift 2393 (2393 / 1180.15) t
  else if name = "sanidine" then solid r V t p
    + disorder tr 1436 tr 1436 282.98 (-4.83e3) 36.21e5 (-15.733e-2) 34.770e-6 41.063e4 t p
  else solid r V t p

/-- The temperatures at which a special term of a name switches. -/
noncomputable def switches (name : String) : List ℝ :=
  if name = "gehlenite" then [698, 1600]
  else if name = "vc-nepheline" ∨ name = "ca-nepheline" then [467]
  else if name = "nepheline" then [1180.15]
  else if name = "sanidine" then [tr, 1436]
  else []

/-- **C60**: every named solid of the general branch reports consistent properties, away from the
finitely many temperatures at which a transition or a special term switches. -/
theorem C60_named_solid (V : Solver) (alb : ℝ → ℝ → Std) (name : String) (r : Ref) {t p : ℝ}
    (ht : 0 < t) (hT : NotAtTransition r t) (hVr : SolverOk r V t p)
    (hVn : name = "vc-nepheline" ∨ name = "ca-nepheline" → SolverOk (naNepheline 0) V t p)
    (ha : name = "albite" ∨ name = "soda-melilite" → Consistent alb t p)
    (hs : t ∉ switches name) : Consistent (gibbsSolid V alb name r) t p := by
  have base := C60_solid r V ht hT hVr
  have bx : ∀ q : Ref, (∀ a K Kp, q.eos ≠ .vinet a K Kp) → (∀ b, q.cp = .berman b → b.Tt = 0) →
      Consistent (solid q V) t p := fun q h1 h2 =>
    C60_solid q V ht (fun b hb => Or.inl (h2 b hb)) (fun a K Kp h => absurd h (h1 a K Kp))
  have na : ∀ v, t ≠ 467 → SolverOk (naNepheline 0) V t p →
      Consistent (solid (naNepheline v) V) t p := by
    intro v h467 hV
    refine C60_solid _ V ht ?_ ?_
    · intro b hb
      right
      have : b.Tt = 467 := by
        simp only [naNepheline, CpModel.berman.injEq] at hb
        rw [← hb]
      rw [this]; exact h467
    · exact hV
  unfold gibbsSolid
  by_cases n1 : name = "albite"
  · simp only [if_pos n1]
    exact base.add (ha (Or.inl n1))
  simp only [if_neg n1]
  by_cases n2 : name = "gehlenite"
  · simp only [if_pos n2]
    simp only [switches, if_pos n2, List.mem_cons, List.not_mem_nil, or_false, not_or] at hs
    exact base.add (C60_disorder _ _ _ _ _ _ p ht (by norm_num) (Or.inl rfl) hs.1 hs.2)
  simp only [if_neg n2]
  by_cases n3 : name = "vc-nepheline"
  · simp only [if_pos n3]
    have hs' : t ≠ 467 := by simpa [switches, n3] using hs
    exact ((base.scale 2).add (na _ hs' (hVn (Or.inl n3)))).scale (1 / 2)
  simp only [if_neg n3]
  by_cases n4 : name = "ca-nepheline"
  · simp only [if_pos n4]
    have hs' : t ≠ 467 := by simpa [switches, n4] using hs
    exact (((base.add (shift_consistent _ _ ht)).scale 2).add
      (na _ hs' (hVn (Or.inr n4)))).scale (1 / 2)
  simp only [if_neg n4]
  by_cases n5 : name = "iron-akermanite"
  · simp only [if_pos n5]
    refine (base.add ((bx faRef ?_ ?_).scale (1 / 2))).add ((bx foRef ?_ ?_).scale (-(1 / 2)))
    · intro a K Kp h; simp [faRef] at h
    · intro b hb; simp only [faRef, CpModel.berman.injEq] at hb; rw [← hb]
    · intro a K Kp h; simp [foRef] at h
    · intro b hb; simp only [foRef, CpModel.berman.injEq] at hb; rw [← hb]
  simp only [if_neg n5]
  by_cases n6 : name = "soda-melilite"
  · simp only [if_pos n6]
    refine (base.add (((bx abRef ?_ ?_).add (ha (Or.inr n6))).scale 2)).add
      ((bx anRef ?_ ?_).scale (-2))
    · intro a K Kp h; simp [abRef] at h
    · intro b hb; simp only [abRef, CpModel.berman.injEq] at hb; rw [← hb]
    · intro a K Kp h; simp [anRef] at h
    · intro b hb; simp only [anRef, CpModel.berman.injEq] at hb; rw [← hb]
  simp only [if_neg n6]
  by_cases n7 : name = "nepheline"
  · simp only [n7, true_and, ge_iff_le]
    have hs' : t ≠ 1180.15 := by simpa [switches, n7] using hs
    have d8 : ¬ ("nepheline" = "sanidine") := by decide
    simp only [if_neg d8]
    rcases lt_or_gt_of_ne hs' with h | h
    · refine base.congr ?_ (Eventually.of_forall fun p' => if_neg (not_le.2 h))
      filter_upwards [gt_mem_nhds h] with x hx
      exact if_neg (not_le.2 hx)
    · refine (base.add (shift_consistent 2393 (2393 / 1180.15) ht)).congr ?_
        (Eventually.of_forall fun p' => if_pos h.le)
      filter_upwards [lt_mem_nhds h] with x hx
      exact if_pos (le_of_lt hx)
  simp only [n7, false_and, if_false]
  by_cases n8 : name = "sanidine"
  · simp only [if_pos n8]
    simp only [switches, if_neg n2, n3, n4, or_false, if_neg n7, if_pos n8, List.mem_cons,
      List.not_mem_nil, not_or, if_false] at hs
    refine base.add (C60_disorder _ _ _ _ _ _ p ht ?_ (Or.inr ⟨rfl, rfl⟩) hs.1 hs.2)
    unfold tr; norm_num
  · simp only [if_neg n8]
    exact base

/-! ## Gases -/

/-- `r` (`gibbs.c` 852). -/
noncomputable def rgas : ℝ := 8.3143

/-- Oxygen (`gibbs.c` 1616-1634, the compiled `CONSTANT_P_O2` choice). -/
noncomputable def oxygen (t _p : ℝ) : Std :=
  let hs := 23.10248 * (t - tr) + 2 * 804.8876 * (√t - √tr) - 1762835 * (1 / t - 1 / tr)
    - 18172.91960 * Real.log (t / tr) + 1 / 2 * 0.002676 * (t * t - tr * tr)
  let ss := 205.15 + 23.10248 * Real.log (t / tr) - 2 * 804.8876 * (1 / √t - 1 / √tr)
    - 1 / 2 * 1762835 * (1 / (t * t) - 1 / (tr * tr)) + 18172.91960 * (1 / t - 1 / tr)
    + 0.002676 * (t - tr)
  { g := hs - t * ss
    h := hs
    s := ss
    v := rgas * t / pr
    cp := 23.10248 + 804.8876 / √t + 1762835 / t ^ 2 - 18172.91960 / t + 0.002676 * t
    dcpdt := -(1 / 2) * 804.8876 / t ^ (3 / 2 : ℝ) - 2 * 1762835 / t ^ 3 + 18172.91960 / t ^ 2
      + 0.002676
    dvdt := rgas / pr
    dvdp := -rgas * t / pr ^ 2
    d2vdt2 := 0
    d2vdp2 := 2 * rgas * t / pr ^ 3
    d2vdtdp := -rgas / pr ^ 2 }

/-- Sulfur gas (`gibbs.c` 1686-1700). -/
noncomputable def sulfur (t p : ℝ) : Std :=
  let hs := 128600 + 32.2768105 * (t - tr) + 4.35324992e-3 * (t * t - tr * tr) / 2
    + 3.40018077e5 * (1 / t - 1 / tr) - 4.64141632e-7 * (t * t * t - tr * tr * tr) / 3
    + 2 * 47.1832248 * (√t - √tr)
  let ss := 228.165 + 32.2768105 * Real.log (t / tr) + 4.35324992e-3 * (t - tr)
    + (3.40018077e5 / 2) * (1 / (t * t) - 1 / (tr * tr)) - 4.64141632e-7 * (t * t - tr * tr) / 2
    - (47.1832248 / 2) * (1 / √t - 1 / √tr) - rgas * Real.log (p / pr)
  { g := hs - t * ss
    h := hs
    s := ss
    v := rgas * t / p
    cp := 32.2768105 + 4.35324992e-3 * t - 3.40018077e5 / (t * t) - 4.64141632e-7 * t * t
      + 47.1832248 / √t
    dcpdt := 4.35324992e-3 + 2 * 3.40018077e5 / (t * t * t) - 2 * 4.64141632e-7 * t
      - 1 / 2 * 47.1832248 / (t * √t)
    dvdt := rgas / p
    dvdp := -rgas * t / p ^ 2
    d2vdt2 := 0
    d2vdp2 := 2 * rgas * t / p ^ 3
    d2vdtdp := -rgas / p ^ 2 }

/-- **C60** (oxygen): the thermal quantities reported for oxygen are consistent with each other,
but the volume (and its derivatives) are not those of the reported Gibbs energy, which does not
depend on the pressure: nowhere is the reported volume its pressure derivative. -/
theorem C60_oxygen {t : ℝ} (p : ℝ) (ht : 0 < t) :
    (oxygen t p).g = (oxygen t p).h - t * (oxygen t p).s ∧
    HasDerivAt (fun t' => (oxygen t' p).g) (-(oxygen t p).s) t ∧
    HasDerivAt (fun t' => (oxygen t' p).h) (oxygen t p).cp t ∧
    HasDerivAt (fun t' => (oxygen t' p).cp) (oxygen t p).dcpdt t ∧
    ¬ HasDerivAt (fun p' => (oxygen t p').g) (oxygen t p).v p := by
  have c := C60_cpSaxena 0 205.15 ⟨23.10248, 0.002676, 1762835, 0, 0, 804.8876, -18172.91960⟩ p ht
  have e : ∀ t', (oxygen t' p).g = (cpSaxena 0 205.15 ⟨23.10248, 0.002676, 1762835, 0, 0, 804.8876,
      -18172.91960⟩ t').g ∧ (oxygen t' p).h = (cpSaxena 0 205.15 ⟨23.10248, 0.002676, 1762835, 0, 0,
      804.8876, -18172.91960⟩ t').h ∧ (oxygen t' p).s = (cpSaxena 0 205.15 ⟨23.10248, 0.002676,
      1762835, 0, 0, 804.8876, -18172.91960⟩ t').s ∧ (oxygen t' p).cp = (cpSaxena 0 205.15 ⟨23.10248,
      0.002676, 1762835, 0, 0, 804.8876, -18172.91960⟩ t').cp ∧ (oxygen t' p).dcpdt = (cpSaxena 0
      205.15 ⟨23.10248, 0.002676, 1762835, 0, 0, 804.8876, -18172.91960⟩ t').dcpdt := by
    intro t'
    simp only [oxygen, cpSaxena]
    refine ⟨by ring, by ring, by ring, by ring, by ring⟩
  obtain ⟨e1, e2, e3, e4, e5⟩ := e t
  refine ⟨rfl, ?_, ?_, ?_, ?_⟩
  · simp only [fun t' => (e t').1]; rw [e3]; exact c.entropy
  · simp only [fun t' => (e t').2.1]; rw [e4]; exact c.heat
  · simp only [fun t' => (e t').2.2.2.1]; rw [e5]; exact c.dcpdt
  · intro h
    have h0 : HasDerivAt (fun p' => (oxygen t p').g) 0 p := hasDerivAt_const p _
    have := h.unique h0
    simp only [oxygen, rgas, pr] at this
    have : 0 < 8.3143 * t / 1 := by positivity
    linarith

/-- **C60** (sulfur gas): every relation holds except those that involve the temperature derivative
of the entropy: the coefficient of the inverse square root in the entropy is a quarter of what the
heat capacity asks for, so that the entropy changes by less than `cp / t` and the Gibbs energy by
more than minus the entropy. -/
theorem C60_sulfur {t p : ℝ} (ht : 0 < t) (hp : 0 < p) :
    (sulfur t p).g = (sulfur t p).h - t * (sulfur t p).s ∧
    HasDerivAt (fun t' => (sulfur t' p).h) (sulfur t p).cp t ∧
    HasDerivAt (fun t' => (sulfur t' p).cp) (sulfur t p).dcpdt t ∧
    HasDerivAt (fun p' => (sulfur t p').g) (sulfur t p).v p ∧
    HasDerivAt (fun p' => (sulfur t p').s) (-(sulfur t p).dvdt) p ∧
    HasDerivAt (fun t' => (sulfur t' p).s)
      ((sulfur t p).cp / t - 3 / 4 * 47.1832248 / (t * √t)) t ∧
    ¬ HasDerivAt (fun t' => (sulfur t' p).s) ((sulfur t p).cp / t) t := by
  have hr : 0 < √t := Real.sqrt_pos.2 ht
  have hrr : √t ^ 2 = t := Real.sq_sqrt ht.le
  have hid := hasDerivAt_id t
  have hlp : HasDerivAt (fun p => Real.log (p / pr)) (1 / p) p :=
    d_logq (by unfold pr; norm_num) hp
  have hS : HasDerivAt (fun t' => (sulfur t' p).s)
      ((sulfur t p).cp / t - 3 / 4 * 47.1832248 / (t * √t)) t := by
    have := (((((((d_logq tr_pos.ne' ht).const_mul 32.2768105).const_add 228.165).add
      ((hid.sub_const tr).const_mul 4.35324992e-3)).add
      (((d_ipow 2 ht).sub_const (1 / tr ^ 2)).const_mul (3.40018077e5 / 2))).sub
      (((hasDerivAt_pow 2 t).sub_const (tr ^ 2)).const_mul (4.64141632e-7 / 2))).sub
      (((d_isqrt ht).sub_const (1 / √tr)).const_mul (47.1832248 / 2))).sub_const
      (rgas * Real.log (p / pr))
    refine (this.congr_deriv ?_).congr_of_eventuallyEq (Eventually.of_forall fun x => ?_)
    · simp only [sulfur]; field_simp; push_cast; ring
    · simp only [sulfur, Pi.add_apply, Pi.sub_apply, id]; ring
  refine ⟨rfl, ?_, ?_, ?_, ?_, hS, ?_⟩
  · have := (((((hid.sub_const tr).const_mul 32.2768105).const_add 128600).add
      (((hasDerivAt_pow 2 t).sub_const (tr ^ 2)).const_mul (4.35324992e-3 / 2))).add
      (((d_inv ht).sub_const (1 / tr)).const_mul 3.40018077e5)).sub
      (((hasDerivAt_pow 3 t).sub_const (tr ^ 3)).const_mul (4.64141632e-7 / 3)) |>.add
      (((d_sqrt ht).sub_const (√tr)).const_mul (2 * 47.1832248))
    refine (this.congr_deriv ?_).congr_of_eventuallyEq (Eventually.of_forall fun x => ?_)
    · simp only [sulfur]; field_simp; push_cast; ring
    · simp only [sulfur, Pi.add_apply, Pi.sub_apply, id]; ring
  · have := ((((hid.const_mul 4.35324992e-3).const_add 32.2768105).sub
      ((d_ipow 2 ht).const_mul 3.40018077e5)).sub
      ((hasDerivAt_pow 2 t).const_mul 4.64141632e-7)).add ((d_isqrt ht).const_mul 47.1832248)
    refine (this.congr_deriv ?_).congr_of_eventuallyEq (Eventually.of_forall fun x => ?_)
    · simp only [sulfur]; field_simp; push_cast; ring
    · simp only [sulfur, Pi.add_apply, Pi.sub_apply, id]; ring
  · have := (hlp.const_mul (t * rgas)).const_add ((sulfur t pr).g)
    refine (this.congr_deriv ?_).congr_of_eventuallyEq (Eventually.of_forall fun x => ?_)
    · simp only [sulfur]; ring
    · have h1 : Real.log (pr / pr) = 0 := by
        rw [div_self (by unfold pr; norm_num), Real.log_one]
      simp only [sulfur, h1]; ring
  · have := (hlp.const_mul rgas).const_sub (sulfur t pr).s
    refine (this.congr_deriv ?_).congr_of_eventuallyEq (Eventually.of_forall fun x => ?_)
    · simp only [sulfur]; ring
    · have h1 : Real.log (pr / pr) = 0 := by
        rw [div_self (by unfold pr; norm_num), Real.log_one]
      simp only [sulfur, h1]; ring
  · intro h
    have := h.unique hS
    have h2 : 0 < 3 / 4 * 47.1832248 / (t * √t) := by positivity
    linarith

/-! ## Concrete cases -/

/-- Forsterite at 1000 K and 1 kbar (no solver needed, no transition). -/
example (V : Solver) : Consistent (solid foRef V) 1000 1000 :=
  C60_solid foRef V (by norm_num)
    (fun b hb => Or.inl (by simp only [foRef, CpModel.berman.injEq] at hb; rw [← hb]))
    (fun a K Kp h => by simp [foRef] at h)

/-- Sanidine at 1000 K, between the two temperatures of its ordering term, for any reference record
with a Berman equation of state and no transition. -/
example (V : Solver) (alb : ℝ → ℝ → Std) :
    Consistent (gibbsSolid V alb "sanidine" foRef) 1000 1000 :=
  C60_named_solid V alb "sanidine" foRef (by norm_num)
    (fun b hb => Or.inl (by simp only [foRef, CpModel.berman.injEq] at hb; rw [← hb]))
    (fun a K Kp h => by simp [foRef] at h) (fun h => by simp at h) (fun h => by simp at h)
    (by simp [switches, tr]; norm_num)

/-- 1.1 is on the branch of the Vinet curve of the nephelines. -/
lemma vU_example : (1.1 : ℝ) ∈ vU (3 * (1.4747 - 1) / 2) := by
  constructor <;> norm_num

/-- The volume solver of the nephelines exists around 1400 K and 2 kbar (and at the reference
pressure), so that the hypothesis of the theorem about the nephelines is met. -/
example : ∃ V : Solver, SolverOk (naNepheline 0) V 1400 2000 := by
  obtain ⟨X, hX⟩ := C60_vinet_solvable (alpha := 31.802e-6) (K := 48.7805) (Kp := 1.4747)
    (by norm_num) (by norm_num) vU_example
  refine ⟨fun _ _ _ => X, ?_⟩
  intro a K Kp h
  simp only [naNepheline, Eos.vinet.injEq] at h
  obtain ⟨rfl, rfl, rfl⟩ := h
  have hb : vF 48.7805 (3 * (1.4747 - 1) / 2) 1.1 ≤ -2 := by
    have h1 : 1 + 3 * (1.4747 - 1) / 2 * (1 - 1.1 : ℝ) ≤ exp (3 * (1.4747 - 1) / 2 * (1 - 1.1)) := by
      have := add_one_le_exp (3 * (1.4747 - 1) / 2 * (1 - 1.1) : ℝ)
      linarith
    rw [vF, div_le_iff₀ (by norm_num)]
    norm_num at h1 ⊢
    linarith
  have key : ∀ t p : ℝ, t < 1500 → 0 < p → VinetRoot 31.802e-6 48.7805 1.4747 X t p := by
    intro t p h1 h2
    refine hX t p (hb.trans ?_)
    simp only [tr]
    norm_num
    linarith
  refine ⟨by norm_num, by norm_num, ?_, ?_, ?_⟩
  · filter_upwards [gt_mem_nhds (show (1400:ℝ) < 1500 by norm_num)] with t ht
    exact key t _ ht (by norm_num)
  · filter_upwards [lt_mem_nhds (show (0:ℝ) < 2000 by norm_num)] with p hp
    exact key _ p (by norm_num) hp
  · filter_upwards [gt_mem_nhds (show (1400:ℝ) < 1500 by norm_num)] with t ht
    exact key t _ ht (by unfold pr; norm_num)

end Verif.Thermo.StdState
