import Verif.Thermo.ConvTables
import Mathlib.Analysis.SpecialFunctions.Log.Deriv
import Mathlib.Analysis.SpecialFunctions.ExpDeriv

/-!
What a solution phase reports through `gmix*`, `hmix*`, `smix*`, `cpmix*`, `vmix*` and `act*`
(for example /repo/sources/feldspar.c 526-850), with

* a specification, `Mix.Consistent`: every reported derivative is the derivative of the reported value, entropy
  and volume are `-∂G/∂T` and `∂G/∂P`, and so on, where the phase's site fractions are above `DBL_EPSILON`;
* the model of the part of `act*` that is the same text in every phase file (chemical potentials, activities and
  their derivatives), and what follows for it from the specification.

The phases themselves are in `Thermo/Minerals`. Simplification: `double` is the real numbers.
-/

namespace Magma.Thermo.Mixing

open Finset Magma.Thermo.Extensive Magma.Thermo.Compo

noncomputable section

variable {nr : ℕ}

/-- Outputs of the mixing functions of a phase; arguments `t p r`. The names follow the outputs:
`gmix*` returns `g, gr, grr, grrr`, `hmix*` `h`, `smix*` `s, sr, srr`, `cpmix*` `cp, cpt, cpr`,
`vmix*` `v, vr, vrr, vt, vp, vtt, vtp, vpp, vrt, vrp`; `fx` are the fractions `act*` uses in its `FR` table. -/
structure Mix (nr : ℕ) where
  g : ℝ → ℝ → (Fin nr → ℝ) → ℝ
  gr : ℝ → ℝ → (Fin nr → ℝ) → Fin nr → ℝ
  grr : ℝ → ℝ → (Fin nr → ℝ) → Fin nr → Fin nr → ℝ
  grrr : ℝ → ℝ → (Fin nr → ℝ) → Fin nr → Fin nr → Fin nr → ℝ
  h : ℝ → ℝ → (Fin nr → ℝ) → ℝ
  s : ℝ → ℝ → (Fin nr → ℝ) → ℝ
  sr : ℝ → ℝ → (Fin nr → ℝ) → Fin nr → ℝ
  srr : ℝ → ℝ → (Fin nr → ℝ) → Fin nr → Fin nr → ℝ
  cp : ℝ → ℝ → (Fin nr → ℝ) → ℝ
  cpt : ℝ → ℝ → (Fin nr → ℝ) → ℝ
  cpr : ℝ → ℝ → (Fin nr → ℝ) → Fin nr → ℝ
  v : ℝ → ℝ → (Fin nr → ℝ) → ℝ
  vr : ℝ → ℝ → (Fin nr → ℝ) → Fin nr → ℝ
  vrr : ℝ → ℝ → (Fin nr → ℝ) → Fin nr → Fin nr → ℝ
  vt : ℝ → ℝ → (Fin nr → ℝ) → ℝ
  vp : ℝ → ℝ → (Fin nr → ℝ) → ℝ
  vtt : ℝ → ℝ → (Fin nr → ℝ) → ℝ
  vtp : ℝ → ℝ → (Fin nr → ℝ) → ℝ
  vpp : ℝ → ℝ → (Fin nr → ℝ) → ℝ
  vrt : ℝ → ℝ → (Fin nr → ℝ) → Fin nr → ℝ
  vrp : ℝ → ℝ → (Fin nr → ℝ) → Fin nr → ℝ
  fx : (Fin nr → ℝ) → Fin nr → ℝ

/-- The outputs of a phase fit together at every composition of `I`, every temperature and pressure. -/
structure Mix.Consistent (M : Mix nr) (I : (Fin nr → ℝ) → Prop) : Prop where
  /-- composition derivatives of the Gibbs energy, to third order -/
  g_r : ∀ t p r, I r → Grad (M.g t p) r (M.gr t p r)
  g_rr : ∀ t p r, I r → ∀ i, Grad (fun r => M.gr t p r i) r (M.grr t p r i)
  g_rrr : ∀ t p r, I r → ∀ i j, Grad (fun r => M.grr t p r i j) r (M.grrr t p r i j)
  /-- entropy is minus the temperature derivative, enthalpy is `G + T S` -/
  g_t : ∀ t p r, I r → HasDerivAt (fun t => M.g t p r) (-M.s t p r) t
  h_eq : ∀ t p r, I r → M.h t p r = M.g t p r + t * M.s t p r
  s_r : ∀ t p r, I r → Grad (M.s t p) r (M.sr t p r)
  s_rr : ∀ t p r, I r → ∀ i, Grad (fun r => M.sr t p r i) r (M.srr t p r i)
  /-- heat capacity is the temperature derivative of the enthalpy -/
  h_t : ∀ t p r, I r → HasDerivAt (fun t => M.h t p r) (M.cp t p r) t
  cp_t : ∀ t p r, I r → HasDerivAt (fun t => M.cp t p r) (M.cpt t p r) t
  cp_r : ∀ t p r, I r → Grad (M.cp t p) r (M.cpr t p r)
  /-- volume is the pressure derivative -/
  g_p : ∀ t p r, I r → HasDerivAt (fun p => M.g t p r) (M.v t p r) p
  v_r : ∀ t p r, I r → Grad (M.v t p) r (M.vr t p r)
  v_rr : ∀ t p r, I r → ∀ i, Grad (fun r => M.vr t p r i) r (M.vrr t p r i)
  v_t : ∀ t p r, I r → HasDerivAt (fun t => M.v t p r) (M.vt t p r) t
  v_p : ∀ t p r, I r → HasDerivAt (fun p => M.v t p r) (M.vp t p r) p
  v_tt : ∀ t p r, I r → HasDerivAt (fun t => M.vt t p r) (M.vtt t p r) t
  v_tp : ∀ t p r, I r → HasDerivAt (fun p => M.vt t p r) (M.vtp t p r) p
  v_pp : ∀ t p r, I r → HasDerivAt (fun p => M.vp t p r) (M.vpp t p r) p
  v_rt : ∀ t p r, I r → ∀ i, HasDerivAt (fun t => M.vr t p r i) (M.vrt t p r i) t
  v_rp : ∀ t p r, I r → ∀ i, HasDerivAt (fun p => M.vr t p r i) (M.vrp t p r i) p
  /-- partial molar entropy, volume and heat capacity -/
  g_rt : ∀ t p r, I r → ∀ i, HasDerivAt (fun t => M.gr t p r i) (-M.sr t p r i) t
  g_rp : ∀ t p r, I r → ∀ i, HasDerivAt (fun p => M.gr t p r i) (M.vr t p r i) p
  s_rt : ∀ t p r, I r → t ≠ 0 → ∀ i, HasDerivAt (fun t => M.sr t p r i) (M.cpr t p r i / t) t
  vp_r : ∀ t p r, I r → Grad (M.vp t p) r (M.vrp t p r)
  /-- the second and third derivatives are symmetric -/
  sym2 : ∀ t p r, I r → ∀ i j, M.grr t p r i j = M.grr t p r j i
  sym3 : ∀ t p r, I r → ∀ i j k,
    M.grrr t p r i j k = M.grrr t p r j i k ∧ M.grrr t p r i j k = M.grrr t p r i k j
  /-- the fractions used by `act*` are the composition -/
  fx_eq : ∀ r, I r → M.fx r = r

/-! ### Chemical potentials and activities (`act*`) -/

/-- The gas constant as written in the phase files (`#define R 8.3143`, leucite.c 107). -/
def R : ℝ := 8.3143

/-- `FRj(i)`, leucite.c 99-100, hornblende.c 87-88, majorite.c 646-649; `dep` is the dependent end member. -/
def fr (M : Mix nr) (dep : Fin (nr + 1)) (r : Fin nr → ℝ) (i : Fin (nr + 1)) (j : Fin nr) : ℝ :=
  if i = dep.succAbove j then 1 - M.fx r j else - M.fx r j

/-- leucite.c 468-472 (feldspar.c 556-560, garnet.c 563-567, ...). -/
def mu (M : Mix nr) (dep : Fin (nr + 1)) (t p : ℝ) (r : Fin nr → ℝ) (i : Fin (nr + 1)) : ℝ :=
  M.g t p r + ∑ j, fr M dep r i j * M.gr t p r j

/-- leucite.c 461-466. -/
def act (M : Mix nr) (dep : Fin (nr + 1)) (t p : ℝ) (r : Fin nr → ℝ) (i : Fin (nr + 1)) : ℝ :=
  Real.exp ((M.g t p r + ∑ j, fr M dep r i j * M.gr t p r j) / (R * t))

/-- leucite.c 474-493, with `DFRjDRj = -1` (leucite.c 101-102). -/
def dact (M : Mix nr) (dep : Fin (nr + 1)) (t p : ℝ) (r : Fin nr → ℝ) (i : Fin (nr + 1)) (k : Fin nr) : ℝ :=
  Real.exp ((M.g t p r + ∑ j, fr M dep r i j * M.gr t p r j) / (R * t)) *
    (((1 + -1) * M.gr t p r k + ∑ j, fr M dep r i j * M.grr t p r j k) / (R * t))

/-! ### Lemmas -/

theorem R_pos : 0 < R := by unfold R; norm_num

theorem grad_of_partials {f : (Fin nr → ℝ) → ℝ} {r : Fin nr → ℝ} {d : Fin nr → ℝ}
    (hd : DifferentiableAt ℝ f r) (hp : ∀ j, Partial f r j (d j)) : Grad f r d := by
  unfold Grad
  have h := hd.hasFDerivAt
  have e : fderiv ℝ f r = ∑ i, d i • (ContinuousLinearMap.proj i : (Fin nr → ℝ) →L[ℝ] ℝ) := by
    refine ContinuousLinearMap.ext fun v => ?_
    have hj : ∀ j, fderiv ℝ f r (fun i => if i = j then 1 else 0) = d j := by
      intro j
      have hb : HasDerivAt (fun h => bump r j h) (fun i => if i = j then 1 else 0) 0 := by
        refine hasDerivAt_pi.mpr fun i => ?_
        unfold bump
        split_ifs
        · exact (hasDerivAt_id' (0 : ℝ)).const_add (r i)
        · exact hasDerivAt_const _ _
      have h2 : HasFDerivAt f (fderiv ℝ f r) (bump r j 0) := by rw [bump_zero]; exact h
      exact (h2.comp_hasDerivAt (0 : ℝ) hb).unique (hp j)
    have hv : v = ∑ j, v j • (fun i => if i = j then (1 : ℝ) else 0) := by
      funext i; simp
    conv_lhs => rw [hv]
    rw [map_sum]
    simp only [map_smul, hj]
    simp [mul_comm]
  rw [← e]; exact h

theorem partial_of_grad {f : (Fin nr → ℝ) → ℝ} {r : Fin nr → ℝ} {d : Fin nr → ℝ} (h : Grad f r d) (j : Fin nr) :
    Partial f r j (d j) := by
  have := partial_comp f (fun r => r) r j d (fun i => if i = j then 1 else 0) h ?_
  · simpa using this
  · intro i
    change HasDerivAt (fun h => r i + if i = j then h else 0) _ 0
    split_ifs
    · exact (hasDerivAt_id' (0 : ℝ)).const_add (r i)
    · exact hasDerivAt_const _ _

/-- `fr` where the fractions used are the composition. -/
def fr0 (dep : Fin (nr + 1)) (r : Fin nr → ℝ) (i : Fin (nr + 1)) (j : Fin nr) : ℝ :=
  (if i = dep.succAbove j then 1 else 0) - r j

theorem fr_eq {M : Mix nr} {I} (hM : M.Consistent I) {dep : Fin (nr + 1)} {r} (hr : I r) (i j) :
    fr M dep r i j = fr0 dep r i j := by
  unfold fr fr0
  rw [hM.fx_eq r hr]
  split_ifs <;> ring

/-! ### Site fractions

Each phase function starts by computing the site fractions, replacing those not above `DBL_EPSILON` by
`DBL_EPSILON` (leucite.c 435-440, repeated in every function of the file), and then evaluates macros in them. -/

/-- `DBL_EPSILON` of `<float.h>`. -/
def eps : ℝ := 1 / 2 ^ 52

theorem eps_pos : 0 < eps := by unfold eps; positivity

/-- `(e > DBL_EPSILON) ? e : DBL_EPSILON`, leucite.c 435. -/
def clamp (e : ℝ) : ℝ := if e > eps then e else eps

theorem clamp_of {e : ℝ} (h : e > eps) : clamp e = e := if_pos h

/-- `LOG(x)`, feldspar.c 154. -/
def LOG (x : ℝ) : ℝ := if x > 0 then Real.log x else Real.log eps

/-- The phase whose functions evaluate `F` (macros in `x`) at the composition with `x = sites r`. -/
def ofSites {ns : ℕ} (F : (Fin ns → ℝ) → Mix nr) (sites : (Fin nr → ℝ) → Fin ns → ℝ) : Mix nr where
  g t p r := (F (sites r)).g t p r
  gr t p r := (F (sites r)).gr t p r
  grr t p r := (F (sites r)).grr t p r
  grrr t p r := (F (sites r)).grrr t p r
  h t p r := (F (sites r)).h t p r
  s t p r := (F (sites r)).s t p r
  sr t p r := (F (sites r)).sr t p r
  srr t p r := (F (sites r)).srr t p r
  cp t p r := (F (sites r)).cp t p r
  cpt t p r := (F (sites r)).cpt t p r
  cpr t p r := (F (sites r)).cpr t p r
  v t p r := (F (sites r)).v t p r
  vr t p r := (F (sites r)).vr t p r
  vrr t p r := (F (sites r)).vrr t p r
  vt t p r := (F (sites r)).vt t p r
  vp t p r := (F (sites r)).vp t p r
  vtt t p r := (F (sites r)).vtt t p r
  vtp t p r := (F (sites r)).vtp t p r
  vpp t p r := (F (sites r)).vpp t p r
  vrt t p r := (F (sites r)).vrt t p r
  vrp t p r := (F (sites r)).vrp t p r
  fx r := (F (sites r)).fx r

/-- Compositions whose site fractions are all above `DBL_EPSILON`. -/
def Interior {ns : ℕ} (raw : (Fin nr → ℝ) → Fin ns → ℝ) (r : Fin nr → ℝ) : Prop := ∀ k, raw r k > eps

theorem Grad.congr {f f' : (Fin nr → ℝ) → ℝ} {r : Fin nr → ℝ} {d : Fin nr → ℝ} (h : Grad f' r d)
    (e : f =ᶠ[nhds r] f') : Grad f r d := HasFDerivAt.congr_of_eventuallyEq h e

theorem isOpen_interior {ns : ℕ} (raw : (Fin nr → ℝ) → Fin ns → ℝ) (hc : ∀ k, Continuous fun r => raw r k) :
    IsOpen {r | Interior raw r} := by
  have : {r | Interior raw r} = ⋂ k, {r | raw r k > eps} := by ext r; simp [Interior]
  rw [this]
  exact isOpen_iInter_of_finite fun k => isOpen_lt continuous_const (hc k)

/-- In the interior the clamping has no effect. -/
theorem consistent_clamp {ns : ℕ} (F : (Fin ns → ℝ) → Mix nr) (raw : (Fin nr → ℝ) → Fin ns → ℝ)
    (hc : ∀ k, Continuous fun r => raw r k) (h : (ofSites F raw).Consistent (Interior raw)) :
    (ofSites F (fun r k => clamp (raw r k))).Consistent (Interior raw) := by
  have hs : ∀ r, Interior raw r → (fun k => clamp (raw r k)) = raw r := fun r hr => by
    funext k; exact clamp_of (hr k)
  have ev : ∀ r, Interior raw r → ∀ q : (Fin ns → ℝ) → (Fin nr → ℝ) → ℝ,
      (fun r => q (fun k => clamp (raw r k)) r) =ᶠ[nhds r] fun r => q (raw r) r := by
    intro r hr q
    filter_upwards [(isOpen_interior raw hc).mem_nhds hr] with r hr
    rw [hs r hr]
  constructor
  · intro t p r hr
    refine Grad.congr ?_ (ev r hr fun X r => (F X).g t p r)
    simp only [ofSites, hs r hr]; exact h.g_r t p r hr
  · intro t p r hr i
    refine Grad.congr ?_ (ev r hr fun X r => (F X).gr t p r i)
    simp only [ofSites, hs r hr]; exact h.g_rr t p r hr i
  · intro t p r hr i j
    refine Grad.congr ?_ (ev r hr fun X r => (F X).grr t p r i j)
    simp only [ofSites, hs r hr]; exact h.g_rrr t p r hr i j
  · intro t p r hr; simp only [ofSites, hs r hr]; exact h.g_t t p r hr
  · intro t p r hr; simp only [ofSites, hs r hr]; exact h.h_eq t p r hr
  · intro t p r hr
    refine Grad.congr ?_ (ev r hr fun X r => (F X).s t p r)
    simp only [ofSites, hs r hr]; exact h.s_r t p r hr
  · intro t p r hr i
    refine Grad.congr ?_ (ev r hr fun X r => (F X).sr t p r i)
    simp only [ofSites, hs r hr]; exact h.s_rr t p r hr i
  · intro t p r hr; simp only [ofSites, hs r hr]; exact h.h_t t p r hr
  · intro t p r hr; simp only [ofSites, hs r hr]; exact h.cp_t t p r hr
  · intro t p r hr
    refine Grad.congr ?_ (ev r hr fun X r => (F X).cp t p r)
    simp only [ofSites, hs r hr]; exact h.cp_r t p r hr
  · intro t p r hr; simp only [ofSites, hs r hr]; exact h.g_p t p r hr
  · intro t p r hr
    refine Grad.congr ?_ (ev r hr fun X r => (F X).v t p r)
    simp only [ofSites, hs r hr]; exact h.v_r t p r hr
  · intro t p r hr i
    refine Grad.congr ?_ (ev r hr fun X r => (F X).vr t p r i)
    simp only [ofSites, hs r hr]; exact h.v_rr t p r hr i
  · intro t p r hr; simp only [ofSites, hs r hr]; exact h.v_t t p r hr
  · intro t p r hr; simp only [ofSites, hs r hr]; exact h.v_p t p r hr
  · intro t p r hr; simp only [ofSites, hs r hr]; exact h.v_tt t p r hr
  · intro t p r hr; simp only [ofSites, hs r hr]; exact h.v_tp t p r hr
  · intro t p r hr; simp only [ofSites, hs r hr]; exact h.v_pp t p r hr
  · intro t p r hr; simp only [ofSites, hs r hr]; exact h.v_rt t p r hr
  · intro t p r hr; simp only [ofSites, hs r hr]; exact h.v_rp t p r hr
  · intro t p r hr; simp only [ofSites, hs r hr]; exact h.g_rt t p r hr
  · intro t p r hr; simp only [ofSites, hs r hr]; exact h.g_rp t p r hr
  · intro t p r hr; simp only [ofSites, hs r hr]; exact h.s_rt t p r hr
  · intro t p r hr
    refine Grad.congr ?_ (ev r hr fun X r => (F X).vp t p r)
    simp only [ofSites, hs r hr]; exact h.vp_r t p r hr
  · intro t p r hr; simp only [ofSites, hs r hr]; exact h.sym2 t p r hr
  · intro t p r hr; simp only [ofSites, hs r hr]; exact h.sym3 t p r hr
  · intro r hr; simp only [ofSites, hs r hr]; exact h.fx_eq r hr

/-! ### Derivative tactics for the phase files -/

theorem partial_of_update {f : (Fin nr → ℝ) → ℝ} {r : Fin nr → ℝ} {j : Fin nr} {d : ℝ}
    (h : HasDerivAt (fun y => f (Function.update r j y)) d (r j)) : Partial f r j d := by
  unfold Partial
  have h0 : HasDerivAt (fun h : ℝ => r j + h) 1 0 := (hasDerivAt_id' (0 : ℝ)).const_add (r j)
  have h1 : HasDerivAt (fun y => f (Function.update r j y)) d (r j + 0) := by rw [add_zero]; exact h
  have h2 := h1.comp (0 : ℝ) h0
  rw [mul_one] at h2
  refine h2.congr_of_eventuallyEq (Filter.Eventually.of_forall fun x => ?_)
  change f _ = f _
  congr 1
  funext i
  unfold bump Function.update
  by_cases hi : i = j
  · subst hi; simp
  · simp [hi]

theorem hasDerivAt_LOG {f : ℝ → ℝ} {f' x : ℝ} (hf : HasDerivAt f f' x) (h : 0 < f x) :
    HasDerivAt (fun y => LOG (f y)) (f' / f x) x := by
  refine (hf.log h.ne').congr_of_eventuallyEq ?_
  filter_upwards [hf.continuousAt.eventually (lt_mem_nhds h)] with y hy
  exact if_pos hy

theorem differentiableAt_div {f g : (Fin nr → ℝ) → ℝ} {x : Fin nr → ℝ} (hf : DifferentiableAt ℝ f x)
    (hg : DifferentiableAt ℝ g x) (h : g x ≠ 0) : DifferentiableAt ℝ (fun y => f y / g y) x := by
  simp only [div_eq_mul_inv]
  exact hf.fun_mul (hg.inv h)

theorem differentiableAt_LOG {f : (Fin nr → ℝ) → ℝ} {x : Fin nr → ℝ} (hf : DifferentiableAt ℝ f x) (h : 0 < f x) :
    DifferentiableAt ℝ (fun y => LOG (f y)) x := by
  refine (hf.log h.ne').congr_of_eventuallyEq ?_
  filter_upwards [hf.continuousAt.eventually (lt_mem_nhds h)] with y hy
  exact if_pos hy

/-- Derivative of an expression built with arithmetic and logarithms; side conditions by assumption. -/
macro "hd" : tactic => `(tactic| repeat' first
  | exact hasDerivAt_const _ _
  | exact hasDerivAt_id' _
  | assumption
  | apply HasDerivAt.fun_sub
  | apply HasDerivAt.fun_add
  | apply HasDerivAt.fun_neg
  | apply HasDerivAt.fun_div
  | apply HasDerivAt.fun_mul
  | apply HasDerivAt.fun_pow
  | apply HasDerivAt.log
  | apply hasDerivAt_LOG
  | apply mul_ne_zero
  | apply pow_ne_zero
  | exact two_ne_zero
  | (norm_num; done))

/-- Differentiability of such an expression. -/
macro "dd" : tactic => `(tactic| repeat' first
  | exact differentiableAt_const _
  | exact differentiableAt_apply _ _
  | assumption
  | apply DifferentiableAt.fun_sub
  | apply DifferentiableAt.fun_add
  | apply DifferentiableAt.fun_neg
  | apply differentiableAt_div
  | apply DifferentiableAt.fun_mul
  | apply DifferentiableAt.fun_pow
  | apply DifferentiableAt.log
  | apply differentiableAt_LOG
  | apply mul_ne_zero
  | apply pow_ne_zero
  | exact two_ne_zero
  | (norm_num; done))

/-! ### Theorems -/

/-- **C24.** Euler's relation: chemical potentials weighted by mole fractions sum to the Gibbs energy of
mixing. -/
theorem C24_euler (M : Mix nr) (I) (hM : M.Consistent I) (dep : Fin (nr + 1)) (t p : ℝ) (r : Fin nr → ℝ)
    (hr : I r) : ∑ i, fromR dep r i * mu M dep t p r i = M.g t p r := by
  have h1 := (C25_sum_one dep (fun _ => 1) (by simp; positivity) r).2
  unfold mu
  simp only [mul_add, sum_add_distrib, ← sum_mul, h1, one_mul]
  have : ∑ i, fromR dep r i * ∑ j, fr M dep r i j * M.gr t p r j = 0 := by
    simp only [mul_sum]
    rw [sum_comm]
    refine sum_eq_zero fun j _ => ?_
    have e : ∀ i, fromR dep r i * (fr M dep r i j * M.gr t p r j) =
        (fromR dep r i * (if i = dep.succAbove j then 1 else 0) - fromR dep r i * r j) * M.gr t p r j := by
      intro i; rw [fr_eq hM hr, fr0]; ring
    simp only [e]
    rw [← sum_mul, sum_sub_distrib, ← sum_mul, h1]
    simp [fromR]
  rw [this, add_zero]

/-- **C24.** The chemical potentials are the derivatives of the total Gibbs energy of mixing in the moles of the
end members. -/
theorem C24_potential_is_derivative (M : Mix nr) (I) (hM : M.Consistent I) (dep : Fin (nr + 1)) (t p : ℝ)
    (m : Fin (nr + 1) → ℝ) (h0 : ∑ i, m i ≠ 0) (hr : I (toR dep m)) (i : Fin (nr + 1)) :
    Partial (fun m => (∑ i, m i) * M.g t p (toR dep m)) m i (mu M dep t p (toR dep m) i) := by
  have h := C23_gradient_conversion dep (M.g t p) m h0 _ (hM.g_r t p _ hr) i
  refine HasDerivAt.congr_deriv h ?_
  have h0' : total m ≠ 0 := h0
  unfold gradient mu
  rw [add_comm, mul_sum]
  congr 1
  refine sum_congr rfl fun j _ => ?_
  rw [fr_eq hM hr, dm_eq dep m h0, fr0, toR_eq dep m h0]
  change total m * _ = _
  simp only [q1, q0, coef, lin_coef]
  simp only [eq_comm (a := dep.succAbove j) (b := i)]
  field_simp

/-- **C24.** The activity is `exp(μ/RT)`. -/
theorem C24_activity (M : Mix nr) (dep : Fin (nr + 1)) (t p : ℝ) (ht : t ≠ 0) (r : Fin nr → ℝ)
    (i : Fin (nr + 1)) : R * t * Real.log (act M dep t p r i) = mu M dep t p r i := by
  unfold act
  rw [Real.log_exp]
  have := R_pos.ne'
  unfold mu
  field_simp

/-- **C24.** The composition derivatives of the activities returned are their derivatives. -/
theorem C24_activity_derivative (M : Mix nr) (I) (hM : M.Consistent I) (hI : IsOpen {r | I r})
    (dep : Fin (nr + 1)) (t p : ℝ) (r : Fin nr → ℝ) (hr : I r) (i : Fin (nr + 1)) (k : Fin nr) :
    Partial (fun r => act M dep t p r i) r k (dact M dep t p r i k) := by
  have hfr : ∀ r, I r → ∀ j, fr M dep r i j = fr0 dep r i j := fun r hr j => fr_eq hM hr i j
  have hb : ContinuousAt (fun h => bump r k h) 0 := by
    refine continuousAt_pi.mpr fun i => ?_
    unfold bump
    split_ifs
    · exact (continuous_const.add continuous_id).continuousAt
    · exact continuousAt_const
  have hev : ∀ᶠ h in nhds (0 : ℝ), I (bump r k h) :=
    hb.eventually (hI.mem_nhds (by change I (bump r k 0); rw [bump_zero]; exact hr))
  have h1 : HasDerivAt (fun h => M.g t p (bump r k h)) (M.gr t p r k) 0 := partial_of_grad (hM.g_r t p r hr) k
  have h2 : ∀ j, HasDerivAt (fun h => M.gr t p (bump r k h) j) (M.grr t p r j k) 0 :=
    fun j => partial_of_grad (hM.g_rr t p r hr j) k
  have h3 : ∀ j, HasDerivAt (fun h => fr0 dep (bump r k h) i j) (-(if j = k then 1 else 0)) 0 := by
    intro j
    unfold fr0 bump
    split_ifs <;>
    first
      | exact ((hasDerivAt_id' (0 : ℝ)).const_add (r j)).const_sub _
      | exact (hasDerivAt_const (0 : ℝ) _).congr_deriv (by simp)
  have h4 := HasDerivAt.sum (u := univ) (x := (0 : ℝ))
    (A := fun j h => fr0 dep (bump r k h) i j * M.gr t p (bump r k h) j) fun j _ => (h3 j).mul (h2 j)
  have h5 := ((h1.add h4).div_const (R * t)).exp
  unfold Partial
  refine (h5.congr_of_eventuallyEq ?_).congr_deriv ?_
  · filter_upwards [hev] with h hh
    simp only [act, Pi.add_apply, Finset.sum_apply, hfr _ hh]
  · simp only [Pi.add_apply, Finset.sum_apply, bump_zero, dact, hfr r hr]
    congr 2
    rw [sum_add_distrib]
    have : ∑ j, -(if j = k then (1 : ℝ) else 0) * M.gr t p r j = - M.gr t p r k := by simp
    rw [this]; ring

/-- **C24.** Gibbs-Duhem: the mole-fraction weighted sum of the relative activity derivatives vanishes. -/
theorem C24_gibbs_duhem (M : Mix nr) (I) (hM : M.Consistent I) (dep : Fin (nr + 1)) (t p : ℝ)
    (r : Fin nr → ℝ) (hr : I r) (k : Fin nr) :
    ∑ i, fromR dep r i * (dact M dep t p r i k / act M dep t p r i) = 0 := by
  have h1 := (C25_sum_one dep (fun _ => 1) (by simp; positivity) r).2
  have e : ∀ i, dact M dep t p r i k / act M dep t p r i = (∑ j, fr0 dep r i j * M.grr t p r j k) / (R * t) := by
    intro i
    unfold dact act
    rw [mul_div_cancel_left₀ _ (Real.exp_ne_zero _)]
    simp only [fr_eq hM hr]
    ring
  simp only [e, mul_div_assoc', mul_sum]
  rw [← sum_div, sum_comm]
  have : ∀ j, ∑ i, fromR dep r i * (fr0 dep r i j * M.grr t p r j k) = 0 := by
    intro j
    have e : ∀ i, fromR dep r i * (fr0 dep r i j * M.grr t p r j k) =
        (fromR dep r i * (if i = dep.succAbove j then 1 else 0) - fromR dep r i * r j) * M.grr t p r j k := by
      intro i; rw [fr0]; ring
    simp only [e]
    rw [← sum_mul, sum_sub_distrib, ← sum_mul, h1]
    simp [fromR]
  simp [this]

/-- **C24.** The entropy's temperature derivative is the heat capacity over temperature. -/
theorem C24_heat_capacity (M : Mix nr) (I) (hM : M.Consistent I) (t p : ℝ) (r : Fin nr → ℝ) (hr : I r)
    (ht : t ≠ 0) : HasDerivAt (fun t => M.s t p r) (M.cp t p r / t) t := by
  have h1 := hM.h_t t p r hr
  have h2 := hM.g_t t p r hr
  have e : (fun t => M.h t p r) = fun t => M.g t p r + t * M.s t p r := by
    funext t; exact hM.h_eq t p r hr
  rw [e] at h1
  have h3 := h1.sub h2
  have h4 : (fun x => M.s x p r) =ᶠ[nhds t]
      fun x => ((fun t => M.g t p r + t * M.s t p r) x - M.g x p r) / x := by
    filter_upwards [isOpen_ne.mem_nhds ht] with x hx
    have : x ≠ 0 := hx
    field_simp
    ring
  refine ((h3.div (hasDerivAt_id' t) ht).congr_of_eventuallyEq h4).congr_deriv ?_
  simp only [Pi.sub_apply]
  field_simp
  ring

end

end Magma.Thermo.Mixing
