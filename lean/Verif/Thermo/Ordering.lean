import Verif.Thermo.Mixing
import Mathlib.LinearAlgebra.Matrix.NonsingularInverse
import Mathlib.Topology.Instances.Matrix

/-!
Phases with an internal ordering state: `order()` and the reported derivatives.

Several phase files share one scheme (for example /repo/sources/cummingtonite.c, albite.c, melilite.c,
nepheline.c).  The Gibbs energy `g(θ, s)` depends on external variables `θ` (composition, temperature,
pressure) and on ordering variables `s`.  `order()` solves `∂g/∂s = 0` for `s(θ)` by Newton's method, leaves
the LU factors of `-∂²g/∂s²` behind, solves with them for the first and second derivatives of `s`, and the
mixing functions combine the partial derivatives of `g` with those of `s`.

Here the scheme is modelled once, for any finite sets of variables, and it is proved that what it reports are
the derivatives of the minimised energy, to third order.
Simplifications: `double` is the real numbers; the LU solver is the exact solution of the linear system; the
ordering state is an exact stationary point, continuous in the external variables.
-/

namespace Verif.Thermo.Ordering

open Finset Filter Topology Asymptotics Matrix

noncomputable section

set_option linter.unusedSectionVars false

variable {ι κ : Type} [Fintype ι] [Fintype κ] [DecidableEq ι] [DecidableEq κ]

/-! ### Specification -/

/-- `f` is differentiable at `x` with gradient `d` (specification). -/
def Gr {α : Type} [Fintype α] (f : (α → ℝ) → ℝ) (x d : α → ℝ) : Prop :=
  HasFDerivAt f (∑ i, d i • (ContinuousLinearMap.proj i : (α → ℝ) →L[ℝ] ℝ)) x

/-- A function of external (`ι`) and internal (`κ`) variables with the tables of its partial derivatives:
what the macros `G, DGDS0, …, D3GDP3` of a phase file give. -/
structure Jets (ι κ : Type) where
  g : (ι ⊕ κ → ℝ) → ℝ
  g1 : (ι ⊕ κ → ℝ) → ι ⊕ κ → ℝ
  g2 : (ι ⊕ κ → ℝ) → ι ⊕ κ → ι ⊕ κ → ℝ
  g3 : (ι ⊕ κ → ℝ) → ι ⊕ κ → ι ⊕ κ → ι ⊕ κ → ℝ

/-- The tables are the partial derivatives, at every point of `D`. -/
structure Jets.Ok (J : Jets ι κ) (D : (ι ⊕ κ → ℝ) → Prop) : Prop where
  d1 : ∀ x, D x → Gr J.g x (J.g1 x)
  d2 : ∀ x, D x → ∀ i, Gr (fun x => J.g1 x i) x (J.g2 x i)
  d3 : ∀ x, D x → ∀ i j, Gr (fun x => J.g2 x i j) x (J.g3 x i j)
  sym2 : ∀ x, D x → ∀ i j, J.g2 x i j = J.g2 x j i
  sym3 : ∀ x, D x → ∀ i j k, J.g3 x i j k = J.g3 x j i k ∧ J.g3 x i j k = J.g3 x i k j

/-! ### The model -/

/-- The argument at which the macros are evaluated after `order()` has filled `s[]`. -/
def pt (S : (ι → ℝ) → κ → ℝ) (θ : ι → ℝ) : ι ⊕ κ → ℝ := Sum.elim θ (S θ)

/-- `ptToD2gds2` after `gsl_matrix_scale(ptToD2gds2, -1.0)`, albite.c 389-406. -/
def negHess (J : Jets ι κ) (x : ι ⊕ κ → ℝ) : Matrix κ κ ℝ :=
  Matrix.of fun k l => -J.g2 x (.inr k) (.inr l)

/-- `melts_LU_solve(ptToD2gds2, …, rhs, result)`, albite.c 424-430: the solution of the linear system. -/
def solve (J : Jets ι κ) (x : ι ⊕ κ → ℝ) (rhs : κ → ℝ) : κ → ℝ := (negHess J x)⁻¹ *ᵥ rhs

/-- First derivatives of the ordering state (`dt`, `dp`, `dr`), albite.c 421-430. -/
def dS (J : Jets ι κ) (x : ι ⊕ κ → ℝ) (i : ι) : κ → ℝ := solve J x fun k => J.g2 x (.inr k) (.inl i)

/-- Second derivatives of the ordering state (`dt2`, `dtp`, …), albite.c 432-484. -/
def d2S (J : Jets ι κ) (x : ι ⊕ κ → ℝ) (i j : ι) : κ → ℝ := solve J x fun k =>
  J.g3 x (.inr k) (.inl i) (.inl j)
  + ∑ l, (J.g3 x (.inr k) (.inr l) (.inl i) * dS J x j l + J.g3 x (.inr k) (.inr l) (.inl j) * dS J x i l
    + ∑ m, J.g3 x (.inr k) (.inr l) (.inr m) * dS J x i l * dS J x j m)

/-- Reported first derivatives: the partial derivative at fixed order (albite.c 512-516). -/
def r1 (J : Jets ι κ) (x : ι ⊕ κ → ℝ) (i : ι) : ℝ := J.g1 x (.inl i)

/-- Reported second derivatives (`*cpDis`, `*dvdt`, `*dvdp`, albite.c 518-566; `d2gdr2`, cummingtonite.c). -/
def r2 (J : Jets ι κ) (x : ι ⊕ κ → ℝ) (i j : ι) : ℝ :=
  J.g2 x (.inl i) (.inl j)
  + ∑ k, (J.g2 x (.inr k) (.inl i) * dS J x j k + J.g2 x (.inr k) (.inl j) * dS J x i k
    + ∑ l, J.g2 x (.inr k) (.inr l) * dS J x i k * dS J x j l)

/-- Reported third derivatives (`*dcpdt`, `*d2vdt2`, …, albite.c 529-622). -/
def r3 (J : Jets ι κ) (x : ι ⊕ κ → ℝ) (i j m : ι) : ℝ :=
  J.g3 x (.inl i) (.inl j) (.inl m)
  + ∑ k, (J.g3 x (.inr k) (.inl i) (.inl j) * dS J x m k
      + J.g3 x (.inr k) (.inl i) (.inl m) * dS J x j k
      + J.g3 x (.inr k) (.inl j) (.inl m) * dS J x i k
      + J.g2 x (.inr k) (.inl i) * d2S J x j m k
      + J.g2 x (.inr k) (.inl j) * d2S J x i m k
      + J.g2 x (.inr k) (.inl m) * d2S J x i j k
    + ∑ l, (J.g2 x (.inr k) (.inr l) * dS J x i k * d2S J x j m l
        + J.g2 x (.inr k) (.inr l) * dS J x j k * d2S J x i m l
        + J.g2 x (.inr k) (.inr l) * dS J x m k * d2S J x i j l
        + J.g3 x (.inr k) (.inr l) (.inl i) * dS J x j k * dS J x m l
        + J.g3 x (.inr k) (.inr l) (.inl j) * dS J x i k * dS J x m l
        + J.g3 x (.inr k) (.inr l) (.inl m) * dS J x i k * dS J x j l
      + ∑ n, J.g3 x (.inr k) (.inr l) (.inr n) * dS J x i k * dS J x j l * dS J x m n))

/-- What is assumed of the ordering state returned by the Newton iteration on the open set `U` of external
conditions: it is a stationary point of `g` (the loop's exit test), inside the domain, with a nonsingular
Hessian (otherwise the LU solver fails), and it varies continuously. -/
structure Solved (J : Jets ι κ) (D : (ι ⊕ κ → ℝ) → Prop) (S : (ι → ℝ) → κ → ℝ) (U : Set (ι → ℝ)) : Prop where
  isOpen : IsOpen U
  dom : ∀ θ ∈ U, D (pt S θ)
  stat : ∀ θ ∈ U, ∀ k, J.g1 (pt S θ) (.inr k) = 0
  regular : ∀ θ ∈ U, (negHess J (pt S θ)).det ≠ 0
  cont : ∀ θ ∈ U, ContinuousAt S θ

/-! ### Calculus lemmas -/

lemma gr_apply {α : Type} [Fintype α] {d : α → ℝ} (v : α → ℝ) :
    (∑ i, d i • (ContinuousLinearMap.proj i : (α → ℝ) →L[ℝ] ℝ)) v = ∑ i, d i * v i := by
  simp

lemma deriv_update {α : Type} [Fintype α] [DecidableEq α] (x : α → ℝ) (i : α) (y : ℝ) :
    HasDerivAt (fun y => Function.update x i y) (Pi.single i (1 : ℝ)) y := by
  refine hasDerivAt_pi.mpr fun j => ?_
  by_cases h : j = i
  · subst h; simpa using hasDerivAt_id' y
  · simpa [Function.update_of_ne h, Pi.single_eq_of_ne h] using hasDerivAt_const y (x j)

lemma Gr.congr_d {α : Type} [Fintype α] {f : (α → ℝ) → ℝ} {x d d' : α → ℝ} (h : Gr f x d) (e : d = d') :
    Gr f x d' := e ▸ h

/-- Composition: chain rule for gradients. -/
lemma Gr.comp {α β : Type} [Fintype α] [Fintype β] {f : (β → ℝ) → ℝ} {d : β → ℝ} {φ : (α → ℝ) → β → ℝ}
    {x : α → ℝ} {M : β → α → ℝ} (hf : Gr f (φ x) d) (hφ : ∀ b, Gr (fun y => φ y b) x (M b)) :
    Gr (fun y => f (φ y)) x (fun a => ∑ b, d b * M b a) := by
  have h : HasFDerivAt φ (ContinuousLinearMap.pi fun b =>
      ∑ i, M b i • (ContinuousLinearMap.proj i : (α → ℝ) →L[ℝ] ℝ)) x := hasFDerivAt_pi.mpr hφ
  refine (HasFDerivAt.comp x hf h).congr_fderiv ?_
  refine ContinuousLinearMap.ext fun v => ?_
  simp only [ContinuousLinearMap.comp_apply, _root_.sum_apply, _root_.smul_apply,
    ContinuousLinearMap.proj_apply, ContinuousLinearMap.pi_apply, smul_eq_mul, Finset.mul_sum, Finset.sum_mul]
  rw [Finset.sum_comm]
  exact Finset.sum_congr rfl fun a _ => Finset.sum_congr rfl fun b _ => by ring

lemma Gr.mul {α : Type} [Fintype α] {f g : (α → ℝ) → ℝ} {x d e : α → ℝ} (hf : Gr f x d) (hg : Gr g x e) :
    Gr (fun y => f y * g y) x (fun i => d i * g x + f x * e i) := by
  refine (HasFDerivAt.mul hf hg).congr_fderiv ?_
  refine ContinuousLinearMap.ext fun v => ?_
  simp only [_root_.add_apply, _root_.sum_apply, _root_.smul_apply,
    ContinuousLinearMap.proj_apply, smul_eq_mul, Finset.mul_sum, ← Finset.sum_add_distrib]
  exact Finset.sum_congr rfl fun a _ => by ring

lemma Gr.add {α : Type} [Fintype α] {f g : (α → ℝ) → ℝ} {x d e : α → ℝ} (hf : Gr f x d) (hg : Gr g x e) :
    Gr (fun y => f y + g y) x (fun i => d i + e i) := by
  refine (HasFDerivAt.add hf hg).congr_fderiv ?_
  refine ContinuousLinearMap.ext fun v => ?_
  simp only [_root_.add_apply, _root_.sum_apply, _root_.smul_apply,
    ContinuousLinearMap.proj_apply, smul_eq_mul, ← Finset.sum_add_distrib]
  exact Finset.sum_congr rfl fun a _ => by ring

lemma Gr.sum {α β : Type} [Fintype α] {s : Finset β} {f : β → (α → ℝ) → ℝ} {x : α → ℝ} {d : β → α → ℝ}
    (hf : ∀ b ∈ s, Gr (f b) x (d b)) : Gr (fun y => ∑ b ∈ s, f b y) x (fun i => ∑ b ∈ s, d b i) := by
  refine (HasFDerivAt.fun_sum hf).congr_fderiv ?_
  refine ContinuousLinearMap.ext fun v => ?_
  simp only [_root_.sum_apply, _root_.smul_apply,
    ContinuousLinearMap.proj_apply, smul_eq_mul, Finset.sum_mul]
  exact Finset.sum_comm

lemma Gr.coord {α : Type} [Fintype α] [DecidableEq α] (x : α → ℝ) (i : α) :
    Gr (fun y => y i) x (fun a => if a = i then 1 else 0) := by
  refine (ContinuousLinearMap.proj (R := ℝ) (φ := fun _ : α => ℝ) i).hasFDerivAt.congr_fderiv ?_
  refine ContinuousLinearMap.ext fun v => ?_
  simp

lemma Gr.congr {α : Type} [Fintype α] {f g : (α → ℝ) → ℝ} {x d : α → ℝ} (hf : Gr f x d)
    (e : ∀ᶠ y in 𝓝 x, g y = f y) : Gr g x d := HasFDerivAt.congr_of_eventuallyEq hf e

lemma Gr.deriv {α : Type} [Fintype α] [DecidableEq α] {f : (α → ℝ) → ℝ} {x d : α → ℝ} (h : Gr f x d) (i : α) :
    HasDerivAt (fun y => f (Function.update x i y)) (d i) (x i) := by
  have h1 : HasDerivAt (fun y => Function.update x i y) (Pi.single i (1 : ℝ)) (x i) := by
    exact deriv_update x i (x i)
  have h0 : HasFDerivAt f (∑ i, d i • (ContinuousLinearMap.proj i : (α → ℝ) →L[ℝ] ℝ))
    (Function.update x i (x i)) := by rw [Function.update_eq_self]; exact h
  refine (h0.comp_hasDerivAt (x i) h1).congr_deriv ?_
  rw [gr_apply]
  simp [Pi.single_apply]

/-- Differentiable with the given partial derivatives along the coordinate lines. -/
lemma Gr.of_partials {α : Type} [Fintype α] [DecidableEq α] {f : (α → ℝ) → ℝ} {x d : α → ℝ}
    (hd : DifferentiableAt ℝ f x)
    (hp : ∀ i, HasDerivAt (fun y => f (Function.update x i y)) (d i) (x i)) : Gr f x d := by
  have h := hd.hasFDerivAt
  have e : fderiv ℝ f x = ∑ i, d i • (ContinuousLinearMap.proj i : (α → ℝ) →L[ℝ] ℝ) := by
    refine ContinuousLinearMap.ext fun v => ?_
    have hj : ∀ j, fderiv ℝ f x (Pi.single j (1 : ℝ)) = d j := by
      intro j
      have hb := deriv_update x j (x j)
      have h2 : HasFDerivAt f (fderiv ℝ f x) (Function.update x j (x j)) := by
        rw [Function.update_eq_self]; exact h
      exact (h2.comp_hasDerivAt (x j) hb).unique (hp j)
    have hv : v = ∑ j, v j • (Pi.single j (1 : ℝ) : α → ℝ) := by
      funext i; simp [Pi.single_apply]
    conv_lhs => rw [hv]
    rw [map_sum]
    simp only [map_smul, hj, gr_apply, smul_eq_mul]
    exact Finset.sum_congr rfl fun _ _ => mul_comm _ _
  unfold Gr; rw [← e]; exact h

/-! ### Implicit differentiation -/

/-- A continuous solution `S` of the equations `F = 0` with nonsingular Jacobian `A` in the unknowns is
differentiable, with derivative `-A⁻¹ B`. -/
lemma implicit {F : κ → (ι ⊕ κ → ℝ) → ℝ} {S : (ι → ℝ) → κ → ℝ} {θ : ι → ℝ} {d : κ → ι ⊕ κ → ℝ}
    (hF : ∀ k, Gr (F k) (pt S θ) (d k)) (hz : ∀ᶠ θ' in 𝓝 θ, ∀ k, F k (pt S θ') = 0)
    (hA : (Matrix.of fun k l => -d k (.inr l)).det ≠ 0) (hS : ContinuousAt S θ) (k : κ) :
    Gr (fun θ' => S θ' k) θ
      (fun i => ((Matrix.of fun k l => -d k (.inr l))⁻¹ *ᵥ fun k => d k (.inl i)) k) := by
  set A : Matrix κ κ ℝ := Matrix.of fun k l => -d k (.inr l) with hAd
  set L : κ → ι → ℝ := fun k i => (A⁻¹ *ᵥ fun k => d k (.inl i)) k with hL
  have hAu : IsUnit A.det := isUnit_iff_ne_zero.mpr hA
  have hz0 : ∀ k, F k (pt S θ) = 0 := hz.self_of_nhds
  -- the error of the linear prediction
  set u : (ι → ℝ) → κ → ℝ := fun θ' k => S θ' k - S θ k - ∑ i, L k i * (θ' i - θ i) with hu
  -- the residual of the linearised equations
  set e : (ι → ℝ) → κ → ℝ := fun θ' k => ∑ i, d k i * (pt S θ' i - pt S θ i) with he
  have hptc : ContinuousAt (pt S) θ := by
    refine continuousAt_pi.mpr fun b => ?_
    cases b with
    | inl i => exact (continuous_apply i).continuousAt
    | inr k => exact (continuousAt_pi.mp hS) k
  have hptn : ∀ θ', ‖pt S θ' - pt S θ‖ ≤ ‖θ' - θ‖ + ‖S θ' - S θ‖ := by
    intro θ'
    refine (pi_norm_le_iff_of_nonneg (by positivity)).mpr fun b => ?_
    cases b with
    | inl i => exact (norm_le_pi_norm (θ' - θ) i).trans (le_add_of_nonneg_right (norm_nonneg _))
    | inr k => exact (norm_le_pi_norm (S θ' - S θ) k).trans (le_add_of_nonneg_left (norm_nonneg _))
  have he_o : ∀ k, (fun θ' => e θ' k) =o[𝓝 θ] fun θ' => ‖θ' - θ‖ + ‖S θ' - S θ‖ := by
    intro k
    have h1 := (hasFDerivAt_iff_isLittleO.mp (hF k)).comp_tendsto hptc
    have h2 : (fun θ' => e θ' k) =o[𝓝 θ] fun θ' => pt S θ' - pt S θ := by
      have h3 : (fun θ' => -e θ' k) =o[𝓝 θ] fun θ' => pt S θ' - pt S θ := by
        refine h1.congr' ?_ (Eventually.of_forall fun _ => rfl)
        filter_upwards [hz] with θ' hθ'
        simp only [Function.comp, hθ' k, hz0 k, gr_apply, he, Pi.sub_apply]
        ring
      simpa using h3.neg_left
    refine h2.trans_le fun θ' => ?_
    rw [Real.norm_of_nonneg (add_nonneg (norm_nonneg _) (norm_nonneg _))]
    exact hptn θ'
  have hue : ∀ θ', u θ' = -(A⁻¹ *ᵥ e θ') := by
    intro θ'
    have h1 : A *ᵥ u θ' = -e θ' := by
      have hAL : ∀ i, (A *ᵥ fun k => L k i) = fun k => d k (.inl i) := by
        intro i
        have : (fun k => L k i) = A⁻¹ *ᵥ fun k => d k (.inl i) := rfl
        rw [this, Matrix.mulVec_mulVec, Matrix.mul_nonsing_inv _ hAu, Matrix.one_mulVec]
      funext k
      have hALk : ∀ i, ∑ l, A k l * L l i = d k (.inl i) := fun i => congrFun (hAL i) k
      have e1 : (A *ᵥ u θ') k = ∑ l, A k l * (S θ' l - S θ l) - ∑ i, (∑ l, A k l * L l i) * (θ' i - θ i) := by
        have e2 : ∑ i, (∑ l, A k l * L l i) * (θ' i - θ i) = ∑ l, A k l * ∑ i, L l i * (θ' i - θ i) := by
          simp only [Finset.mul_sum, Finset.sum_mul]
          rw [Finset.sum_comm]
          exact Finset.sum_congr rfl fun _ _ => Finset.sum_congr rfl fun _ _ => by ring
        rw [e2, ← Finset.sum_sub_distrib]
        exact Finset.sum_congr rfl fun l _ => by rw [← mul_sub]
      rw [e1]
      simp only [hALk]
      simp only [Pi.neg_apply, he, Fintype.sum_sum_type, pt, Sum.elim_inl, Sum.elim_inr, hAd,
        Matrix.of_apply, neg_mul, Finset.sum_neg_distrib]
      ring
    rw [← Matrix.mulVec_neg, ← h1, Matrix.mulVec_mulVec, Matrix.nonsing_inv_mul _ hAu, Matrix.one_mulVec]
  have hu_o : u =o[𝓝 θ] fun θ' => ‖θ' - θ‖ + ‖S θ' - S θ‖ := by
    refine isLittleO_pi.mpr fun k => ?_
    have : (fun θ' => u θ' k) = fun θ' => -∑ l, A⁻¹ k l * e θ' l := by
      funext θ'; rw [hue]; rfl
    rw [this]
    exact (IsLittleO.fun_sum fun l _ => (he_o l).const_mul_left _).neg_left
  -- the prediction is Lipschitz
  obtain ⟨C, hC0, hC⟩ : ∃ C, 0 ≤ C ∧ ∀ θ', ‖S θ' - S θ‖ ≤ ‖u θ'‖ + C * ‖θ' - θ‖ := by
    refine ⟨∑ k, ∑ i, |L k i|, Finset.sum_nonneg fun _ _ => Finset.sum_nonneg fun _ _ => abs_nonneg _,
      fun θ' => ?_⟩
    have hb : 0 ≤ (∑ k, ∑ i, |L k i|) * ‖θ' - θ‖ := mul_nonneg
      (Finset.sum_nonneg fun _ _ => Finset.sum_nonneg fun _ _ => abs_nonneg _) (norm_nonneg _)
    refine (pi_norm_le_iff_of_nonneg (add_nonneg (norm_nonneg _) hb)).mpr fun k => ?_
    have e1 : (S θ' - S θ) k = u θ' k + ∑ i, L k i * (θ' i - θ i) := by simp [hu]
    rw [e1]
    refine (norm_add_le _ _).trans (add_le_add (norm_le_pi_norm _ k) ?_)
    refine (norm_sum_le _ _).trans ?_
    have : ∑ i, ‖L k i * (θ' i - θ i)‖ ≤ (∑ i, |L k i|) * ‖θ' - θ‖ := by
      rw [Finset.sum_mul]
      refine Finset.sum_le_sum fun i _ => ?_
      rw [norm_mul]
      exact mul_le_mul_of_nonneg_left (norm_le_pi_norm (θ' - θ) i) (norm_nonneg _)
    refine this.trans (mul_le_mul_of_nonneg_right ?_ (norm_nonneg _))
    exact Finset.single_le_sum (f := fun k => ∑ i, |L k i|)
      (fun _ _ => Finset.sum_nonneg fun _ _ => abs_nonneg _) (Finset.mem_univ k)
  have hu_o' : u =o[𝓝 θ] fun θ' => θ' - θ := by
    refine isLittleO_iff.mpr fun c hc => ?_
    set c' := min (1 / 2) (c / (2 * (1 + C))) with hc'
    have hc'0 : 0 < c' := lt_min (by norm_num) (by positivity)
    filter_upwards [isLittleO_iff.mp hu_o hc'0] with θ' h
    rw [Real.norm_of_nonneg (add_nonneg (norm_nonneg _) (norm_nonneg _))] at h
    have h2 := hC θ'
    have hn := norm_nonneg (u θ')
    have hn2 := norm_nonneg (θ' - θ)
    have h3 : ‖u θ'‖ ≤ c' * (‖u θ'‖ + (1 + C) * ‖θ' - θ‖) := by
      refine h.trans (mul_le_mul_of_nonneg_left ?_ hc'0.le); linarith
    have h4 : c' * ‖u θ'‖ ≤ 1 / 2 * ‖u θ'‖ := mul_le_mul_of_nonneg_right (min_le_left _ _) hn
    have h5 : c' * ((1 + C) * ‖θ' - θ‖) ≤ c / (2 * (1 + C)) * ((1 + C) * ‖θ' - θ‖) :=
      mul_le_mul_of_nonneg_right (min_le_right _ _) (by positivity)
    have h6 : c / (2 * (1 + C)) * ((1 + C) * ‖θ' - θ‖) = c / 2 * ‖θ' - θ‖ := by
      have : (1 + C) ≠ 0 := by positivity
      field_simp
    nlinarith
  refine hasFDerivAt_iff_isLittleO.mpr ?_
  refine (isLittleO_pi.mp hu_o' k).congr_left fun θ' => ?_
  rw [gr_apply]
  simp only [hu, Pi.sub_apply, hL]

/-- `A ↦ A⁻¹` is continuous at a nonsingular matrix. -/
lemma continuousAt_inv {A : Matrix κ κ ℝ} (h : A.det ≠ 0) : ContinuousAt (fun B : Matrix κ κ ℝ => B⁻¹) A := by
  have e : (fun B : Matrix κ κ ℝ => B⁻¹) = fun B => B.det⁻¹ • B.adjugate := by
    funext B; rw [Matrix.inv_def, Ring.inverse_eq_inv']
  rw [e]
  have h1 : ContinuousAt (fun B : Matrix κ κ ℝ => B.det) A := (Continuous.matrix_det continuous_id).continuousAt
  exact (h1.inv₀ h).smul (Continuous.matrix_adjugate continuous_id).continuousAt

/-! ### The ordering state and the reported derivatives -/

section main

variable {J : Jets ι κ} {D : (ι ⊕ κ → ℝ) → Prop} {S : (ι → ℝ) → κ → ℝ} {U : Set (ι → ℝ)} {θ : ι → ℝ}

lemma negHess_solve (hU : (negHess J (pt S θ)).det ≠ 0) (b : κ → ℝ) :
    negHess J (pt S θ) *ᵥ solve J (pt S θ) b = b := by
  unfold solve
  rw [Matrix.mulVec_mulVec, Matrix.mul_nonsing_inv _ (isUnit_iff_ne_zero.mpr hU), Matrix.one_mulVec]

/-- The linear systems solved by `order()`. -/
lemma solve_row (hU : (negHess J (pt S θ)).det ≠ 0) (b : κ → ℝ) (k : κ) :
    ∑ l, J.g2 (pt S θ) (.inr k) (.inr l) * solve J (pt S θ) b l = -b k := by
  have h := congrFun (negHess_solve hU b) k
  simp only [Matrix.mulVec, dotProduct, negHess, Matrix.of_apply, neg_mul, Finset.sum_neg_distrib] at h
  linarith

/-- The first derivatives of the ordering state that `order()` returns are its derivatives. -/
theorem grad_S (hJ : J.Ok D) (h : Solved J D S U) (hθ : θ ∈ U) (k : κ) :
    Gr (fun θ' => S θ' k) θ (fun i => dS J (pt S θ) i k) := by
  refine implicit (F := fun k x => J.g1 x (.inr k)) (d := fun k => J.g2 (pt S θ) (.inr k))
    (fun k => hJ.d2 _ (h.dom θ hθ) _) ?_ (h.regular θ hθ) (h.cont θ hθ) k
  filter_upwards [h.isOpen.mem_nhds hθ] with θ' h' k using h.stat θ' h' k

lemma grad_pt (hJ : J.Ok D) (h : Solved J D S U) (hθ : θ ∈ U) (b : ι ⊕ κ) :
    Gr (fun θ' => pt S θ' b) θ
      (Sum.elim (fun j i => if i = j then 1 else 0) (fun k i => dS J (pt S θ) i k) b) := by
  cases b with
  | inl i => exact Gr.coord θ i
  | inr k => exact grad_S hJ h hθ k

/-- Chain rule along the ordering state. -/
lemma grad_along (hJ : J.Ok D) (h : Solved J D S U) (hθ : θ ∈ U) {f : (ι ⊕ κ → ℝ) → ℝ} {d : ι ⊕ κ → ℝ}
    (hf : Gr f (pt S θ) d) :
    Gr (fun θ' => f (pt S θ')) θ (fun i => d (.inl i) + ∑ k, d (.inr k) * dS J (pt S θ) i k) := by
  refine (Gr.comp hf (grad_pt hJ h hθ)).congr_d ?_
  funext i
  simp [Fintype.sum_sum_type]

lemma cont_solve (hJ : J.Ok D) (h : Solved J D S U) (hθ : θ ∈ U) {b : (ι → ℝ) → κ → ℝ}
    (hb : ContinuousAt b θ) : ContinuousAt (fun θ' => solve J (pt S θ') (b θ')) θ := by
  have hH : ContinuousAt (fun θ' => negHess J (pt S θ')) θ := by
    refine continuousAt_pi.mpr fun k => continuousAt_pi.mpr fun l => ?_
    exact (grad_along hJ h hθ (hJ.d3 _ (h.dom θ hθ) (.inr k) (.inr l))).continuousAt.neg
  have hI : ContinuousAt (fun θ' => (negHess J (pt S θ'))⁻¹) θ :=
    ContinuousAt.comp (f := fun θ' => negHess J (pt S θ')) (continuousAt_inv (h.regular θ hθ)) hH
  refine continuousAt_pi.mpr fun k => ?_
  have : (fun θ' => solve J (pt S θ') (b θ') k) = fun θ' => ∑ l, (negHess J (pt S θ'))⁻¹ k l * b θ' l := rfl
  rw [this]
  refine tendsto_finsetSum _ fun l _ => ?_
  exact (continuousAt_pi.mp (continuousAt_pi.mp hI k) l).mul (continuousAt_pi.mp hb l)

/-- The second derivatives of the ordering state that `order()` returns are the derivatives of the first. -/
theorem grad_dS (hJ : J.Ok D) (h : Solved J D S U) (hθ : θ ∈ U) (i : ι) (k : κ) :
    Gr (fun θ' => dS J (pt S θ') i k) θ (fun j => d2S J (pt S θ) i j k) := by
  set Y : (ι → ℝ) → κ → ℝ := fun θ' => dS J (pt S θ') i with hY
  have hD := h.dom θ hθ
  have hH : ∀ k l, Gr (fun θ' => J.g2 (pt S θ') (.inr k) (.inr l)) θ _ := fun k l =>
    grad_along hJ h hθ (hJ.d3 _ hD (.inr k) (.inr l))
  have hB : ∀ k, Gr (fun θ' => J.g2 (pt S θ') (.inr k) (.inl i)) θ _ := fun k =>
    grad_along hJ h hθ (hJ.d3 _ hD (.inr k) (.inl i))
  -- the equations satisfied by `Y`, as functions of `(θ, y)`
  set F : κ → (ι ⊕ κ → ℝ) → ℝ := fun k z =>
    J.g2 (pt S fun i => z (.inl i)) (.inr k) (.inl i)
      + ∑ l, J.g2 (pt S fun i => z (.inl i)) (.inr k) (.inr l) * z (.inr l) with hF
  have lift : ∀ {f : (ι → ℝ) → ℝ} {d : ι → ℝ}, Gr f θ d →
      Gr (fun z : ι ⊕ κ → ℝ => f fun i => z (.inl i)) (pt Y θ) (Sum.elim d fun _ => 0) := by
    intro f d hf
    have := Gr.comp (φ := fun (z : ι ⊕ κ → ℝ) (i : ι) => z (.inl i)) (x := pt Y θ) (f := f) (d := d) hf
      (fun i => Gr.coord (pt Y θ) (.inl i))
    refine this.congr_d ?_
    funext b
    cases b <;> simp
  have hFd : ∀ k, Gr (F k) (pt Y θ) _ := fun k => Gr.add (lift (hB k))
    (Gr.sum fun l _ => Gr.mul (lift (hH k l)) (Gr.coord (pt Y θ) (.inr l)))
  have hz : ∀ᶠ θ' in 𝓝 θ, ∀ k, F k (pt Y θ') = 0 := by
    filter_upwards [h.isOpen.mem_nhds hθ] with θ' h' k
    have := solve_row (h.regular θ' h') (fun k => J.g2 (pt S θ') (.inr k) (.inl i)) k
    simp only [hF, pt, Sum.elim_inl, Sum.elim_inr, hY, dS] at this ⊢
    linarith
  have hc : ContinuousAt Y θ := cont_solve hJ h hθ (continuousAt_pi.mpr fun k => (hB k).continuousAt)
  have key := implicit hFd hz (by
    refine ne_of_eq_of_ne (congrArg Matrix.det ?_) (h.regular θ hθ)
    ext k l
    simp [negHess, pt]) hc k
  refine key.congr_d ?_
  funext j
  have e1 : (Matrix.of fun k l => -((Sum.elim (fun j => J.g3 (pt S θ) (.inr k) (.inl i) (.inl j)
      + ∑ m, J.g3 (pt S θ) (.inr k) (.inl i) (.inr m) * dS J (pt S θ) j m) (fun _ => (0 : ℝ)) (Sum.inr l : ι ⊕ κ))
      + ∑ b, ((Sum.elim (fun j => J.g3 (pt S θ) (.inr k) (.inr b) (.inl j)
      + ∑ m, J.g3 (pt S θ) (.inr k) (.inr b) (.inr m) * dS J (pt S θ) j m) (fun _ => (0 : ℝ)) (Sum.inr l : ι ⊕ κ))
        * pt Y θ (.inr b) + J.g2 (pt S fun i => pt Y θ (.inl i)) (.inr k) (.inr b)
          * if (Sum.inr l : ι ⊕ κ) = .inr b then 1 else 0))) = negHess J (pt S θ) := by
    ext k l
    simp [negHess, pt]
  rw [e1]
  unfold d2S solve
  congr 2
  funext k
  have s3 := hJ.sym3 _ hD
  simp only [Sum.elim_inl, pt, Sum.elim_inr, hY, reduceCtorEq, if_false, mul_zero, add_zero, Finset.sum_add_distrib,
    Finset.sum_mul, add_mul]
  have s3' := s3
  simp only [pt] at s3'
  rw [← sub_eq_zero]
  have a1 : ∀ m, J.g3 (Sum.elim θ (S θ)) (.inr k) (.inl i) (.inr m) = J.g3 (Sum.elim θ (S θ)) (.inr k) (.inr m) (.inl i) :=
    fun m => (s3' _ _ _).2
  simp only [a1]
  have a2 : ∑ x, ∑ m, J.g3 (Sum.elim θ (S θ)) (.inr k) (.inr x) (.inr m) * dS J (Sum.elim θ (S θ)) j m
        * dS J (Sum.elim θ (S θ)) i x
      = ∑ x, ∑ m, J.g3 (Sum.elim θ (S θ)) (.inr k) (.inr x) (.inr m) * dS J (Sum.elim θ (S θ)) i x
        * dS J (Sum.elim θ (S θ)) j m :=
    Finset.sum_congr rfl fun _ _ => Finset.sum_congr rfl fun _ _ => by ring
  rw [a2]
  ring

/-- The minimised energy has the reported first derivatives. -/
theorem grad_r0 (hJ : J.Ok D) (h : Solved J D S U) (hθ : θ ∈ U) :
    Gr (fun θ' => J.g (pt S θ')) θ (r1 J (pt S θ)) := by
  refine (grad_along hJ h hθ (hJ.d1 _ (h.dom θ hθ))).congr_d ?_
  funext i
  simp [h.stat θ hθ, r1]

/-- Stationarity, differentiated: the correction terms with a factor `∂²g/∂s∂·` cancel. -/
lemma cancel (hJ : J.Ok D) (h : Solved J D S U) (hθ : θ ∈ U) (i : ι) (w : κ → ℝ) :
    ∑ k, (J.g2 (pt S θ) (.inr k) (.inl i) * w k
      + ∑ l, J.g2 (pt S θ) (.inr k) (.inr l) * dS J (pt S θ) i k * w l) = 0 := by
  have e : ∀ l, ∑ k, J.g2 (pt S θ) (.inr k) (.inr l) * dS J (pt S θ) i k = -J.g2 (pt S θ) (.inr l) (.inl i) := by
    intro l
    rw [← solve_row (h.regular θ hθ) (fun k => J.g2 (pt S θ) (.inr k) (.inl i)) l]
    exact Finset.sum_congr rfl fun k _ => by rw [hJ.sym2 _ (h.dom θ hθ) (.inr k) (.inr l)]; rfl
  rw [Finset.sum_add_distrib, Finset.sum_comm]
  simp only [← Finset.sum_mul, e]
  rw [← Finset.sum_add_distrib]
  exact Finset.sum_eq_zero fun k _ => by ring

/-- The reported first derivatives have the reported second derivatives. -/
theorem grad_r1 (hJ : J.Ok D) (h : Solved J D S U) (hθ : θ ∈ U) (i : ι) :
    Gr (fun θ' => r1 J (pt S θ') i) θ (r2 J (pt S θ) i) := by
  refine (grad_along hJ h hθ (hJ.d2 _ (h.dom θ hθ) (.inl i))).congr_d ?_
  funext j
  have c := cancel hJ h hθ j (dS J (pt S θ) i)
  unfold r2
  have e : ∑ k, ∑ l, J.g2 (pt S θ) (.inr k) (.inr l) * dS J (pt S θ) i k * dS J (pt S θ) j l
      = ∑ k, ∑ l, J.g2 (pt S θ) (.inr k) (.inr l) * dS J (pt S θ) j k * dS J (pt S θ) i l := by
    rw [Finset.sum_comm]
    refine Finset.sum_congr rfl fun k _ => Finset.sum_congr rfl fun l _ => ?_
    rw [hJ.sym2 _ (h.dom θ hθ) (.inr l) (.inr k)]; ring
  simp only [Finset.sum_add_distrib] at c ⊢
  rw [e]
  have e2 : ∑ k, J.g2 (pt S θ) (.inl i) (.inr k) * dS J (pt S θ) j k
      = ∑ k, J.g2 (pt S θ) (.inr k) (.inl i) * dS J (pt S θ) j k :=
    Finset.sum_congr rfl fun k _ => by rw [hJ.sym2 _ (h.dom θ hθ) (.inl i) (.inr k)]
  rw [e2]
  linarith

/-- The reported second derivatives have the reported third derivatives. -/
theorem grad_r2 (hJ : J.Ok D) (h : Solved J D S U) (hθ : θ ∈ U) (i j : ι) :
    Gr (fun θ' => r2 J (pt S θ') i j) θ (r3 J (pt S θ) i j) := by
  have hD := h.dom θ hθ
  have g : ∀ a b, Gr (fun θ' => J.g2 (pt S θ') a b) θ _ := fun a b => grad_along hJ h hθ (hJ.d3 _ hD a b)
  have s := grad_dS hJ h hθ
  have hd : Gr (fun θ' => r2 J (pt S θ') i j) θ _ := (g (.inl i) (.inl j)).add
    (Gr.sum fun k _ => (((g (.inr k) (.inl i)).mul (s j k)).add ((g (.inr k) (.inl j)).mul (s i k))).add
      (Gr.sum fun l _ => ((g (.inr k) (.inr l)).mul (s i k)).mul (s j l)))
  refine hd.congr_d ?_
  funext m
  have c := cancel hJ h hθ m (d2S J (pt S θ) i j)
  have s3 := hJ.sym3 _ hD
  have a1 : ∀ k, J.g3 (pt S θ) (.inl i) (.inl j) (.inr k) = J.g3 (pt S θ) (.inr k) (.inl i) (.inl j) := fun k => by
    rw [(s3 (.inl i) (.inl j) (.inr k)).2, (s3 (.inl i) (.inr k) (.inl j)).1]
  have a2 : ∀ a k l, J.g3 (pt S θ) (.inr k) (.inl a) (.inr l) = J.g3 (pt S θ) (.inr k) (.inr l) (.inl a) :=
    fun a k l => (s3 _ _ _).2
  unfold r3
  simp only [a1, a2, Finset.sum_add_distrib, add_mul, Finset.sum_mul] at c ⊢
  have b1 : ∀ a b : ι, ∑ k, ∑ l, J.g3 (pt S θ) (.inr k) (.inr l) (.inl a) * dS J (pt S θ) m l * dS J (pt S θ) b k
      = ∑ k, ∑ l, J.g3 (pt S θ) (.inr k) (.inr l) (.inl a) * dS J (pt S θ) b k * dS J (pt S θ) m l :=
    fun a b => Finset.sum_congr rfl fun _ _ => Finset.sum_congr rfl fun _ _ => by ring
  have b2 : ∑ k, ∑ l, ∑ n, J.g3 (pt S θ) (.inr k) (.inr l) (.inr n) * dS J (pt S θ) m n * dS J (pt S θ) i k
        * dS J (pt S θ) j l
      = ∑ k, ∑ l, ∑ n, J.g3 (pt S θ) (.inr k) (.inr l) (.inr n) * dS J (pt S θ) i k * dS J (pt S θ) j l
        * dS J (pt S θ) m n :=
    Finset.sum_congr rfl fun _ _ => Finset.sum_congr rfl fun _ _ => Finset.sum_congr rfl fun _ _ => by ring
  have b3 : ∑ k, ∑ l, J.g2 (pt S θ) (.inr k) (.inr l) * d2S J (pt S θ) i m k * dS J (pt S θ) j l
      = ∑ k, ∑ l, J.g2 (pt S θ) (.inr k) (.inr l) * dS J (pt S θ) j k * d2S J (pt S θ) i m l := by
    rw [Finset.sum_comm]
    refine Finset.sum_congr rfl fun k _ => Finset.sum_congr rfl fun l _ => ?_
    rw [hJ.sym2 _ hD (.inr l) (.inr k)]; ring
  rw [b1, b1, b2, b3]
  linarith

end main

/-! ### The mixing functions of a phase with ordering -/

/-- The third composition derivative as `gmix*` computes it, without the second derivatives of the ordering
state (cummingtonite.c 1497-1531, nepheline.c, melilite.c, …). -/
def r3s (J : Jets ι κ) (x : ι ⊕ κ → ℝ) (i j m : ι) : ℝ :=
  J.g3 x (.inl i) (.inl j) (.inl m)
  + ∑ k, (J.g3 x (.inr k) (.inl i) (.inl j) * dS J x m k
      + J.g3 x (.inr k) (.inl j) (.inl m) * dS J x i k
      + J.g3 x (.inr k) (.inl m) (.inl i) * dS J x j k
    + ∑ l, (J.g3 x (.inr k) (.inr l) (.inl i) * dS J x j k * dS J x m l
        + J.g3 x (.inr k) (.inr l) (.inl j) * dS J x m k * dS J x i l
        + J.g3 x (.inr k) (.inr l) (.inl m) * dS J x i k * dS J x j l
      + ∑ n, J.g3 x (.inr k) (.inr l) (.inr n) * dS J x i k * dS J x j l * dS J x m n))

/-- Because the state is stationary, the two forms agree. -/
theorem r3s_eq {J : Jets ι κ} {D : (ι ⊕ κ → ℝ) → Prop} {S : (ι → ℝ) → κ → ℝ} {U : Set (ι → ℝ)} {θ : ι → ℝ}
    (hJ : J.Ok D) (h : Solved J D S U) (hθ : θ ∈ U) (i j m : ι) :
    r3s J (pt S θ) i j m = r3 J (pt S θ) i j m := by
  have c1 := cancel hJ h hθ i (d2S J (pt S θ) j m)
  have c2 := cancel hJ h hθ j (d2S J (pt S θ) i m)
  have c3 := cancel hJ h hθ m (d2S J (pt S θ) i j)
  have hD := h.dom θ hθ
  have e1 : ∀ k, J.g3 (pt S θ) (.inr k) (.inl m) (.inl i) = J.g3 (pt S θ) (.inr k) (.inl i) (.inl m) :=
    fun k => (hJ.sym3 _ hD _ _ _).2
  have e2 : ∑ k, ∑ l, J.g3 (pt S θ) (.inr k) (.inr l) (.inl j) * dS J (pt S θ) m k * dS J (pt S θ) i l
      = ∑ k, ∑ l, J.g3 (pt S θ) (.inr k) (.inr l) (.inl j) * dS J (pt S θ) i k * dS J (pt S θ) m l := by
    rw [Finset.sum_comm]
    refine Finset.sum_congr rfl fun k _ => Finset.sum_congr rfl fun l _ => ?_
    rw [(hJ.sym3 _ hD (.inr l) (.inr k) (.inl j)).1]; ring
  unfold r3s r3
  simp only [Finset.sum_add_distrib, e1, e2] at c1 c2 c3 ⊢
  linarith

/-- The external variables of a solution phase: composition, temperature, pressure. -/
abbrev Ext (nr : ℕ) := Fin nr ⊕ Fin 2

/-- `(r, t, p)` as one vector. -/
def env {nr : ℕ} (r : Fin nr → ℝ) (t p : ℝ) : Ext nr → ℝ := Sum.elim r ![t, p]

/-- Index of the temperature. -/
abbrev iT {nr : ℕ} : Ext nr := .inr 0
/-- Index of the pressure. -/
abbrev iP {nr : ℕ} : Ext nr := .inr 1

open Magma.Thermo.Mixing Magma.Thermo.Extensive

/-- `gmix*, hmix*, smix*, cpmix*, vmix*` of a phase with ordering, as written in cummingtonite.c 1450-2043; the
text of these functions is the same, up to names, in nepheline.c and biotiteTaj.c.  `J` are the macros
`G, DGDR0, …`, `E` is the macro `S`, `X` is the ordering state found by `order()`.  Repeated terms are collected
in the code (`3.0*a` for `a + a + a`). -/
def ordMix {nr ns : ℕ} (J : Jets (Ext nr) (Fin ns)) (E : (Ext nr ⊕ Fin ns → ℝ) → ℝ)
    (X : (Ext nr → ℝ) → Fin ns → ℝ) : Mix nr where
  g t p r := J.g (pt X (env r t p))
  gr t p r i := r1 J (pt X (env r t p)) (.inl i)
  grr t p r i j := r2 J (pt X (env r t p)) (.inl i) (.inl j)
  grrr t p r i j k := r3s J (pt X (env r t p)) (.inl i) (.inl j) (.inl k)
  h t p r := J.g (pt X (env r t p)) + t * E (pt X (env r t p))
  s t p r := E (pt X (env r t p))
  sr t p r i := r2 J (pt X (env r t p)) (.inl i) iT * -1
  srr t p r i j := r3 J (pt X (env r t p)) (.inl i) (.inl j) iT * -1
  cp t p r := r2 J (pt X (env r t p)) iT iT * -t
  cpt t p r := -t * r3 J (pt X (env r t p)) iT iT iT - r2 J (pt X (env r t p)) iT iT
  cpr t p r i := r3 J (pt X (env r t p)) (.inl i) iT iT * -t
  v t p r := J.g1 (pt X (env r t p)) (.inl iP)
  vr t p r i := r2 J (pt X (env r t p)) (.inl i) iP
  vrr t p r i j := r3 J (pt X (env r t p)) (.inl i) (.inl j) iP
  vt t p r := r2 J (pt X (env r t p)) iT iP
  vp t p r := r2 J (pt X (env r t p)) iP iP
  vtt t p r := r3 J (pt X (env r t p)) iT iT iP
  vtp t p r := r3 J (pt X (env r t p)) iT iP iP
  vpp t p r := r3 J (pt X (env r t p)) iP iP iP
  vrt t p r i := r3 J (pt X (env r t p)) (.inl i) iT iP
  vrp t p r i := r3 J (pt X (env r t p)) (.inl i) iP iP
  fx r := r

/-- `Mix.Consistent` restricted to a set `I` of temperatures, pressures and compositions (specification). -/
structure ConsistentOn {nr : ℕ} (M : Mix nr) (I : ℝ → ℝ → (Fin nr → ℝ) → Prop) : Prop where
  g_r : ∀ t p r, I t p r → Grad (M.g t p) r (M.gr t p r)
  g_rr : ∀ t p r, I t p r → ∀ i, Grad (fun r => M.gr t p r i) r (M.grr t p r i)
  g_rrr : ∀ t p r, I t p r → ∀ i j, Grad (fun r => M.grr t p r i j) r (M.grrr t p r i j)
  g_t : ∀ t p r, I t p r → HasDerivAt (fun t => M.g t p r) (-M.s t p r) t
  h_eq : ∀ t p r, I t p r → M.h t p r = M.g t p r + t * M.s t p r
  s_r : ∀ t p r, I t p r → Grad (M.s t p) r (M.sr t p r)
  s_rr : ∀ t p r, I t p r → ∀ i, Grad (fun r => M.sr t p r i) r (M.srr t p r i)
  h_t : ∀ t p r, I t p r → HasDerivAt (fun t => M.h t p r) (M.cp t p r) t
  cp_t : ∀ t p r, I t p r → HasDerivAt (fun t => M.cp t p r) (M.cpt t p r) t
  cp_r : ∀ t p r, I t p r → Grad (M.cp t p) r (M.cpr t p r)
  g_p : ∀ t p r, I t p r → HasDerivAt (fun p => M.g t p r) (M.v t p r) p
  v_r : ∀ t p r, I t p r → Grad (M.v t p) r (M.vr t p r)
  v_rr : ∀ t p r, I t p r → ∀ i, Grad (fun r => M.vr t p r i) r (M.vrr t p r i)
  v_t : ∀ t p r, I t p r → HasDerivAt (fun t => M.v t p r) (M.vt t p r) t
  v_p : ∀ t p r, I t p r → HasDerivAt (fun p => M.v t p r) (M.vp t p r) p
  v_tt : ∀ t p r, I t p r → HasDerivAt (fun t => M.vt t p r) (M.vtt t p r) t
  v_tp : ∀ t p r, I t p r → HasDerivAt (fun p => M.vt t p r) (M.vtp t p r) p
  v_pp : ∀ t p r, I t p r → HasDerivAt (fun p => M.vp t p r) (M.vpp t p r) p
  v_rt : ∀ t p r, I t p r → ∀ i, HasDerivAt (fun t => M.vr t p r i) (M.vrt t p r i) t
  v_rp : ∀ t p r, I t p r → ∀ i, HasDerivAt (fun p => M.vr t p r i) (M.vrp t p r i) p
  /-- partial molar entropy, volume and heat capacity -/
  g_rt : ∀ t p r, I t p r → ∀ i, HasDerivAt (fun t => M.gr t p r i) (-M.sr t p r i) t
  g_rp : ∀ t p r, I t p r → ∀ i, HasDerivAt (fun p => M.gr t p r i) (M.vr t p r i) p
  s_rt : ∀ t p r, I t p r → t ≠ 0 → ∀ i, HasDerivAt (fun t => M.sr t p r i) (M.cpr t p r i / t) t
  vp_r : ∀ t p r, I t p r → Grad (M.vp t p) r (M.vrp t p r)
  sym2 : ∀ t p r, I t p r → ∀ i j, M.grr t p r i j = M.grr t p r j i
  sym3 : ∀ t p r, I t p r → ∀ i j k,
    M.grrr t p r i j k = M.grrr t p r j i k ∧ M.grrr t p r i j k = M.grrr t p r i k j

/-- The specification for phases without ordering is the same statement on all temperatures and pressures. -/
theorem consistentOn_of {nr : ℕ} {M : Mix nr} {I : (Fin nr → ℝ) → Prop} (h : M.Consistent I) :
    ConsistentOn M fun _ _ r => I r :=
  ⟨h.g_r, h.g_rr, h.g_rrr, h.g_t, h.h_eq, h.s_r, h.s_rr, h.h_t, h.cp_t, h.cp_r, h.g_p, h.v_r, h.v_rr, h.v_t,
    h.v_p, h.v_tt, h.v_tp, h.v_pp, h.v_rt, h.v_rp, h.g_rt, h.g_rp, h.s_rt, h.vp_r, h.sym2, h.sym3⟩

section lines
variable {nr : ℕ} {f : (Ext nr → ℝ) → ℝ} {d : Ext nr → ℝ} {r : Fin nr → ℝ} {t p : ℝ}

lemma line_r (h : Gr f (env r t p) d) : Grad (fun r => f (env r t p)) r (fun i => d (.inl i)) := by
  have := Gr.comp (φ := fun r => env r t p) (M := Sum.elim (fun j i => if i = j then 1 else 0) fun _ _ => 0) h
    (fun b => by
      cases b with
      | inl i => exact Gr.coord r i
      | inr k =>
        have : (fun y : Fin nr → ℝ => env y t p (.inr k)) = fun _ => (![t, p] : Fin 2 → ℝ) k := rfl
        rw [this]
        refine (hasFDerivAt_const _ _).congr_fderiv ?_
        simp)
  refine Gr.congr_d this ?_
  funext i
  simp [Fintype.sum_sum_type]

lemma line_t (h : Gr f (env r t p) d) : HasDerivAt (fun t => f (env r t p)) (d iT) t := by
  have h1 : (fun y => f (env r y p)) = fun y => f (Function.update (env r t p) iT y) := by
    funext y
    congr 1
    funext b
    rcases b with b | b
    · simp [env]
    · fin_cases b
      · simp [env]
      · simp [env]
  rw [h1]
  exact Gr.deriv h iT

lemma line_p (h : Gr f (env r t p) d) : HasDerivAt (fun p => f (env r t p)) (d iP) p := by
  have h1 : (fun y => f (env r t y)) = fun y => f (Function.update (env r t p) iP y) := by
    funext y
    congr 1
    funext b
    rcases b with b | b
    · simp [env]
    · fin_cases b
      · simp [env]
      · simp [env]
  rw [h1]
  exact Gr.deriv h iP

end lines

lemma r2_symm {J : Jets ι κ} {D : (ι ⊕ κ → ℝ) → Prop} (hJ : J.Ok D) {x : ι ⊕ κ → ℝ} (hx : D x) (i j : ι) :
    r2 J x i j = r2 J x j i := by
  have e : ∑ k, ∑ l, J.g2 x (.inr k) (.inr l) * dS J x i k * dS J x j l
      = ∑ k, ∑ l, J.g2 x (.inr k) (.inr l) * dS J x j k * dS J x i l := by
    rw [Finset.sum_comm]
    refine Finset.sum_congr rfl fun k _ => Finset.sum_congr rfl fun l _ => ?_
    rw [hJ.sym2 _ hx (.inr l) (.inr k)]; ring
  unfold r2
  simp only [Finset.sum_add_distrib, e, hJ.sym2 _ hx (.inl i) (.inl j)]
  ring

lemma r3_symm12 {J : Jets ι κ} {D : (ι ⊕ κ → ℝ) → Prop} {S : (ι → ℝ) → κ → ℝ} {U : Set (ι → ℝ)} {θ : ι → ℝ}
    (hJ : J.Ok D) (h : Solved J D S U) (hθ : θ ∈ U) (i j m : ι) :
    r3 J (pt S θ) i j m = r3 J (pt S θ) j i m := by
  have h1 := grad_r2 hJ h hθ i j
  have h2 := grad_r2 hJ h hθ j i
  have e : (fun θ' => r2 J (pt S θ') j i) =ᶠ[𝓝 θ] fun θ' => r2 J (pt S θ') i j := by
    filter_upwards [h.isOpen.mem_nhds hθ] with θ' h' using r2_symm hJ (h.dom θ' h') j i
  have a := (h1.deriv m).unique ((h2.congr (e.symm)).deriv m)
  exact a

lemma r3_symm23 {J : Jets ι κ} {D : (ι ⊕ κ → ℝ) → Prop} (hJ : J.Ok D) {x : ι ⊕ κ → ℝ} (hx : D x) (i j m : ι)
    (h2 : ∀ a b, d2S J x a b = d2S J x b a) : r3 J x i j m = r3 J x i m j := by
  have s3 := hJ.sym3 _ hx
  have e1 : J.g3 x (.inl i) (.inl j) (.inl m) = J.g3 x (.inl i) (.inl m) (.inl j) := (s3 _ _ _).2
  have e2 : ∀ k, J.g3 x (.inr k) (.inl j) (.inl m) = J.g3 x (.inr k) (.inl m) (.inl j) := fun k => (s3 _ _ _).2
  have e3 : ∑ k, ∑ l, J.g3 x (.inr k) (.inr l) (.inl i) * dS J x j k * dS J x m l
      = ∑ k, ∑ l, J.g3 x (.inr k) (.inr l) (.inl i) * dS J x m k * dS J x j l := by
    rw [Finset.sum_comm]
    refine Finset.sum_congr rfl fun k _ => Finset.sum_congr rfl fun l _ => ?_
    rw [(s3 (.inr l) (.inr k) (.inl i)).1]; ring
  have e4 : ∑ k, ∑ l, ∑ n, J.g3 x (.inr k) (.inr l) (.inr n) * dS J x i k * dS J x j l * dS J x m n
      = ∑ k, ∑ l, ∑ n, J.g3 x (.inr k) (.inr l) (.inr n) * dS J x i k * dS J x m l * dS J x j n := by
    refine Finset.sum_congr rfl fun k _ => ?_
    rw [Finset.sum_comm]
    refine Finset.sum_congr rfl fun l _ => Finset.sum_congr rfl fun n _ => ?_
    rw [(s3 (.inr k) (.inr n) (.inr l)).2]; ring
  unfold r3
  simp only [Finset.sum_add_distrib, e1, e2, e3, e4, h2 m j, h2 i j, h2 i m]
  ring

lemma d2S_symm {J : Jets ι κ} {D : (ι ⊕ κ → ℝ) → Prop} (hJ : J.Ok D) {x : ι ⊕ κ → ℝ} (hx : D x) (i j : ι) :
    d2S J x i j = d2S J x j i := by
  have s3 := hJ.sym3 _ hx
  unfold d2S
  congr 1
  funext k
  have e4 : ∑ l, ∑ n, J.g3 x (.inr k) (.inr l) (.inr n) * dS J x i l * dS J x j n
      = ∑ l, ∑ n, J.g3 x (.inr k) (.inr l) (.inr n) * dS J x j l * dS J x i n := by
    rw [Finset.sum_comm]
    refine Finset.sum_congr rfl fun l _ => Finset.sum_congr rfl fun n _ => ?_
    rw [(s3 (.inr k) (.inr n) (.inr l)).2]; ring
  simp only [Finset.sum_add_distrib, e4, (s3 (.inr k) (.inl i) (.inl j)).2]
  ring

lemma Gr.mulc {α : Type} [Fintype α] {f : (α → ℝ) → ℝ} {x d : α → ℝ} (h : Gr f x d) (c : ℝ) :
    Gr (fun y => f y * c) x (fun i => d i * c) := by
  refine (HasFDerivAt.mul_const h c).congr_fderiv ?_
  refine ContinuousLinearMap.ext fun v => ?_
  simp only [_root_.sum_apply, _root_.smul_apply, ContinuousLinearMap.proj_apply, smul_eq_mul, Finset.mul_sum]
  exact Finset.sum_congr rfl fun _ _ => by ring

/-- The set of conditions as a predicate on temperature, pressure and composition. -/
def On {nr : ℕ} (U : Set (Ext nr → ℝ)) (t p : ℝ) (r : Fin nr → ℝ) : Prop := env r t p ∈ U

/-- **C24.** A phase with ordering: if its macros are a function and its partial derivatives to third order and
its ordering state is the continuous solution of the equilibrium conditions, then everything its mixing functions
report is the derivative it claims to be. -/
theorem C24_ordering {nr ns : ℕ} {J : Jets (Ext nr) (Fin ns)} {D : (Ext nr ⊕ Fin ns → ℝ) → Prop}
    {E : (Ext nr ⊕ Fin ns → ℝ) → ℝ} {X : (Ext nr → ℝ) → Fin ns → ℝ} {U : Set (Ext nr → ℝ)}
    (hJ : J.Ok D) (hE : ∀ x, D x → J.g1 x (.inl iT) = -E x) (h : Solved J D X U) :
    ConsistentOn (ordMix J E X) (On U) := by
  have hr3 : ∀ θ ∈ U, ∀ i j m, r3s J (pt X θ) i j m = r3 J (pt X θ) i j m :=
    fun θ hθ i j m => r3s_eq hJ h hθ i j m
  have hEe : ∀ {θ}, θ ∈ U → ∀ᶠ θ' in 𝓝 θ, E (pt X θ') = -r1 J (pt X θ') iT := fun {θ} hθ => by
    filter_upwards [h.isOpen.mem_nhds hθ] with θ' h'
    have := hE _ (h.dom θ' h')
    unfold r1; linarith
  have hEg : ∀ {θ}, θ ∈ U → Gr (fun θ' => E (pt X θ')) θ (fun i => -r2 J (pt X θ) iT i) := fun {θ} hθ => by
    refine Gr.congr ?_ (hEe hθ)
    refine (Gr.congr_d (Gr.mulc (grad_r1 hJ h hθ iT) (-1)) (funext fun i => ?_)).congr
      (Eventually.of_forall fun θ' => ?_)
    · ring
    · ring
  have s3 : ∀ {θ}, θ ∈ U → ∀ i j m, r3 J (pt X θ) i j m = r3 J (pt X θ) i m j := fun {θ} hθ i j m =>
    r3_symm23 hJ (h.dom θ hθ) i j m (d2S_symm hJ (h.dom θ hθ))
  have s2 : ∀ {θ}, θ ∈ U → ∀ i j, r2 J (pt X θ) i j = r2 J (pt X θ) j i := fun {θ} hθ =>
    r2_symm hJ (h.dom θ hθ)
  have s1 : ∀ {θ}, θ ∈ U → ∀ i j m, r3 J (pt X θ) i j m = r3 J (pt X θ) j i m := fun {θ} hθ =>
    r3_symm12 hJ h hθ
  constructor
  · intro t p r hu; exact line_r (grad_r0 hJ h hu)
  · intro t p r hu i; exact line_r (grad_r1 hJ h hu (.inl i))
  · intro t p r hu i j
    refine Gr.congr_d (line_r (grad_r2 hJ h hu (.inl i) (.inl j))) ?_
    funext k; exact (hr3 _ hu _ _ _).symm
  · intro t p r hu
    refine (line_t (grad_r0 hJ h hu)).congr_deriv ?_
    exact hE _ (h.dom _ hu)
  · intro t p r hu; rfl
  · intro t p r hu
    refine Gr.congr_d (line_r (hEg hu)) ?_
    funext i
    change -r2 J _ _ _ = r2 J _ _ _ * -1
    rw [s2 hu iT]; ring
  · intro t p r hu i
    refine Gr.congr_d (Gr.mulc (line_r (grad_r2 hJ h hu (.inl i) iT)) (-1)) ?_
    funext j
    change r3 J _ _ _ _ * -1 = r3 J _ _ _ _ * -1
    rw [s3 hu]
  · intro t p r hu
    have h1 := (line_t (grad_r0 hJ h hu)).fun_add ((hasDerivAt_id' t).fun_mul (line_t (hEg hu)))
    refine h1.congr_deriv ?_
    have := hE _ (h.dom _ hu)
    change r1 J (pt X (env r t p)) iT + (1 * E (pt X (env r t p)) + t * -r2 J (pt X (env r t p)) iT iT)
      = r2 J (pt X (env r t p)) iT iT * -t
    unfold r1
    rw [this]; ring
  · intro t p r hu
    have h1 := (line_t (grad_r2 hJ h hu iT iT)).fun_mul (hasDerivAt_id' t).fun_neg
    refine h1.congr_deriv ?_
    change r3 J (pt X (env r t p)) iT iT iT * -t + r2 J (pt X (env r t p)) iT iT * -1 =
      -t * r3 J (pt X (env r t p)) iT iT iT - r2 J (pt X (env r t p)) iT iT
    ring
  · intro t p r hu
    refine Gr.congr_d (Gr.mulc (line_r (grad_r2 hJ h hu iT iT)) (-t)) ?_
    funext i
    change r3 J _ _ _ _ * -t = r3 J _ _ _ _ * -t
    rw [s3 hu, s1 hu]
  · intro t p r hu; exact line_p (grad_r0 hJ h hu)
  · intro t p r hu
    refine Gr.congr_d (line_r (grad_r1 hJ h hu iP)) ?_
    funext i; exact s2 hu _ _
  · intro t p r hu i
    refine Gr.congr_d (line_r (grad_r2 hJ h hu (.inl i) iP)) ?_
    funext j; exact s3 hu _ _ _
  · intro t p r hu
    refine (line_t (grad_r1 hJ h hu iP)).congr_deriv ?_
    exact s2 hu _ _
  · intro t p r hu; exact line_p (grad_r1 hJ h hu iP)
  · intro t p r hu
    refine (line_t (grad_r2 hJ h hu iT iP)).congr_deriv ?_
    exact s3 hu _ _ _
  · intro t p r hu; exact line_p (grad_r2 hJ h hu iT iP)
  · intro t p r hu; exact line_p (grad_r2 hJ h hu iP iP)
  · intro t p r hu i
    refine (line_t (grad_r2 hJ h hu (.inl i) iP)).congr_deriv ?_
    exact s3 hu _ _ _
  · intro t p r hu i; exact line_p (grad_r2 hJ h hu (.inl i) iP)
  · intro t p r hu i
    refine (line_t (grad_r1 hJ h hu (.inl i))).congr_deriv ?_
    change r2 J _ _ _ = -(r2 J _ _ _ * -1)
    ring
  · intro t p r hu i; exact line_p (grad_r1 hJ h hu (.inl i))
  · intro t p r hu ht i
    refine ((line_t (grad_r2 hJ h hu (.inl i) iT)).mul_const (-1)).congr_deriv ?_
    change r3 J _ _ _ _ * -1 = r3 J _ _ _ _ * -t / t
    field_simp
  · intro t p r hu
    refine Gr.congr_d (line_r (grad_r2 hJ h hu iP iP)) ?_
    funext i
    change r3 J _ _ _ _ = r3 J _ _ _ _
    rw [s3 hu, s1 hu]
  · intro t p r hu i j; exact s2 hu _ _
  · intro t p r hu i j k
    change r3s J _ _ _ _ = r3s J _ _ _ _ ∧ r3s J _ _ _ _ = r3s J _ _ _ _
    rw [hr3 _ hu, hr3 _ hu, hr3 _ hu]
    exact ⟨s1 hu _ _ _, s3 hu _ _ _⟩

/-! ### Chemical potentials and activities (`act*`) -/

/-- `mu[i]`, cummingtonite.c 1379-1385; `fr` is the table `FRj(i)`. -/
def muO {nr na : ℕ} (M : Mix nr) (fr : (Fin nr → ℝ) → Fin na → Fin nr → ℝ) (t p : ℝ) (r : Fin nr → ℝ)
    (i : Fin na) : ℝ := M.g t p r + ∑ j, fr r i j * M.gr t p r j

/-- `a[i]`, cummingtonite.c 1370-1377. -/
def actO {nr na : ℕ} (M : Mix nr) (fr : (Fin nr → ℝ) → Fin na → Fin nr → ℝ) (t p : ℝ) (r : Fin nr → ℝ)
    (i : Fin na) : ℝ := Real.exp ((M.g t p r + ∑ j, fr r i j * M.gr t p r j) / (R * t))

/-- `dx[i][k]`, cummingtonite.c 1387-1426; `dfr` is `DFRkDRk(i)` and `gs` the table `GSj(i)`. -/
def dactO {nr ns na : ℕ} (J : Jets (Ext nr) (Fin ns)) (X : (Ext nr → ℝ) → Fin ns → ℝ)
    (fr : (Fin nr → ℝ) → Fin na → Fin nr → ℝ) (dfr : Fin na → Fin nr → ℝ)
    (gs : (Fin ns → ℝ) → Fin na → Fin ns → ℝ) (t p : ℝ) (r : Fin nr → ℝ) (i : Fin na) (k : Fin nr) : ℝ :=
  let x := pt X (env r t p)
  Real.exp ((J.g x + ∑ j, fr r i j * J.g1 x (.inl (.inl j))) / (R * t))
    * (((1 + dfr i k) * J.g1 x (.inl (.inl k))
        + ∑ j, (fr r i j * J.g2 x (.inl (.inl j)) (.inl (.inl k))
          + ∑ l, fr r i j * J.g2 x (.inr l) (.inl (.inl j)) * dS J x (.inl k) l)
        + ∑ j, (gs (X (env r t p)) i j * J.g2 x (.inr j) (.inl (.inl k))
          + ∑ l, gs (X (env r t p)) i j * J.g2 x (.inr j) (.inr l) * dS J x (.inl k) l)) / (R * t))

/-- **C24.** The activity is `exp(μ/RT)`. -/
theorem C24_ordering_activity {nr na : ℕ} (M : Mix nr) (fr : (Fin nr → ℝ) → Fin na → Fin nr → ℝ) (t p : ℝ)
    (ht : t ≠ 0) (r : Fin nr → ℝ) (i : Fin na) : R * t * Real.log (actO M fr t p r i) = muO M fr t p r i := by
  have := R_pos.ne'
  unfold actO muO
  rw [Real.log_exp]
  field_simp

open Magma.Thermo.Compo in
/-- **C24.** The chemical potentials a phase with ordering reports are the derivatives of its total Gibbs energy
of mixing in the moles of the end members, if its `FR` table is its composition conversion's Jacobian. -/
theorem C24_ordering_potential {nr na : ℕ} {M : Mix nr} {I : ℝ → ℝ → (Fin nr → ℝ) → Prop} (hM : ConsistentOn M I)
    (C : Conversion na nr) (hC : C.Consistent) {fr : (Fin nr → ℝ) → Fin na → Fin nr → ℝ} (t p : ℝ)
    (m : Fin na → ℝ) (h0 : ∑ i, m i ≠ 0) (hfr : ∀ i j, (∑ i, m i) * C.dm m j i = fr (C.toR m) i j)
    (hr : I t p (C.toR m)) (i : Fin na) :
    Partial (fun m => (∑ i, m i) * M.g t p (C.toR m)) m i (muO M fr t p (C.toR m) i) := by
  have h := C23_gradient (M.g t p) C.toR m (M.gr t p (C.toR m)) (C.dm m) (hM.g_r t p _ hr) (hC.first m h0) i
  refine HasDerivAt.congr_deriv h ?_
  unfold gradient muO
  rw [add_comm, Finset.mul_sum]
  congr 1
  refine Finset.sum_congr rfl fun j _ => ?_
  rw [← hfr i j]; ring

/-- **C24.** Euler's relation for a phase with ordering: the potentials weighted with the mole fractions `x` sum
to the Gibbs energy, if the `FR` columns are orthogonal to the mole fractions. -/
theorem C24_ordering_euler {nr na : ℕ} (M : Mix nr) (fr : (Fin nr → ℝ) → Fin na → Fin nr → ℝ) (t p : ℝ)
    (r : Fin nr → ℝ) (x : Fin na → ℝ) (hx : ∑ i, x i = 1) (hfr : ∀ j, ∑ i, x i * fr r i j = 0) :
    ∑ i, x i * muO M fr t p r i = M.g t p r := by
  unfold muO
  simp only [mul_add, Finset.sum_add_distrib, ← Finset.sum_mul, hx, one_mul]
  have : ∑ i, x i * ∑ j, fr r i j * M.gr t p r j = 0 := by
    simp only [Finset.mul_sum]
    rw [Finset.sum_comm]
    refine Finset.sum_eq_zero fun j _ => ?_
    have := hfr j
    calc ∑ i, x i * (fr r i j * M.gr t p r j) = (∑ i, x i * fr r i j) * M.gr t p r j := by
          rw [Finset.sum_mul]; exact Finset.sum_congr rfl fun _ _ => by ring
      _ = 0 := by rw [this, zero_mul]
  rw [this, add_zero]

/-- **C24.** The composition derivatives of the activities that a phase with ordering returns are their
derivatives. -/
theorem C24_ordering_activity_derivative {nr ns na : ℕ} {J : Jets (Ext nr) (Fin ns)}
    {D : (Ext nr ⊕ Fin ns → ℝ) → Prop} {E : (Ext nr ⊕ Fin ns → ℝ) → ℝ} {X : (Ext nr → ℝ) → Fin ns → ℝ}
    {U : Set (Ext nr → ℝ)} (hJ : J.Ok D) (hE : ∀ x, D x → J.g1 x (.inl iT) = -E x) (h : Solved J D X U)
    {fr : (Fin nr → ℝ) → Fin na → Fin nr → ℝ} {dfr : Fin na → Fin nr → ℝ} {e : Fin na → Fin nr → ℝ}
    {gs : (Fin ns → ℝ) → Fin na → Fin ns → ℝ}
    (hfr : ∀ r i j, fr r i j = e i j - r j) (hdfr : ∀ i k, dfr i k = -1) {t p : ℝ} {r : Fin nr → ℝ}
    (hu : On U t p r) (i : Fin na) (k : Fin nr) :
    Partial (fun r => actO (ordMix J E X) fr t p r i) r k (dactO J X fr dfr gs t p r i k) := by
  have hM := C24_ordering hJ hE h
  have h1 : HasDerivAt (fun y => (ordMix J E X).g t p (bump r k y)) ((ordMix J E X).gr t p r k) 0 :=
    partial_of_grad (hM.g_r t p r hu) k
  have h2 : ∀ j, HasDerivAt (fun y => (ordMix J E X).gr t p (bump r k y) j) ((ordMix J E X).grr t p r j k) 0 :=
    fun j => partial_of_grad (hM.g_rr t p r hu j) k
  have h3 : ∀ j, HasDerivAt (fun y => fr (bump r k y) i j) (-(if j = k then 1 else 0)) 0 := by
    intro j
    have e1 : (fun y => fr (bump r k y) i j) = fun y => e i j - (r j + if j = k then y else 0) := by
      funext y; rw [hfr]; rfl
    rw [e1]
    split_ifs
    · exact ((hasDerivAt_id' (0 : ℝ)).const_add (r j)).const_sub _
    · exact (hasDerivAt_const (0 : ℝ) _).congr_deriv (by simp)
  have h4 := HasDerivAt.fun_sum (u := Finset.univ) (x := (0 : ℝ))
    (A := fun j y => fr (bump r k y) i j * (ordMix J E X).gr t p (bump r k y) j) fun j _ => (h3 j).mul (h2 j)
  have h5 := ((h1.fun_add h4).div_const (R * t)).exp
  unfold Partial
  refine h5.congr_deriv ?_
  have b0 : bump r k 0 = r := bump_zero r k
  rw [b0]
  unfold dactO
  simp only
  congr 2
  rw [Finset.sum_add_distrib]
  have d1 : ∑ j, -(if j = k then (1 : ℝ) else 0) * (ordMix J E X).gr t p r j = -(ordMix J E X).gr t p r k := by simp
  rw [d1, hdfr]
  set θ := env r t p with hθ
  have hD := h.dom θ hu
  -- the ordering terms vanish
  have z : ∀ j, J.g2 (pt X θ) (.inr j) (.inl (.inl k)) + ∑ l, J.g2 (pt X θ) (.inr j) (.inr l) * dS J (pt X θ) (.inl k) l = 0 := by
    intro j
    have := solve_row (h.regular θ hu) (fun k' => J.g2 (pt X θ) (.inr k') (.inl (.inl k))) j
    unfold dS; linarith
  have z' : ∑ j, (gs (X θ) i j * J.g2 (pt X θ) (.inr j) (.inl (.inl k))
      + ∑ l, gs (X θ) i j * J.g2 (pt X θ) (.inr j) (.inr l) * dS J (pt X θ) (.inl k) l) = 0 := by
    refine Finset.sum_eq_zero fun j _ => ?_
    have := z j
    calc _ = gs (X θ) i j * (J.g2 (pt X θ) (.inr j) (.inl (.inl k))
          + ∑ l, J.g2 (pt X θ) (.inr j) (.inr l) * dS J (pt X θ) (.inl k) l) := by
          rw [mul_add, Finset.mul_sum]; congr 1; exact Finset.sum_congr rfl fun _ _ => by ring
      _ = 0 := by rw [this, mul_zero]
  rw [z']
  have w : ∀ j, J.g2 (pt X θ) (.inl (.inl j)) (.inl (.inl k))
      + ∑ l, J.g2 (pt X θ) (.inr l) (.inl (.inl j)) * dS J (pt X θ) (.inl k) l = r2 J (pt X θ) (.inl j) (.inl k) := by
    intro j
    have c := cancel hJ h hu (.inl k) (dS J (pt X θ) (.inl j))
    have e : ∑ k', ∑ l, J.g2 (pt X θ) (.inr k') (.inr l) * dS J (pt X θ) (.inl j) k' * dS J (pt X θ) (.inl k) l
        = ∑ k', ∑ l, J.g2 (pt X θ) (.inr k') (.inr l) * dS J (pt X θ) (.inl k) k' * dS J (pt X θ) (.inl j) l := by
      rw [Finset.sum_comm]
      refine Finset.sum_congr rfl fun k _ => Finset.sum_congr rfl fun l _ => ?_
      rw [hJ.sym2 _ hD (.inr l) (.inr k)]; ring
    unfold r2
    simp only [Finset.sum_add_distrib, ← hθ] at c ⊢
    rw [e]
    linarith
  have w' : ∑ j, (fr r i j * J.g2 (pt X θ) (.inl (.inl j)) (.inl (.inl k))
      + ∑ l, fr r i j * J.g2 (pt X θ) (.inr l) (.inl (.inl j)) * dS J (pt X θ) (.inl k) l)
      = ∑ j, fr r i j * (ordMix J E X).grr t p r j k := by
    refine Finset.sum_congr rfl fun j _ => ?_
    change _ = fr r i j * r2 J (pt X θ) (.inl j) (.inl k)
    rw [← w j, mul_add, Finset.mul_sum]
    congr 1
    exact Finset.sum_congr rfl fun _ _ => by ring
  rw [w']
  ring

end

end Verif.Thermo.Ordering
