import Verif.Prelude
import Mathlib.Analysis.Calculus.Deriv.Add
import Mathlib.Analysis.Calculus.Deriv.Mul
import Mathlib.Analysis.Calculus.Deriv.Comp
import Mathlib.Analysis.Calculus.FDeriv.Pi
import Mathlib.Analysis.Calculus.Deriv.Prod

/-!
Model of `intenToExtenGradient` and `intenToExtenHessian` (/repo/sources/gradient_hessian.c 206-235), which turn
molar properties of a solution (functions of the independent compositional variables `r`) into derivatives of
the extensive property in the moles `m` of the end members.

Simplification: `double` is the real numbers.
-/

namespace Magma.Thermo.Extensive

open Finset

noncomputable section

variable {na nr : ℕ}

/-- gradient_hessian.c 206-215. -/
def gradient (pMix : ℝ) (dpMix : Fin nr → ℝ) (mTotal : ℝ) (drdm : Fin nr → Fin na → ℝ) (j : Fin na) : ℝ :=
  mTotal * ∑ i, dpMix i * drdm i j + pMix

/-- gradient_hessian.c 217-235. -/
def hessian (dpMix : Fin nr → ℝ) (d2pMix : Fin nr → Fin nr → ℝ) (mTotal : ℝ)
    (drdm : Fin nr → Fin na → ℝ) (d2rdm2 : Fin nr → Fin na → Fin na → ℝ) (j l : Fin na) : ℝ :=
  ∑ i, (dpMix i * (drdm i j + drdm i l + mTotal * d2rdm2 i j l) +
    mTotal * drdm i j * ∑ k, d2pMix i k * drdm k l)

/-! ### Specification -/

/-- `m` with `h` moles of end member `j` added. -/
def bump (m : Fin na → ℝ) (j : Fin na) (h : ℝ) : Fin na → ℝ := fun i => m i + if i = j then h else 0

/-- `d` is the partial derivative of `f` at `m` in direction `j`. -/
def Partial (f : (Fin na → ℝ) → ℝ) (m : Fin na → ℝ) (j : Fin na) (d : ℝ) : Prop :=
  HasDerivAt (fun h => f (bump m j h)) d 0

/-- `f` is differentiable at `r` with the given partial derivatives. -/
def Grad (f : (Fin nr → ℝ) → ℝ) (r : Fin nr → ℝ) (d : Fin nr → ℝ) : Prop :=
  HasFDerivAt f (∑ i, d i • (ContinuousLinearMap.proj i : (Fin nr → ℝ) →L[ℝ] ℝ)) r

/-- The extensive property: total moles times the molar property. -/
def extensive (P : (Fin nr → ℝ) → ℝ) (r : (Fin na → ℝ) → Fin nr → ℝ) (m : Fin na → ℝ) : ℝ :=
  (∑ i, m i) * P (r m)

/-! ### Lemmas -/

theorem bump_zero (m : Fin na → ℝ) (j : Fin na) : bump m j 0 = m := by
  funext i; simp [bump]

theorem partial_total (m : Fin na → ℝ) (j : Fin na) : Partial (fun m => ∑ i, m i) m j 1 := by
  unfold Partial
  have e : (fun h : ℝ => ∑ i, bump m j h i) = fun h => (∑ i, m i) + h := by
    funext h; simp [bump, sum_add_distrib]
  rw [e]
  simpa using (hasDerivAt_id (0 : ℝ)).const_add (∑ i, m i)

theorem partial_comp (P : (Fin nr → ℝ) → ℝ) (r : (Fin na → ℝ) → Fin nr → ℝ) (m : Fin na → ℝ) (j : Fin na)
    (d : Fin nr → ℝ) (e : Fin nr → ℝ) (hP : Grad P (r m) d) (hr : ∀ i, Partial (fun m => r m i) m j (e i)) :
    Partial (fun m => P (r m)) m j (∑ i, d i * e i) := by
  unfold Partial
  have h1 : HasDerivAt (fun h => r (bump m j h)) e 0 := hasDerivAt_pi.mpr hr
  have h2 : HasFDerivAt P (∑ i, d i • (ContinuousLinearMap.proj i : (Fin nr → ℝ) →L[ℝ] ℝ))
      (r (bump m j 0)) := by rw [bump_zero]; exact hP
  have h3 := h2.comp_hasDerivAt (0 : ℝ) h1
  refine h3.congr_deriv ?_
  simp

/-! ### Theorems -/

/-- **C23.** If `dpMix` are the partial derivatives of the molar property at the composition and `drdm` those of
the compositional variables, the gradient returned consists of the partial derivatives of total moles times the
molar property. -/
theorem C23_gradient (P : (Fin nr → ℝ) → ℝ) (r : (Fin na → ℝ) → Fin nr → ℝ) (m : Fin na → ℝ)
    (dpMix : Fin nr → ℝ) (drdm : Fin nr → Fin na → ℝ)
    (hP : Grad P (r m) dpMix) (hr : ∀ i j, Partial (fun m => r m i) m j (drdm i j)) (j : Fin na) :
    Partial (extensive P r) m j (gradient (P (r m)) dpMix (∑ i, m i) drdm j) := by
  have h := HasDerivAt.mul (partial_total m j) (partial_comp P r m j dpMix (fun i => drdm i j) hP fun i => hr i j)
  refine h.congr_deriv ?_
  simp only [bump_zero, gradient]
  ring

/-- **C23.** If moreover `d2pMix` are the partial derivatives of `dpMix` and `d2rdm2` those of `drdm`, the
Hessian returned consists of the partial derivatives of the gradient returned. -/
theorem C23_hessian (P : (Fin nr → ℝ) → ℝ) (r : (Fin na → ℝ) → Fin nr → ℝ) (m : Fin na → ℝ)
    (dpMix : (Fin nr → ℝ) → Fin nr → ℝ) (drdm : (Fin na → ℝ) → Fin nr → Fin na → ℝ)
    (d2pMix : Fin nr → Fin nr → ℝ) (d2rdm2 : Fin nr → Fin na → Fin na → ℝ)
    (hP : Grad P (r m) (dpMix (r m))) (hr : ∀ i j, Partial (fun m => r m i) m j (drdm m i j))
    (hP2 : ∀ i, Grad (fun r => dpMix r i) (r m) (d2pMix i))
    (hr2 : ∀ i j l, Partial (fun m => drdm m i j) m l (d2rdm2 i j l)) (j l : Fin na) :
    Partial (fun m => gradient (P (r m)) (dpMix (r m)) (∑ i, m i) (drdm m) j) m l
      (hessian (dpMix (r m)) d2pMix (∑ i, m i) (drdm m) d2rdm2 j l) := by
  have hs : HasDerivAt (fun h => ∑ i, dpMix (r (bump m l h)) i * drdm (bump m l h) i j)
      (∑ i, ((∑ k, d2pMix i k * drdm m k l) * drdm (bump m l 0) i j +
        dpMix (r (bump m l 0)) i * d2rdm2 i j l)) 0 := by
    have := HasDerivAt.sum (u := univ) (x := (0 : ℝ))
      (A := fun i h => dpMix (r (bump m l h)) i * drdm (bump m l h) i j)
      (A' := fun i => (∑ k, d2pMix i k * drdm m k l) * drdm (bump m l 0) i j +
        dpMix (r (bump m l 0)) i * d2rdm2 i j l) fun i _ =>
      HasDerivAt.mul (partial_comp (fun r => dpMix r i) r m l (d2pMix i) (fun k => drdm m k l) (hP2 i)
        fun k => hr k l) (hr2 i j l)
    refine this.congr_of_eventuallyEq (Filter.Eventually.of_forall fun h => ?_)
    simp
  have h := (HasDerivAt.mul (partial_total m l) hs).add
    (partial_comp P r m l (dpMix (r m)) (fun i => drdm m i l) hP fun i => hr i l)
  refine h.congr_deriv ?_
  simp only [bump_zero]
  generalize (∑ i, m i) = M
  simp only [hessian, one_mul]
  rw [mul_sum, ← sum_add_distrib, ← sum_add_distrib]
  refine sum_congr rfl fun i _ => ?_
  ring

/-- **C23.** The Hessian returned is symmetric when the second derivatives supplied are. -/
theorem C23_hessian_symmetric (dpMix : Fin nr → ℝ) (d2pMix : Fin nr → Fin nr → ℝ) (mTotal : ℝ)
    (drdm : Fin nr → Fin na → ℝ) (d2rdm2 : Fin nr → Fin na → Fin na → ℝ)
    (h1 : ∀ i k, d2pMix i k = d2pMix k i) (h2 : ∀ i j l, d2rdm2 i j l = d2rdm2 i l j) (j l : Fin na) :
    hessian dpMix d2pMix mTotal drdm d2rdm2 j l = hessian dpMix d2pMix mTotal drdm d2rdm2 l j := by
  have e : ∀ j l : Fin na, ∑ i, mTotal * drdm i j * ∑ k, d2pMix i k * drdm k l =
      mTotal * ∑ i, ∑ k, d2pMix i k * (drdm i j * drdm k l) := by
    intro j l
    rw [mul_sum]
    refine sum_congr rfl fun i _ => ?_
    rw [mul_sum, mul_sum]
    exact sum_congr rfl fun k _ => by ring
  unfold hessian
  rw [sum_add_distrib, sum_add_distrib, e, e]
  congr 1
  · refine sum_congr rfl fun i _ => ?_
    rw [h2 i j l]; ring
  · rw [sum_comm]
    congr 1
    refine sum_congr rfl fun i _ => sum_congr rfl fun k _ => ?_
    rw [h1 k i]; ring

/-- **C23.** Euler's relation: when the compositional variables do not change on scaling all moles
(`∑ⱼ mⱼ ∂rᵢ/∂mⱼ = 0`), the moles-weighted sum of the gradient returned is the extensive property. -/
theorem C23_euler (pMix : ℝ) (dpMix : Fin nr → ℝ) (m : Fin na → ℝ) (drdm : Fin nr → Fin na → ℝ)
    (hh : ∀ i, ∑ j, m j * drdm i j = 0) :
    ∑ j, m j * gradient pMix dpMix (∑ i, m i) drdm j = (∑ i, m i) * pMix := by
  unfold gradient
  simp only [mul_add, sum_add_distrib]
  rw [← sum_mul]
  have : ∑ j, m j * ((∑ i, m i) * ∑ i, dpMix i * drdm i j) = 0 := by
    have e : ∀ j, m j * ((∑ i, m i) * ∑ i, dpMix i * drdm i j) =
        ∑ i, (∑ i, m i) * dpMix i * (m j * drdm i j) := by
      intro j
      rw [mul_sum, mul_sum]
      exact sum_congr rfl fun i _ => by ring
    simp only [e]
    rw [sum_comm]
    refine sum_eq_zero fun i _ => ?_
    rw [← mul_sum, hh, mul_zero]
  rw [this, zero_add]

end

end Magma.Thermo.Extensive
