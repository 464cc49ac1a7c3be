import Verif.Thermo.ConvTables
import Mathlib.Analysis.Calculus.MeanValue

/-!
Any conversion that is consistent in the sense of C25 is a ratio of linear forms, so its second and third derivatives do not
depend on the order of the directions.
-/

namespace Magma.Thermo.Compo

open Finset Filter Topology Magma.Thermo.Extensive

noncomputable section

variable {na nr : ℕ}

theorem bump_add (m : Fin na → ℝ) (j : Fin na) (x y : ℝ) : bump (bump m j x) j y = bump m j (x + y) := by
  funext i
  simp only [bump]
  split_ifs <;> ring

/-- A function whose partial derivatives vanish everywhere does not change along a coordinate. -/
theorem const_line {f : (Fin nr → ℝ) → ℝ} (h : ∀ r j, Partial f r j 0) (r : Fin nr → ℝ) (j : Fin nr) (x : ℝ) :
    f (bump r j x) = f r := by
  have hd : ∀ x, HasDerivAt (fun x => f (bump r j x)) 0 x := by
    intro x
    have := h (bump r j x) j
    unfold Partial at this
    simp only [bump_add] at this
    have h1 : HasDerivAt (fun h => f (bump r j (x + h))) 0 (x - x) := by rwa [sub_self]
    have h2 := HasDerivAt.comp (h := fun t : ℝ => t - x) x h1 ((hasDerivAt_id x).sub_const x)
    simpa [Function.comp_def] using h2
  have := is_const_of_deriv_eq_zero (f := fun x => f (bump r j x)) (fun x => (hd x).differentiableAt)
    (fun x => (hd x).deriv) x 0
  simpa [bump_zero] using this

/-- Such a function is constant. -/
theorem const_all {f : (Fin nr → ℝ) → ℝ} (h : ∀ r j, Partial f r j 0) (r : Fin nr → ℝ) : f r = f 0 := by
  have key : ∀ s : Finset (Fin nr), f (fun i => if i ∈ s then r i else 0) = f 0 := by
    intro s
    induction s using Finset.induction_on with
    | empty => congr 1
    | insert j s hj ih =>
      rw [← ih, ← const_line h (fun i => if i ∈ s then r i else 0) j (r j)]
      congr 1
      funext i
      simp only [bump, mem_insert]
      by_cases e : i = j
      · subst e; simp [hj]
      · simp [e]
  have := key univ
  simpa using this

/-- A function with constant partial derivatives is affine. -/
theorem affine_of {f : (Fin nr → ℝ) → ℝ} {d : Fin nr → ℝ} (h : ∀ r j, Partial f r j (d j)) (r : Fin nr → ℝ) :
    f r = f 0 + ∑ j, d j * r j := by
  have h0 : ∀ r j, Partial (fun r => f r - ∑ j, d j * r j) r j 0 := by
    intro r j
    have hl : Partial (fun r : Fin nr → ℝ => ∑ i, d i * r i) r j (d j) := by
      unfold Partial
      have e : (fun h : ℝ => ∑ i, d i * bump r j h i) = fun h => ∑ i, d i * r i + h * d j := by
        funext h; simp [bump, mul_add, sum_add_distrib, mul_comm]
      rw [e]
      simpa using ((hasDerivAt_id (0 : ℝ)).mul_const (d j)).const_add (∑ i, d i * r i)
    have := HasDerivAt.sub (h r j) hl
    rwa [sub_self] at this
  have := const_all h0 r
  simp at this
  linarith

variable {C : Conversion na nr} (hC : C.Consistent)
include hC

/-- The variables are linear forms in the moles divided by the total. -/
theorem toR_lin {m : Fin na → ℝ} (h0 : ∑ i, m i ≠ 0) (i : Fin nr) :
    C.toR m i = (∑ j, C.toR (Pi.single j 1) i * m j) / ∑ i, m i := by
  set p : Fin na → ℝ := fun j => (∑ i, m i)⁻¹ * m j with hp
  have hs : ∑ j, p j = 1 := by rw [hp, ← mul_sum, inv_mul_cancel₀ h0]
  have e1 : C.toR p = C.toR m := hC.scale m h0 _ (inv_ne_zero h0)
  set r : Fin nr → ℝ := fun i => ∑ j, p j * C.toR (Pi.single j 1) i with hr
  have e2 : C.fromR r = p := by
    funext k
    have ha := fun r => affine_of (f := fun r => C.fromR r k) (d := C.dr k) (fun r j => hC.jacobian r k j) r
    have hb : ∀ j : Fin na, C.fromR (C.toR (Pi.single j 1)) k = (Pi.single j (1 : ℝ) : Fin na → ℝ) k := by
      intro j
      have := hC.roundtrip (Pi.single j 1) (by simp) k
      simpa using this
    calc C.fromR r k = C.fromR 0 k + ∑ i, C.dr k i * r i := ha r
      _ = ∑ j, p j * (C.fromR 0 k + ∑ i, C.dr k i * C.toR (Pi.single j 1) i) := by
          simp only [mul_add, sum_add_distrib, ← sum_mul, hs, one_mul, hr, mul_sum]
          congr 1
          rw [sum_comm]
          exact sum_congr rfl fun i _ => sum_congr rfl fun j _ => by ring
      _ = ∑ j, p j * (Pi.single j (1 : ℝ) : Fin na → ℝ) k := sum_congr rfl fun j _ => by rw [← ha, hb]
      _ = p k := by simp [Pi.single_apply]
  have e3 : C.toR m = r := by rw [← e1, ← e2, hC.inverse]
  rw [e3, hr]
  simp only [hp, div_eq_inv_mul, mul_sum]
  exact sum_congr rfl fun j _ => by ring

theorem sum_near {m : Fin na → ℝ} (h0 : ∑ i, m i ≠ 0) (j : Fin na) : ∀ᶠ h in 𝓝 (0 : ℝ), ∑ i, bump m j h i ≠ 0 := by
  have hc : Continuous fun h : ℝ => ∑ i, bump m j h i := by
    refine continuous_finset_sum _ fun i _ => ?_
    unfold bump
    split_ifs
    · exact continuous_const.add continuous_id
    · exact continuous_const
  refine hc.continuousAt.eventually_ne ?_
  simpa [bump_zero] using h0

omit hC in
theorem sum_bump (m : Fin na → ℝ) (j : Fin na) (h : ℝ) : ∑ i, bump m j h i = ∑ i, m i + h := by
  simp [bump, sum_add_distrib]

omit hC in
theorem lbump (c : Fin na → ℝ) (m : Fin na → ℝ) (j : Fin na) (h : ℝ) : ∑ i, c i * bump m j h i = ∑ i, c i * m i + h * c j := by
  simp [bump, mul_add, sum_add_distrib, mul_comm]

/-- First derivatives. -/
theorem dm_lin {m : Fin na → ℝ} (h0 : ∑ i, m i ≠ 0) (i : Fin nr) (j : Fin na) :
    C.dm m i j = C.toR (Pi.single j 1) i / (∑ i, m i) - (∑ k, C.toR (Pi.single k 1) i * m k) / (∑ i, m i) ^ 2 := by
  have h := hC.first m h0 i j
  unfold Partial at h
  have e : (fun h => C.toR (bump m j h) i) =ᶠ[𝓝 0]
      fun h => (∑ k, C.toR (Pi.single k 1) i * m k + h * C.toR (Pi.single j 1) i) / (∑ i, m i + h) := by
    filter_upwards [sum_near hC h0 j] with h hh
    rw [toR_lin hC hh, sum_bump, lbump (fun k => C.toR (Pi.single k 1) i)]
  have h' := h.congr_of_eventuallyEq e.symm
  have g := (((hasDerivAt_id (0 : ℝ)).mul_const (C.toR (Pi.single j 1) i)).const_add
    (∑ k, C.toR (Pi.single k 1) i * m k)).div ((hasDerivAt_id (0 : ℝ)).const_add (∑ i, m i)) (by simpa using h0)
  rw [h'.unique g]
  simp only [id, zero_mul, add_zero]
  field_simp

/-- Second derivatives. -/
theorem d2m_lin {m : Fin na → ℝ} (h0 : ∑ i, m i ≠ 0) (i : Fin nr) (j k : Fin na) :
    C.d2m m i j k = -(C.toR (Pi.single j 1) i + C.toR (Pi.single k 1) i) / (∑ i, m i) ^ 2
      + 2 * (∑ l, C.toR (Pi.single l 1) i * m l) / (∑ i, m i) ^ 3 := by
  have h := hC.second m h0 i j k
  unfold Partial at h
  have e : (fun h => C.dm (bump m k h) i j) =ᶠ[𝓝 0] fun h => C.toR (Pi.single j 1) i / (∑ i, m i + h)
      - (∑ l, C.toR (Pi.single l 1) i * m l + h * C.toR (Pi.single k 1) i) / (∑ i, m i + h) ^ 2 := by
    filter_upwards [sum_near hC h0 k] with h hh
    rw [dm_lin hC hh, sum_bump, lbump (fun l => C.toR (Pi.single l 1) i)]
  have h' := h.congr_of_eventuallyEq e.symm
  have hM := (hasDerivAt_id (0 : ℝ)).const_add (∑ i, m i)
  have g := ((hasDerivAt_const (0 : ℝ) (C.toR (Pi.single j 1) i)).div hM (by simpa using h0)).sub
    ((((hasDerivAt_id (0 : ℝ)).mul_const (C.toR (Pi.single k 1) i)).const_add
    (∑ l, C.toR (Pi.single l 1) i * m l)).div (hM.pow 2) (by simpa using h0))
  rw [h'.unique g]
  simp only [id, zero_mul, add_zero, Pi.pow_apply]
  field_simp
  ring

/-- The second derivatives do not depend on the order. -/
theorem d2m_symm {m : Fin na → ℝ} (h0 : ∑ i, m i ≠ 0) (i : Fin nr) (j k : Fin na) : C.d2m m i j k = C.d2m m i k j := by
  rw [d2m_lin hC h0, d2m_lin hC h0, add_comm (C.toR (Pi.single j 1) i)]

/-- Third derivatives. -/
theorem d3m_lin {m : Fin na → ℝ} (h0 : ∑ i, m i ≠ 0) (i : Fin nr) (j k l : Fin na) :
    C.d3m m i j k l = 2 * (C.toR (Pi.single j 1) i + C.toR (Pi.single k 1) i + C.toR (Pi.single l 1) i) / (∑ i, m i) ^ 3
      - 6 * (∑ l, C.toR (Pi.single l 1) i * m l) / (∑ i, m i) ^ 4 := by
  have h := hC.third m h0 i j k l
  unfold Partial at h
  have e : (fun h => C.d2m (bump m l h) i j k) =ᶠ[𝓝 0]
      fun h => -(C.toR (Pi.single j 1) i + C.toR (Pi.single k 1) i) / (∑ i, m i + h) ^ 2
      + 2 * (∑ l, C.toR (Pi.single l 1) i * m l + h * C.toR (Pi.single l 1) i) / (∑ i, m i + h) ^ 3 := by
    filter_upwards [sum_near hC h0 l] with h hh
    rw [d2m_lin hC hh, sum_bump, lbump (fun l => C.toR (Pi.single l 1) i)]
  have h' := h.congr_of_eventuallyEq e.symm
  have hM := (hasDerivAt_id (0 : ℝ)).const_add (∑ i, m i)
  have g := ((hasDerivAt_const (0 : ℝ) (-(C.toR (Pi.single j 1) i + C.toR (Pi.single k 1) i))).div (hM.pow 2) (by simpa using h0)).add
    (((((hasDerivAt_id (0 : ℝ)).mul_const (C.toR (Pi.single l 1) i)).const_add
    (∑ l, C.toR (Pi.single l 1) i * m l)).const_mul 2).div (hM.pow 3) (by simpa using h0))
  rw [h'.unique g]
  simp only [id, zero_mul, add_zero, Pi.pow_apply]
  field_simp
  ring

end

end Magma.Thermo.Compo
