import Verif.Thermo.Ordering
import Mathlib.Analysis.Calculus.ImplicitFunction.ProdDomain
import Mathlib.Analysis.Calculus.LocalExtr.Rolle
import Mathlib.Analysis.SpecialFunctions.Log.NegMulLog
import Mathlib.Analysis.Calculus.MeanValue

/-!
When the equilibrium ordering state exists, is unique and varies smoothly.

`Verif.Thermo.Ordering.Solved` is what the theorems about phases with ordering assume of the state that `order()`
returns.  Here it is derived from facts about the energy function alone: a regular stationary point extends to
nearby conditions; an ideal site-mixing entropy forces a minimum with positive site fractions; a positive definite
Hessian makes it unique.
-/

namespace Verif.Thermo.Ordering

open Finset Filter Topology Matrix

noncomputable section

set_option linter.unusedSectionVars false

variable {ι κ : Type} [Fintype ι] [Fintype κ] [DecidableEq ι] [DecidableEq κ]

/-- Conditions and ordering state as one argument. -/
def join (u : (ι → ℝ) × (κ → ℝ)) : ι ⊕ κ → ℝ := Sum.elim u.1 u.2

/-- `join` as a continuous linear map. -/
def joinL : ((ι → ℝ) × (κ → ℝ)) →L[ℝ] (ι ⊕ κ → ℝ) :=
  ContinuousLinearMap.pi fun b => match b with
    | .inl i => (ContinuousLinearMap.proj i).comp (ContinuousLinearMap.fst ℝ (ι → ℝ) (κ → ℝ))
    | .inr k => (ContinuousLinearMap.proj k).comp (ContinuousLinearMap.snd ℝ (ι → ℝ) (κ → ℝ))

lemma joinL_eq (u : (ι → ℝ) × (κ → ℝ)) : joinL u = join u := by
  funext b; cases b <;> rfl

lemma join_continuous : Continuous (join : (ι → ℝ) × (κ → ℝ) → ι ⊕ κ → ℝ) := by
  have : (join : (ι → ℝ) × (κ → ℝ) → ι ⊕ κ → ℝ) = joinL := by funext u; exact (joinL_eq u).symm
  rw [this]; exact joinL.continuous

section
variable {J : Jets ι κ} {D : (ι ⊕ κ → ℝ) → Prop}

lemma g2_cont (hJ : J.Ok D) {x : ι ⊕ κ → ℝ} (hx : D x) (i j : ι ⊕ κ) :
    ContinuousAt (fun x => J.g2 x i j) x := (hJ.d3 x hx i j).continuousAt

/-- A regular stationary point belongs to a continuous family of stationary points, and there is no other
nearby. -/
theorem stationary_near (hJ : J.Ok D) (hD : IsOpen {x | D x}) {θ : ι → ℝ} {s : κ → ℝ} (hx : D (join (θ, s)))
    (hs : ∀ k, J.g1 (join (θ, s)) (.inr k) = 0) (hr : (negHess J (join (θ, s))).det ≠ 0) :
    ∃ S : (ι → ℝ) → κ → ℝ, S θ = s ∧ Tendsto S (𝓝 θ) (𝓝 s) ∧
      (∀ᶠ θ' in 𝓝 θ, ∀ k, J.g1 (join (θ', S θ')) (.inr k) = 0) ∧
      ∀ᶠ u in 𝓝 (θ, s), (∀ k, J.g1 (join u) (.inr k) = 0) → S u.1 = u.2 := by
  set f : (ι → ℝ) × (κ → ℝ) → κ → ℝ := fun u k => J.g1 (join u) (.inr k) with hf
  set f' : (ι → ℝ) × (κ → ℝ) → ((ι → ℝ) × (κ → ℝ)) →L[ℝ] (κ → ℝ) := fun u =>
    ContinuousLinearMap.pi fun k =>
      (∑ i, J.g2 (join u) (.inr k) i • (ContinuousLinearMap.proj i : (ι ⊕ κ → ℝ) →L[ℝ] ℝ)).comp joinL with hf'
  have hder : ∀ u, D (join u) → HasFDerivAt f (f' u) u := by
    intro u hu
    refine hasFDerivAt_pi.mpr fun k => ?_
    have h1 : HasFDerivAt (join : (ι → ℝ) × (κ → ℝ) → ι ⊕ κ → ℝ) joinL u := by
      have e : (join : (ι → ℝ) × (κ → ℝ) → ι ⊕ κ → ℝ) = joinL := by funext u; exact (joinL_eq u).symm
      rw [e]; exact joinL.hasFDerivAt
    exact HasFDerivAt.comp u (hJ.d2 _ hu (.inr k)) h1
  have hcont : ∀ u, D (join u) → ContinuousAt f' u := by
    intro u hu
    have e : f' = fun u => ∑ k, ∑ i, J.g2 (join u) (.inr k) i •
        (ContinuousLinearMap.single ℝ (fun _ : κ => ℝ) k).comp
          ((ContinuousLinearMap.proj i : (ι ⊕ κ → ℝ) →L[ℝ] ℝ).comp joinL) := by
      funext u
      refine ContinuousLinearMap.ext fun v => ?_
      funext l
      simp [hf', Pi.single_apply, Finset.sum_add_distrib]
    rw [e]
    refine tendsto_finsetSum _ fun k _ => tendsto_finsetSum _ fun i _ => ?_
    have h1 : ContinuousAt (fun u => J.g2 (join u) (.inr k) i) u :=
      ContinuousAt.comp (f := join) (g2_cont hJ hu (.inr k) i) join_continuous.continuousAt
    exact h1.tendsto.smul_const _
  have hDu : ∀ u, D (join u) → ∀ᶠ u' in 𝓝 u, D (join u') := fun u hu =>
    join_continuous.continuousAt.eventually (hD.mem_nhds hu)
  have hstrict : HasStrictFDerivAt f (f' (θ, s)) (θ, s) :=
    hasStrictFDerivAt_of_hasFDerivAt_of_continuousAt
      ((hDu _ hx).mono fun u hu => hder u hu) (hcont _ hx)
  have hinv : (f' (θ, s) ∘L .inr ℝ (ι → ℝ) (κ → ℝ)).IsInvertible := by
    set A := negHess J (join (θ, s)) with hA
    have hAu : IsUnit A.det := isUnit_iff_ne_zero.mpr hr
    have e : (f' (θ, s) ∘L .inr ℝ (ι → ℝ) (κ → ℝ)) = (Matrix.mulVecLin (-A)).toContinuousLinearMap := by
      refine ContinuousLinearMap.ext fun v => ?_
      funext k
      have hj : ∀ b, joinL ((0 : ι → ℝ), v) b = join ((0 : ι → ℝ), v) b := fun b => congrFun (joinL_eq _) b
      simp [hf', hA, negHess, Matrix.mulVec, dotProduct, hj, join]
    rw [e]
    refine ⟨ContinuousLinearEquiv.equivOfInverse (Matrix.mulVecLin (-A)).toContinuousLinearMap
      (Matrix.mulVecLin (-A⁻¹)).toContinuousLinearMap ?_ ?_, rfl⟩
    · intro v
      simp only [LinearMap.coe_toContinuousLinearMap', Matrix.mulVecLin_apply, Matrix.mulVec_mulVec, neg_mul_neg,
        Matrix.nonsing_inv_mul _ hAu, Matrix.one_mulVec]
    · intro v
      simp only [LinearMap.coe_toContinuousLinearMap', Matrix.mulVecLin_apply, Matrix.mulVec_mulVec, neg_mul_neg,
        Matrix.mul_nonsing_inv _ hAu, Matrix.one_mulVec]
  have h0 : f (θ, s) = 0 := funext hs
  refine ⟨hstrict.implicitFunctionOfProdDomain hinv, ?_, hstrict.tendsto_implicitFunctionOfProdDomain hinv, ?_, ?_⟩
  · exact (hstrict.eventually_apply_eq_iff_implicitFunctionOfProdDomain hinv).self_of_nhds.mp rfl
  · filter_upwards [hstrict.eventually_apply_implicitFunctionOfProdDomain hinv] with θ' h k
    rw [h0] at h
    exact congrFun h k
  · filter_upwards [hstrict.eventually_apply_eq_iff_implicitFunctionOfProdDomain hinv] with u h hk
    exact h.mp (by rw [h0]; exact funext hk)

/-- A regular stationary point extends to a neighbourhood of conditions on which everything the theorems about
`order()` assume holds. -/
theorem solved_near (hJ : J.Ok D) (hD : IsOpen {x | D x}) {θ : ι → ℝ} {s : κ → ℝ} (hx : D (join (θ, s)))
    (hs : ∀ k, J.g1 (join (θ, s)) (.inr k) = 0) (hr : (negHess J (join (θ, s))).det ≠ 0) :
    ∃ S U, θ ∈ U ∧ S θ = s ∧ Solved J D S U := by
  obtain ⟨S, h0, ht, hst, hun⟩ := stationary_near hJ hD hx hs hr
  have hpt : Tendsto (fun θ' => (θ', S θ')) (𝓝 θ) (𝓝 (θ, s)) := tendsto_id.prodMk_nhds ht
  have hdom : ∀ᶠ θ' in 𝓝 θ, D (join (θ', S θ')) :=
    (join_continuous.continuousAt.tendsto.comp hpt).eventually (hD.mem_nhds hx)
  have hreg : ∀ᶠ θ' in 𝓝 θ, (negHess J (join (θ', S θ'))).det ≠ 0 := by
    have hc : ContinuousAt (fun x => (negHess J x).det) (join (θ, s)) := by
      have h1 : ContinuousAt (fun x => negHess J x) (join (θ, s)) :=
        continuousAt_pi.mpr fun k => continuousAt_pi.mpr fun l => (g2_cont hJ hx (.inr k) (.inr l)).neg
      exact ContinuousAt.comp (f := fun x => negHess J x) (g := Matrix.det)
        (Continuous.matrix_det continuous_id).continuousAt h1
    exact (join_continuous.continuousAt.tendsto.comp hpt).eventually (hc.eventually_ne hr)
  have hall : ∀ᶠ θ' in 𝓝 θ, (D (join (θ', S θ')) ∧ (negHess J (join (θ', S θ'))).det ≠ 0 ∧
      (∀ k, J.g1 (join (θ', S θ')) (.inr k) = 0)) ∧
      ∀ᶠ u in 𝓝 (θ', S θ'), (∀ k, J.g1 (join u) (.inr k) = 0) → S u.1 = u.2 := by
    filter_upwards [hdom, hreg, hst, hpt.eventually (eventually_eventually_nhds.mpr hun)] with θ' a b c d
    exact ⟨⟨a, b, c⟩, d⟩
  obtain ⟨U, hU, hUo, hθU⟩ := eventually_nhds_iff.mp hall
  refine ⟨S, U, hθU, h0, hUo, fun θ' h => (hU θ' h).1.1, fun θ' h => (hU θ' h).1.2.2, fun θ' h => (hU θ' h).1.2.1,
    fun θ' h => ?_⟩
  obtain ⟨⟨a, b, c⟩, d⟩ := hU θ' h
  obtain ⟨S', h0', ht', hst', -⟩ := stationary_near hJ hD a c b
  have hpt' : Tendsto (fun θ' => (θ', S' θ')) (𝓝 θ') (𝓝 (θ', S θ')) := tendsto_id.prodMk_nhds ht'
  have he : ∀ᶠ x in 𝓝 θ', S' x = S x := by
    filter_upwards [hst', hpt'.eventually d] with x h1 h2
    exact (h2 h1).symm
  exact (Tendsto.congr' he ht' : Tendsto S (𝓝 θ') (𝓝 (S θ')))

/-- A family of regular stationary points that are the only ones in the domain is continuous. -/
theorem solved_of_unique (hJ : J.Ok D) (hD : IsOpen {x | D x}) {S : (ι → ℝ) → κ → ℝ} {U : Set (ι → ℝ)}
    (hU : IsOpen U) (dom : ∀ θ ∈ U, D (pt S θ)) (stat : ∀ θ ∈ U, ∀ k, J.g1 (pt S θ) (.inr k) = 0)
    (regular : ∀ θ ∈ U, (negHess J (pt S θ)).det ≠ 0)
    (uniq : ∀ θ ∈ U, ∀ s, D (join (θ, s)) → (∀ k, J.g1 (join (θ, s)) (.inr k) = 0) → s = S θ) :
    Solved J D S U := by
  refine ⟨hU, dom, stat, regular, fun θ hθ => ?_⟩
  obtain ⟨S', h0, ht, hst, -⟩ := stationary_near (s := S θ) hJ hD (dom θ hθ) (stat θ hθ) (regular θ hθ)
  have hpt : Tendsto (fun θ' => (θ', S' θ')) (𝓝 θ) (𝓝 (θ, S θ)) := tendsto_id.prodMk_nhds ht
  have hdom : ∀ᶠ θ' in 𝓝 θ, D (join (θ', S' θ')) :=
    (join_continuous.continuousAt.tendsto.comp hpt).eventually (hD.mem_nhds (dom θ hθ))
  have he : ∀ᶠ θ' in 𝓝 θ, S' θ' = S θ' := by
    filter_upwards [hst, hdom, hU.mem_nhds hθ] with θ' h1 h2 h3
    exact uniq θ' h3 _ h2 h1
  exact (Tendsto.congr' he ht : Tendsto S (𝓝 θ) (𝓝 (S θ)))

/-- Positive definiteness of the energy in the ordering variables (specification). -/
def PosHess (J : Jets ι κ) (x : ι ⊕ κ → ℝ) : Prop :=
  ∀ v : κ → ℝ, v ≠ 0 → 0 < ∑ k, ∑ l, J.g2 x (.inr k) (.inr l) * v k * v l

lemma PosHess.regular {x : ι ⊕ κ → ℝ} (h : PosHess J x) : (negHess J x).det ≠ 0 := by
  intro h0
  obtain ⟨v, hv, hz⟩ := Matrix.exists_mulVec_eq_zero_iff.mpr h0
  have h1 := h v hv
  have h2 : ∑ k, ∑ l, J.g2 x (.inr k) (.inr l) * v k * v l = -∑ k, v k * (negHess J x *ᵥ v) k := by
    rw [← Finset.sum_neg_distrib]
    refine Finset.sum_congr rfl fun k _ => ?_
    simp only [Matrix.mulVec, dotProduct, negHess, Matrix.of_apply, Finset.mul_sum, ← Finset.sum_neg_distrib]
    exact Finset.sum_congr rfl fun l _ => by ring
  rw [h2, hz] at h1
  simp at h1

/-- With a positive definite Hessian on a convex domain there is at most one stationary ordering state. -/
theorem stationary_unique (hJ : J.Ok D) {θ : ι → ℝ} (hc : Convex ℝ {s | D (join (θ, s))})
    (hp : ∀ s, D (join (θ, s)) → PosHess J (join (θ, s))) {s s' : κ → ℝ} (h : D (join (θ, s)))
    (h' : D (join (θ, s'))) (hs : ∀ k, J.g1 (join (θ, s)) (.inr k) = 0)
    (hs' : ∀ k, J.g1 (join (θ, s')) (.inr k) = 0) : s = s' := by
  by_contra hne
  set v : κ → ℝ := s' - s with hv
  have hv0 : v ≠ 0 := fun e => hne (sub_eq_zero.mp e).symm
  set L : ℝ → ι ⊕ κ → ℝ := fun τ => join (θ, s + τ • v) with hL
  have hLD : ∀ τ ∈ Set.Icc (0 : ℝ) 1, D (L τ) := fun τ hτ =>
    hc.add_smul_sub_mem (x := s) (y := s') h h' hτ
  have hLd : ∀ τ, HasDerivAt L (join ((0 : ι → ℝ), v)) τ := by
    intro τ
    refine hasDerivAt_pi.mpr fun b => ?_
    cases b with
    | inl i => exact hasDerivAt_const τ (θ i)
    | inr k =>
      change HasDerivAt (fun τ => s k + τ * v k) (v k) τ
      simpa using ((hasDerivAt_id' τ).mul_const (v k)).const_add (s k)
  have hφ : ∀ τ ∈ Set.Icc (0 : ℝ) 1, HasDerivAt (fun τ => ∑ k, J.g1 (L τ) (.inr k) * v k)
      (∑ k, ∑ l, J.g2 (L τ) (.inr k) (.inr l) * v k * v l) τ := by
    intro τ hτ
    have h1 : ∀ k, HasDerivAt (fun τ => J.g1 (L τ) (.inr k)) (∑ l, J.g2 (L τ) (.inr k) (.inr l) * v l) τ := by
      intro k
      refine (HasFDerivAt.comp_hasDerivAt τ (hJ.d2 _ (hLD τ hτ) (.inr k)) (hLd τ)).congr_deriv ?_
      rw [gr_apply, Fintype.sum_sum_type]
      simp [join]
    refine (HasDerivAt.fun_sum fun k _ => (h1 k).mul_const (v k)).congr_deriv ?_
    refine Finset.sum_congr rfl fun k _ => ?_
    rw [Finset.sum_mul]
    exact Finset.sum_congr rfl fun l _ => by ring
  have e0 : L 0 = join (θ, s) := by simp [hL]
  have e1 : L 1 = join (θ, s') := by simp [hL, hv]
  obtain ⟨τ, hτ, hz⟩ := exists_hasDerivAt_eq_zero (a := (0 : ℝ)) (b := 1) one_pos
    (fun τ hτ => (hφ τ hτ).continuousAt.continuousWithinAt)
    (by simp only [e0, e1, hs, hs'])
    (fun τ hτ => hφ τ (Set.Ioo_subset_Icc_self hτ))
  exact (hp _ (hLD τ (Set.Ioo_subset_Icc_self hτ)) v hv0).ne' hz

/-- A stationary point is a solution in the sense of `Solved` where the energy is convex in the ordering state. -/
theorem solved_of_posHess (hJ : J.Ok D) (hD : IsOpen {x | D x}) {S : (ι → ℝ) → κ → ℝ} {U : Set (ι → ℝ)}
    (hU : IsOpen U) (h : ∀ θ ∈ U, D (pt S θ) ∧ ∀ k, J.g1 (pt S θ) (.inr k) = 0)
    (hc : ∀ θ ∈ U, Convex ℝ {s | D (join (θ, s))})
    (hp : ∀ θ ∈ U, ∀ s, D (join (θ, s)) → PosHess J (join (θ, s))) : Solved J D S U :=
  solved_of_unique hJ hD hU (fun θ hθ => (h θ hθ).1) (fun θ hθ => (h θ hθ).2)
    (fun θ hθ => (hp θ hθ (S θ) (h θ hθ).1).regular)
    fun θ hθ _ hs hst => stationary_unique hJ (hc θ hθ) (hp θ hθ) hs (h θ hθ).1 hst (h θ hθ).2

/-- At a minimum of the energy in the ordering variables the equilibrium conditions hold. -/
theorem stationary_of_min (hJ : J.Ok D) {θ : ι → ℝ} {s : κ → ℝ} (hx : D (join (θ, s)))
    (hmin : IsLocalMin (fun s => J.g (join (θ, s))) s) (k : κ) : J.g1 (join (θ, s)) (.inr k) = 0 := by
  have h1 := (hJ.d1 _ hx).deriv (.inr k)
  have e : ∀ y, Function.update (join (θ, s)) (.inr k) y = join (θ, Function.update s k y) := fun y =>
    Sum.update_elim_inr
  simp only [e] at h1
  refine IsLocalMin.hasDerivAt_eq_zero ?_ h1
  have h2 : ContinuousAt (fun y : ℝ => Function.update s k y) (join (θ, s) (.inr k)) :=
    (deriv_update s k _).continuousAt
  have e2 : Function.update s k (join (θ, s) (.inr k)) = s := Function.update_eq_self k s
  have h3 : ∀ᶠ y in 𝓝 (join (θ, s) (.inr k)), J.g (join (θ, s)) ≤ J.g (join (θ, Function.update s k y)) := by
    refine h2.eventually (p := fun s' => J.g (join (θ, s)) ≤ J.g (join (θ, s'))) ?_
    beta_reduce; rw [e2]; exact hmin
  filter_upwards [h3] with y hy
  simpa only [e2] using hy

end

/-! ### Ideal mixing on sites -/

/-- Value of an affine function of the ordering state: a site fraction. -/
def frac (a : ℝ) (b s : κ → ℝ) : ℝ := a + ∑ k, b k * s k

lemma frac_continuous (a : ℝ) (b : κ → ℝ) : Continuous (frac a b) := by unfold frac; fun_prop

lemma frac_seg (a : ℝ) (b s s' : κ → ℝ) (τ : ℝ) :
    frac a b (s + τ • (s' - s)) = (1 - τ) * frac a b s + τ * frac a b s' := by
  simp only [frac, Pi.add_apply, Pi.smul_apply, Pi.sub_apply, smul_eq_mul]
  have : ∀ k, b k * (s k + τ * (s' k - s k)) = (1 - τ) * (b k * s k) + τ * (b k * s' k) := fun k => by ring
  simp only [this, Finset.sum_add_distrib, ← Finset.mul_sum]
  ring

/-- `x log x` along a segment. -/
lemma xlogx_seg {x y τ : ℝ} (hx : 0 ≤ x) (hy : 0 < y) (h0 : 0 < τ) (h1 : τ ≤ 1) :
    ((1 - τ) * x + τ * y) * Real.log ((1 - τ) * x + τ * y)
      ≤ x * Real.log x + τ * (y * Real.log y - x * Real.log x) + (if x = 0 then y * (τ * Real.log τ) else 0) := by
  by_cases h : x = 0
  · subst h
    simp only [mul_zero, zero_add, if_true, zero_mul, sub_zero]
    rw [Real.log_mul h0.ne' hy.ne']
    exact le_of_eq (by ring)
  · rw [if_neg h, add_zero]
    have := Real.convexOn_mul_log.2 hx hy.le (by linarith : (0 : ℝ) ≤ 1 - τ) h0.le (by ring)
    simp only [smul_eq_mul] at this
    linarith

/-- An energy with ideal mixing on sites takes its minimum over all ordering states with nonnegative site
fractions at a state where all of them are positive. -/
theorem exists_interior_min {n : ℕ} (a : Fin n → ℝ) (b : Fin n → κ → ℝ) (c : Fin n → ℝ) (hc : ∀ i, 0 < c i)
    {Q : (κ → ℝ) → ℝ} (hQ : Differentiable ℝ Q) {s0 : κ → ℝ} (hs0 : ∀ i, 0 < frac (a i) (b i) s0)
    (hb : Bornology.IsBounded {s : κ → ℝ | ∀ i, 0 ≤ frac (a i) (b i) s}) :
    ∃ s : κ → ℝ, (∀ i, 0 < frac (a i) (b i) s) ∧ ∀ s', (∀ i, 0 ≤ frac (a i) (b i) s') →
      Q s + ∑ i, c i * (frac (a i) (b i) s * Real.log (frac (a i) (b i) s))
        ≤ Q s' + ∑ i, c i * (frac (a i) (b i) s' * Real.log (frac (a i) (b i) s')) := by
  set K : Set (κ → ℝ) := {s | ∀ i, 0 ≤ frac (a i) (b i) s} with hK
  set F : (κ → ℝ) → ℝ := fun s => Q s + ∑ i, c i * (frac (a i) (b i) s * Real.log (frac (a i) (b i) s)) with hF
  have hKc : IsClosed K := by
    rw [hK, Set.ofPred_forall]
    exact isClosed_iInter fun i => isClosed_le continuous_const (frac_continuous _ _)
  have hFc : Continuous F := by
    refine hQ.continuous.add (continuous_finsetSum _ fun i _ => continuous_const.mul ?_)
    exact Real.continuous_mul_log.comp (frac_continuous _ _)
  obtain ⟨s, hsK, hmin⟩ := (Metric.isCompact_of_isClosed_isBounded hKc hb).exists_isMinOn
    ⟨s0, fun i => (hs0 i).le⟩ hFc.continuousOn
  refine ⟨s, fun j => ?_, fun s' h => hmin h⟩
  by_contra hj
  have hj0 : frac (a j) (b j) s = 0 := le_antisymm (not_lt.mp hj) (hsK j)
  -- the slope of `Q` towards the interior point
  obtain ⟨C, hC⟩ : ∃ C : ℝ, ∀ᶠ τ in 𝓝[>] (0 : ℝ), Q (s + τ • (s0 - s)) ≤ Q s + C * τ := by
    have hd : HasDerivAt (fun τ : ℝ => Q (s + τ • (s0 - s))) (fderiv ℝ Q s (s0 - s)) 0 := by
      have h1 : HasDerivAt (fun τ : ℝ => s + τ • (s0 - s)) (s0 - s) 0 := by
        simpa using ((hasDerivAt_id' (0 : ℝ)).smul_const (s0 - s)).const_add s
      have h2 : HasFDerivAt Q (fderiv ℝ Q s) (s + (0 : ℝ) • (s0 - s)) := by
        simpa using (hQ s).hasFDerivAt
      exact h2.comp_hasDerivAt (0 : ℝ) h1
    refine ⟨fderiv ℝ Q s (s0 - s) + 1, ?_⟩
    have h3 := hd.tendsto_slope_zero_right
    simp only [zero_add, zero_smul, add_zero, smul_eq_mul] at h3
    filter_upwards [h3.eventually_lt_const (lt_add_one _), self_mem_nhdsWithin] with τ h4 h5
    have h5' : (0 : ℝ) < τ := h5
    have h6 : τ * (τ⁻¹ * (Q (s + τ • (s0 - s)) - Q s)) ≤ τ * (fderiv ℝ Q s (s0 - s) + 1) :=
      mul_le_mul_of_nonneg_left h4.le h5'.le
    rw [← mul_assoc, mul_inv_cancel₀ h5'.ne', one_mul] at h6
    linarith
  -- the total slope of the convex part
  set e : Fin n → ℝ → ℝ := fun i s => s * Real.log s with he
  set M : ℝ := C + ∑ i, c i * (frac (a i) (b i) s0 * Real.log (frac (a i) (b i) s0)
    - frac (a i) (b i) s * Real.log (frac (a i) (b i) s)) with hM
  set w : ℝ := c j * frac (a j) (b j) s0 with hw
  have hw0 : 0 < w := mul_pos (hc j) (hs0 j)
  have hbound : ∀ᶠ τ in 𝓝[>] (0 : ℝ), F (s + τ • (s0 - s)) ≤ F s + τ * (M + w * Real.log τ) := by
    have hlt : ∀ᶠ τ in 𝓝[>] (0 : ℝ), τ < 1 := (eventually_lt_nhds (by norm_num)).filter_mono nhdsWithin_le_nhds
    filter_upwards [hC, self_mem_nhdsWithin, hlt] with τ h1 h2 h3
    have h2' : (0 : ℝ) < τ := h2
    have h4 : ∀ i, c i * (frac (a i) (b i) (s + τ • (s0 - s)) * Real.log (frac (a i) (b i) (s + τ • (s0 - s))))
        ≤ c i * (frac (a i) (b i) s * Real.log (frac (a i) (b i) s))
          + τ * (c i * (frac (a i) (b i) s0 * Real.log (frac (a i) (b i) s0)
            - frac (a i) (b i) s * Real.log (frac (a i) (b i) s)))
          + (if i = j then w * (τ * Real.log τ) else 0) := by
      intro i
      rw [frac_seg]
      have h5 := mul_le_mul_of_nonneg_left (xlogx_seg (hsK i) (hs0 i) h2' h3.le) (hc i).le
      refine h5.trans ?_
      have hlog : τ * Real.log τ ≤ 0 := mul_nonpos_of_nonneg_of_nonpos h2'.le (Real.log_nonpos h2'.le h3.le)
      have h6 : c i * (if frac (a i) (b i) s = 0 then frac (a i) (b i) s0 * (τ * Real.log τ) else 0)
          ≤ if i = j then w * (τ * Real.log τ) else 0 := by
        by_cases hij : i = j
        · subst hij
          rw [if_pos hj0, if_pos rfl, hw]
          exact le_of_eq (by ring)
        · rw [if_neg hij]
          split_ifs
          · exact mul_nonpos_of_nonneg_of_nonpos (hc i).le (mul_nonpos_of_nonneg_of_nonpos (hs0 i).le hlog)
          · simp
      nlinarith
    have h7 := Finset.sum_le_sum fun i (_ : i ∈ Finset.univ) => h4 i
    simp only [Finset.sum_add_distrib, Finset.sum_ite_eq', Finset.mem_univ, if_true, ← Finset.mul_sum] at h7
    simp only [hF, hM]
    nlinarith
  have hneg : ∀ᶠ τ in 𝓝[>] (0 : ℝ), M + w * Real.log τ < 0 := by
    have := Real.tendsto_log_nhdsGT_zero.const_mul_atBot hw0
    filter_upwards [this.eventually_lt_atBot (-M)] with τ h
    linarith
  have hlt : ∀ᶠ τ in 𝓝[>] (0 : ℝ), τ < 1 := (eventually_lt_nhds (by norm_num)).filter_mono nhdsWithin_le_nhds
  obtain ⟨τ, ⟨⟨h1, h2⟩, h3⟩, h4⟩ := (((hbound.and hneg).and self_mem_nhdsWithin).and hlt).exists
  have h3' : (0 : ℝ) < τ := h3
  have hmem : s + τ • (s0 - s) ∈ K := by
    intro i
    rw [frac_seg]
    have := hsK i
    have := (hs0 i).le
    have : 0 ≤ 1 - τ := by linarith
    positivity
  have h5 : F s ≤ F (s + τ • (s0 - s)) := hmin hmem
  have h6 : τ * (M + w * Real.log τ) < 0 := mul_neg_of_pos_of_neg h3' h2
  linarith

end

end Verif.Thermo.Ordering
