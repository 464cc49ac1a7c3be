import Verif.Thermo.Water.HaarOk
import Mathlib.Analysis.Calculus.Implicit
import Mathlib.Topology.Algebra.Module.FiniteDimension

/-!
# The properties of water that `whaar` returns agree with each other
-/

open Filter Topology Real

namespace Verif.Thermo.Water

open StdState (Std Consistent)

variable {z : ℝ × ℝ}

lemma D.neg {f : ℝ × ℝ → ℝ} {a b : ℝ} (h : D f a b z) : D (fun z => -f z) (-a) (-b) z :=
  (((D.const (-1)).mul h).to (by ring) (by ring)).congr (Eventually.of_forall fun w => by simp)

lemma D.sub {f g : ℝ × ℝ → ℝ} {a b a' b' : ℝ} (h : D f a b z) (h' : D g a' b' z) :
    D (fun z => f z - g z) (a - a') (b - b') z :=
  ((h.add h'.neg).to (by ring) (by ring)).congr (Eventually.of_forall fun w => by simp [sub_eq_add_neg])

lemma D.div {f g : ℝ × ℝ → ℝ} {a b a' b' : ℝ} (h : D f a b z) (h' : D g a' b' z) (h0 : g z ≠ 0) :
    D (fun z => f z / g z) ((a * g z - f z * a') / g z ^ 2) ((b * g z - f z * b') / g z ^ 2) z := by
  have hi := D.comp (φ := fun x => x⁻¹) (hasDerivAt_inv h0) h'
  refine ((h.mul hi).to ?_ ?_).congr (Eventually.of_forall fun w => by simp [div_eq_mul_inv])
  · field_simp; ring
  · field_simp; ring

/-- The linear map `(s, u) ↦ (s, a s + b u)` is invertible when `b` is not zero. -/
noncomputable def shear (a b : ℝ) (hb : b ≠ 0) : (ℝ × ℝ) ≃L[ℝ] (ℝ × ℝ) :=
  ContinuousLinearEquiv.equivOfInverse
    ((ContinuousLinearMap.fst ℝ ℝ ℝ).prod
      (a • ContinuousLinearMap.fst ℝ ℝ ℝ + b • ContinuousLinearMap.snd ℝ ℝ ℝ))
    ((ContinuousLinearMap.fst ℝ ℝ ℝ).prod
      ((-a / b) • ContinuousLinearMap.fst ℝ ℝ ℝ + (1 / b) • ContinuousLinearMap.snd ℝ ℝ ℝ))
    (fun x => by ext <;> simp; field_simp; ring) (fun x => by ext <;> simp; field_simp; ring)

/-- A continuous solution of `P (t, ρ (t, p)) = p` is differentiable, with the derivatives the implicit
function theorem gives. -/
lemma implicit {P : ℝ × ℝ → ℝ} {ρ : ℝ × ℝ → ℝ} {a b : ℝ} {z : ℝ × ℝ} (hP : D P a b (z.1, ρ z)) (hb : b ≠ 0)
    (hc : ContinuousAt ρ z) (hs : ∀ᶠ w in 𝓝 z, P (w.1, ρ w) = w.2) : D ρ (-a / b) (1 / b) z := by
  have hf : HasFDerivAt (fun w : ℝ × ℝ => (w.1, P w)) (shear a b hb : ℝ × ℝ →L[ℝ] ℝ × ℝ)
      ((fun w => (w.1, ρ w)) z) := by
    have := (hasFDerivAt_fst (𝕜 := ℝ) (p := (z.1, ρ z))).prodMk (show HasFDerivAt P _ _ from hP)
    exact this
  have hg : ContinuousAt (fun w : ℝ × ℝ => (w.1, ρ w)) z := continuousAt_fst.prodMk hc
  have := HasFDerivAt.of_local_left_inverse hg hf (hs.mono fun w hw => by simp [hw])
  have h2 := (hasFDerivAt_snd (𝕜 := ℝ)).comp z this
  exact h2

/-- The records the properties are computed from agree with each other along a density that solves the
pressure equation: the two energies, the volume and all derivatives. -/
lemma perGram_consistent {A : ℝ × ℝ → J} {ρ : ℝ × ℝ → ℝ} {t p : ℝ} (hA : Ok A (t, ρ (t, p)))
    (hr : 0 < ρ (t, p)) (ht : 0 < t) (hst : dpdrh (A (t, ρ (t, p))) (ρ (t, p)) ≠ 0)
    (hc : ContinuousAt ρ (t, p))
    (hs : ∀ᶠ w in 𝓝 (t, p), ρ w * ρ w * (A (w.1, ρ w)).r = w.2) :
    Consistent (fun t p => perGram t (ρ (t, p)) (A (t, ρ (t, p)))) t p := by
  have hP : D (fun z => z.2 * z.2 * (A z).r) (dpdt (A (t, ρ (t, p))) (ρ (t, p)))
      (dpdrh (A (t, ρ (t, p))) (ρ (t, p))) (t, ρ (t, p)) :=
    ((D.snd.mul D.snd).mul hA.r).to (by simp only [dpdt]; ring) (by simp only [dpdrh]; ring)
  have hρ := implicit (z := (t, p)) hP hst hc hs
  have ev : ∀ᶠ w in 𝓝 (t, p), ρ w ≠ 0 := hc.eventually_ne hr.ne'
  have q0 := hA.v.comp₂ (z := (t, p)) (x := Prod.fst) (y := ρ) D.fst hρ
  have q1 := hA.t.comp₂ (z := (t, p)) (x := Prod.fst) (y := ρ) D.fst hρ
  have q2 := hA.r.comp₂ (z := (t, p)) (x := Prod.fst) (y := ρ) D.fst hρ
  have q3 := hA.tt.comp₂ (z := (t, p)) (x := Prod.fst) (y := ρ) D.fst hρ
  have q4 := hA.tr.comp₂ (z := (t, p)) (x := Prod.fst) (y := ρ) D.fst hρ
  have q5 := hA.rr.comp₂ (z := (t, p)) (x := Prod.fst) (y := ρ) D.fst hρ
  have hr' := hr.ne'
  have ht' := ht.ne'
  have dF : D (fun z : ℝ × ℝ => z.1) 1 0 (t, p) := D.fst
  -- the pressure derivatives along the density
  have dPr : D (fun w => dpdrh (A (w.1, ρ w)) (ρ w)) _ _ (t, p) :=
    (((D.const 2).mul hρ).mul q2).add ((hρ.mul hρ).mul q5)
  have dPt : D (fun w => dpdt (A (w.1, ρ w)) (ρ w)) _ _ (t, p) := (hρ.mul hρ).mul q4
  have dRt : D (fun w => drhdt (A (w.1, ρ w)) (ρ w)) _ _ (t, p) := dPt.neg.div dPr hst
  have dR2 : D (fun w => 1 / ρ w ^ 2) _ _ (t, p) :=
    ((D.const 1).div (hρ.mul hρ) (mul_ne_zero hr' hr')).congr (Eventually.of_forall fun w => by ring)
  -- the properties
  have dG : D (fun w => (perGram w.1 (ρ w) (A (w.1, ρ w))).g) _ _ (t, p) :=
    (q0.add (hρ.mul q2)).congr (ev.mono fun w hw => by simp only [perGram]; field_simp)
  have dS : D (fun w => (perGram w.1 (ρ w) (A (w.1, ρ w))).s) _ _ (t, p) := q1.neg
  have dH : D (fun w => (perGram w.1 (ρ w) (A (w.1, ρ w))).h) _ _ (t, p) := dG.sub (dF.mul q1)
  have dV : D (fun w => (perGram w.1 (ρ w) (A (w.1, ρ w))).v) _ _ (t, p) := (D.const 1).div hρ hr'
  have dVt : D (fun w => (perGram w.1 (ρ w) (A (w.1, ρ w))).dvdt) _ _ (t, p) := dR2.neg.mul dRt
  have dVp : D (fun w => (perGram w.1 (ρ w) (A (w.1, ρ w))).dvdp) _ _ (t, p) := dR2.neg.div dPr hst
  have dC : D (fun w => (perGram w.1 (ρ w) (A (w.1, ρ w))).cp) _ _ (t, p) :=
    ((dF.neg.mul q3).add (((dF.div (hρ.mul hρ) (mul_ne_zero hr' hr')).mul (dPt.mul dPt)).div dPr hst)).congr
      (Eventually.of_forall fun w => by simp only [perGram]; ring)
  have key : (A (t, ρ (t, p))).rr = (dpdrh (A (t, ρ (t, p))) (ρ (t, p)) - 2 * ρ (t, p) *
      (A (t, ρ (t, p))).r) / ρ (t, p) ^ 2 := by
    simp only [dpdrh]; field_simp; ring
  constructor
  · simp only [perGram]; ring
  · refine dG.left.congr_deriv ?_
    clear hs hc ev hA hP hρ q0 q1 q2 q3 q4 q5 dF dPr dPt dRt dR2 dG dS dH dV dVt dVp dC
    simp only [perGram, drhdt, d2pdt2, d2pdtdrh, d2pdrh2, dpdt, key]
    generalize dpdrh (A (t, ρ (t, p))) (ρ (t, p)) = d at hst
    generalize A (t, ρ (t, p)) = B
    generalize ρ (t, p) = rh at hr hr'
    field_simp
    try ring
  · refine dG.right.congr_deriv ?_
    clear hs hc ev hA hP hρ q0 q1 q2 q3 q4 q5 dF dPr dPt dRt dR2 dG dS dH dV dVt dVp dC
    simp only [perGram, drhdt, d2pdt2, d2pdtdrh, d2pdrh2, dpdt, key]
    generalize dpdrh (A (t, ρ (t, p))) (ρ (t, p)) = d at hst
    generalize A (t, ρ (t, p)) = B
    generalize ρ (t, p) = rh at hr hr'
    field_simp
    try ring
  · refine dH.left.congr_deriv ?_
    clear hs hc ev hA hP hρ q0 q1 q2 q3 q4 q5 dF dPr dPt dRt dR2 dG dS dH dV dVt dVp dC
    simp only [perGram, drhdt, d2pdt2, d2pdtdrh, d2pdrh2, dpdt, key]
    generalize dpdrh (A (t, ρ (t, p))) (ρ (t, p)) = d at hst
    generalize A (t, ρ (t, p)) = B
    generalize ρ (t, p) = rh at hr hr'
    field_simp
    try ring
  · refine dS.left.congr_deriv ?_
    clear hs hc ev hA hP hρ q0 q1 q2 q3 q4 q5 dF dPr dPt dRt dR2 dG dS dH dV dVt dVp dC
    simp only [perGram, drhdt, d2pdt2, d2pdtdrh, d2pdrh2, dpdt, key]
    generalize dpdrh (A (t, ρ (t, p))) (ρ (t, p)) = d at hst
    generalize A (t, ρ (t, p)) = B
    generalize ρ (t, p) = rh at hr hr'
    field_simp
    try ring
  · refine dS.right.congr_deriv ?_
    clear hs hc ev hA hP hρ q0 q1 q2 q3 q4 q5 dF dPr dPt dRt dR2 dG dS dH dV dVt dVp dC
    simp only [perGram, drhdt, d2pdt2, d2pdtdrh, d2pdrh2, dpdt, key]
    generalize dpdrh (A (t, ρ (t, p))) (ρ (t, p)) = d at hst
    generalize A (t, ρ (t, p)) = B
    generalize ρ (t, p) = rh at hr hr'
    field_simp
    try ring
  · refine dC.left.congr_deriv ?_
    clear hs hc ev hA hP hρ q0 q1 q2 q3 q4 q5 dF dPr dPt dRt dR2 dG dS dH dV dVt dVp dC
    simp only [perGram, drhdt, d2pdt2, d2pdtdrh, d2pdrh2, dpdt, key]
    generalize dpdrh (A (t, ρ (t, p))) (ρ (t, p)) = d at hst
    generalize A (t, ρ (t, p)) = B
    generalize ρ (t, p) = rh at hr hr'
    field_simp
    try ring
  · refine dV.left.congr_deriv ?_
    clear hs hc ev hA hP hρ q0 q1 q2 q3 q4 q5 dF dPr dPt dRt dR2 dG dS dH dV dVt dVp dC
    simp only [perGram, drhdt, d2pdt2, d2pdtdrh, d2pdrh2, dpdt, key]
    generalize dpdrh (A (t, ρ (t, p))) (ρ (t, p)) = d at hst
    generalize A (t, ρ (t, p)) = B
    generalize ρ (t, p) = rh at hr hr'
    field_simp
    try ring
  · refine dV.right.congr_deriv ?_
    clear hs hc ev hA hP hρ q0 q1 q2 q3 q4 q5 dF dPr dPt dRt dR2 dG dS dH dV dVt dVp dC
    simp only [perGram, drhdt, d2pdt2, d2pdtdrh, d2pdrh2, dpdt, key]
    generalize dpdrh (A (t, ρ (t, p))) (ρ (t, p)) = d at hst
    generalize A (t, ρ (t, p)) = B
    generalize ρ (t, p) = rh at hr hr'
    field_simp
    try ring
  · refine dVt.left.congr_deriv ?_
    clear hs hc ev hA hP hρ q0 q1 q2 q3 q4 q5 dF dPr dPt dRt dR2 dG dS dH dV dVt dVp dC
    simp only [perGram, drhdt, d2pdt2, d2pdtdrh, d2pdrh2, dpdt, key]
    generalize dpdrh (A (t, ρ (t, p))) (ρ (t, p)) = d at hst
    generalize A (t, ρ (t, p)) = B
    generalize ρ (t, p) = rh at hr hr'
    field_simp
    try ring
  · refine dVp.right.congr_deriv ?_
    clear hs hc ev hA hP hρ q0 q1 q2 q3 q4 q5 dF dPr dPt dRt dR2 dG dS dH dV dVt dVp dC
    simp only [perGram, drhdt, d2pdt2, d2pdtdrh, d2pdrh2, dpdt, key]
    generalize dpdrh (A (t, ρ (t, p))) (ρ (t, p)) = d at hst
    generalize A (t, ρ (t, p)) = B
    generalize ρ (t, p) = rh at hr hr'
    field_simp
    try ring
  · refine dVt.right.congr_deriv ?_
    clear hs hc ev hA hP hρ q0 q1 q2 q3 q4 q5 dF dPr dPt dRt dR2 dG dS dH dV dVt dVp dC
    simp only [perGram, drhdt, d2pdt2, d2pdtdrh, d2pdrh2, dpdt, key]
    generalize dpdrh (A (t, ρ (t, p))) (ρ (t, p)) = d at hst
    generalize A (t, ρ (t, p)) = B
    generalize ρ (t, p) = rh at hr hr'
    field_simp
    try ring
  · refine dVp.left.congr_deriv ?_
    clear hs hc ev hA hP hρ q0 q1 q2 q3 q4 q5 dF dPr dPt dRt dR2 dG dS dH dV dVt dVp dC
    simp only [perGram, drhdt, d2pdt2, d2pdtdrh, d2pdrh2, dpdt, key]
    generalize dpdrh (A (t, ρ (t, p))) (ρ (t, p)) = d at hst
    generalize A (t, ρ (t, p)) = B
    generalize ρ (t, p) = rh at hr hr'
    field_simp
    try ring

end Verif.Thermo.Water
