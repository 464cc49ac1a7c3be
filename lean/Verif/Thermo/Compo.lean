import Verif.Thermo.Extensive
import Mathlib.Analysis.Calculus.Deriv.Inv
import Mathlib.Analysis.Calculus.Deriv.Pow
import Mathlib.Data.Real.Sqrt
import Mathlib.Algebra.BigOperators.Field
import Mathlib.Algebra.BigOperators.Fin
import Mathlib.Data.Fin.VecNotation

/-!
Model of the composition conversions `con*` of the solution phases whose independent variables are the mole
fractions of all end members but one (branches `inpMask == SECOND` and `inpMask == THIRD`):

* dependent end member last: leucite.c 286-388, feldspar.c 384-482, garnet.c 397-495, biotite.c 251-349,
  olivine-sx.c 220-318 (and perovskite.c, ringwoodite.c, wadsleyite.c, ilmenite.c, wustite.c, same text);
* dependent end member first: liquid.c 8056-8130 and liquid_v34.c 218-290 (no third derivatives),
  hornblende.c 275-374, melilite.c 1911-2010, alloy-solid.c 242-340, biotiteTaj.c 1020-1118.

`dep` is the index of the dependent end member; `dep.succAbove i` is the end member whose mole fraction is the
`i`-th independent variable (`i` when `dep` is last, `i+1` when `dep` is `0`).

Simplification: `double` is the real numbers; the output masks are separate functions, since each branch
reads `m[]` (or `r[]`) only.
-/

namespace Magma.Thermo.Compo

open Finset Magma.Thermo.Extensive

noncomputable section

variable {na nr : ℕ}

/-- leucite.c 293, liquid.c 8063. -/
def total (m : Fin na → ℝ) : ℝ := ∑ i, m i

/-- leucite.c 295-297 (`m[i]/sum`), liquid.c 8068 (`m[i+1]/sum`). -/
def toR (dep : Fin (nr + 1)) (m : Fin (nr + 1) → ℝ) (i : Fin nr) : ℝ :=
  if total m ≠ 0 then m (dep.succAbove i) / total m else 0

/-- leucite.c 302, liquid.c 8075. -/
def toX (m : Fin na → ℝ) (i : Fin na) : ℝ := if total m ≠ 0 then m i / total m else 0

/-- leucite.c 305-314, liquid.c 8080-8088. -/
def dm (dep : Fin (nr + 1)) (m : Fin (nr + 1) → ℝ) (i : Fin nr) (j : Fin (nr + 1)) : ℝ :=
  if total m = 0 then 0
  else if dep.succAbove i = j then (1 - m (dep.succAbove i) / total m) / total m
  else - m (dep.succAbove i) / total m ^ 2

/-- leucite.c 318-337, liquid.c 8093-8110. -/
def d2m (dep : Fin (nr + 1)) (m : Fin (nr + 1) → ℝ) (i : Fin nr) (j k : Fin (nr + 1)) : ℝ :=
  if total m = 0 then 0
  else 2 * m (dep.succAbove i) / total m ^ 3
    - (if dep.succAbove i = j then 1 / total m ^ 2 else 0)
    - (if dep.succAbove i = k then 1 / total m ^ 2 else 0)

/-- leucite.c 341-366. -/
def d3m (dep : Fin (nr + 1)) (m : Fin (nr + 1) → ℝ) (i : Fin nr) (j k l : Fin (nr + 1)) : ℝ :=
  if total m = 0 then 0
  else -6 * m (dep.succAbove i) / total m ^ 4
    + (if dep.succAbove i = j then 2 / total m ^ 3 else 0)
    + (if dep.succAbove i = k then 2 / total m ^ 3 else 0)
    + (if dep.succAbove i = l then 2 / total m ^ 3 else 0)

/-- leucite.c 376-381, liquid.c 8118-8122: `x[dep] = 1 - Σ r`. -/
def fromR (dep : Fin (nr + 1)) (r : Fin nr → ℝ) : Fin (nr + 1) → ℝ :=
  dep.insertNth (α := fun _ => ℝ) (1 - ∑ i, r i) r

/-- feldspar.c 477-478: as `fromR` with the dependent end member last, and a tiny value replaced by 0. -/
def fromRFld (ε : ℝ) (r : Fin 2 → ℝ) (i : Fin 3) : ℝ :=
  if i = 2 ∧ |fromR 2 r 2| < √ε then 0 else fromR 2 r i

/-- leucite.c 383-387: the Jacobian of `fromR`. -/
def dr (dep : Fin (nr + 1)) (i : Fin (nr + 1)) (j : Fin nr) : ℝ :=
  dep.insertNth (α := fun _ => ℝ) (-1) (fun i' => if i' = j then 1 else 0) i

/-! ### The general form: a linear form divided by the total -/

/-- `Σⱼ aⱼ mⱼ`. -/
def lin (a m : Fin na → ℝ) : ℝ := ∑ j, a j * m j

theorem lin_bump (a m : Fin na → ℝ) (j : Fin na) (h : ℝ) : lin a (bump m j h) = lin a m + a j * h := by
  simp [lin, bump, mul_add, sum_add_distrib]

theorem total_bump (m : Fin na → ℝ) (j : Fin na) (h : ℝ) : total (bump m j h) = total m + h := by
  simp [total, bump, sum_add_distrib]

theorem deriv_lin (a m : Fin na → ℝ) (j : Fin na) :
    HasDerivAt (fun h => lin a (bump m j h)) (a j) 0 := by
  simp only [lin_bump]
  simpa using ((hasDerivAt_id' (0 : ℝ)).const_mul (a j)).const_add (lin a m)

theorem deriv_total (m : Fin na → ℝ) (j : Fin na) :
    HasDerivAt (fun h => total (bump m j h)) 1 0 := by
  simp only [total_bump]
  simpa using (hasDerivAt_id' (0 : ℝ)).const_add (total m)

/-- Value, first, second and third derivative of `(Σ aⱼ mⱼ)/Σ mⱼ`. -/
def q0 (a m : Fin na → ℝ) : ℝ := lin a m / total m
def q1 (a m : Fin na → ℝ) (j : Fin na) : ℝ := a j / total m - lin a m / total m ^ 2
def q2 (a m : Fin na → ℝ) (j k : Fin na) : ℝ :=
  2 * lin a m / total m ^ 3 - a j / total m ^ 2 - a k / total m ^ 2
def q3 (a m : Fin na → ℝ) (j k l : Fin na) : ℝ :=
  -6 * lin a m / total m ^ 4 + 2 * a j / total m ^ 3 + 2 * a k / total m ^ 3 + 2 * a l / total m ^ 3

theorem q0_partial (a m : Fin na → ℝ) (h0 : total m ≠ 0) (j : Fin na) : Partial (q0 a) m j (q1 a m j) := by
  have h1 := (deriv_lin a m j).fun_div (deriv_total m j) (by rw [bump_zero]; exact h0)
  refine h1.congr_deriv ?_
  simp only [bump_zero, q1]
  field_simp

theorem q1_partial (a m : Fin na → ℝ) (h0 : total m ≠ 0) (j k : Fin na) :
    Partial (fun m => q1 a m j) m k (q2 a m j k) := by
  have h0' : total (bump m k 0) ≠ 0 := by rw [bump_zero]; exact h0
  have h1 := ((hasDerivAt_const (0 : ℝ) (a j)).fun_div (deriv_total m k) h0').fun_sub
    ((deriv_lin a m k).fun_div ((deriv_total m k).fun_pow 2) (pow_ne_zero 2 h0'))
  refine h1.congr_deriv ?_
  simp only [bump_zero, q2]
  field_simp
  ring

theorem q2_partial (a m : Fin na → ℝ) (h0 : total m ≠ 0) (j k l : Fin na) :
    Partial (fun m => q2 a m j k) m l (q3 a m j k l) := by
  have h0' : total (bump m l 0) ≠ 0 := by rw [bump_zero]; exact h0
  have ht := deriv_total m l
  have h1 := ((((deriv_lin a m l).const_mul 2).fun_div (ht.fun_pow 3) (pow_ne_zero 3 h0')).fun_sub
    ((hasDerivAt_const (0 : ℝ) (a j)).fun_div (ht.fun_pow 2) (pow_ne_zero 2 h0'))).fun_sub
    ((hasDerivAt_const (0 : ℝ) (a k)).fun_div (ht.fun_pow 2) (pow_ne_zero 2 h0'))
  refine h1.congr_deriv ?_
  simp only [bump_zero, q3]
  field_simp
  ring

theorem q1_homogeneous (a m : Fin na → ℝ) (h0 : total m ≠ 0) : ∑ j, m j * q1 a m j = 0 := by
  have e : ∀ j, m j * q1 a m j = a j * m j / total m - m j * (lin a m / total m ^ 2) := by
    intro j; unfold q1; ring
  simp only [e, sum_sub_distrib]
  rw [← Finset.sum_div, ← sum_mul]
  change lin a m / total m - total m * _ = 0
  field_simp
  ring

/-- A partial derivative only depends on the function where the total is not zero. -/
theorem partial_congr {f g : (Fin na → ℝ) → ℝ} {m : Fin na → ℝ} {j : Fin na} {d : ℝ} (h0 : total m ≠ 0)
    (hfg : ∀ m, total m ≠ 0 → f m = g m) (h : Partial g m j d) : Partial f m j d := by
  refine HasDerivAt.congr_of_eventuallyEq h ?_
  have hc : ContinuousAt (fun h => total (bump m j h)) 0 := (deriv_total m j).continuousAt
  have := hc.eventually_ne (by rw [bump_zero]; exact h0)
  filter_upwards [this] with x hx
  exact hfg _ hx

/-! ### The simple family -/

/-- Coefficients of the `i`-th independent variable. -/
def coef (dep : Fin (nr + 1)) (i : Fin nr) (j : Fin (nr + 1)) : ℝ := if dep.succAbove i = j then 1 else 0

theorem lin_coef (dep : Fin (nr + 1)) (i : Fin nr) (m : Fin (nr + 1) → ℝ) :
    lin (coef dep i) m = m (dep.succAbove i) := by simp [lin, coef]

theorem toR_eq (dep : Fin (nr + 1)) (m : Fin (nr + 1) → ℝ) (h0 : total m ≠ 0) (i : Fin nr) :
    toR dep m i = q0 (coef dep i) m := by simp [toR, q0, lin_coef, h0]

theorem dm_eq (dep : Fin (nr + 1)) (m : Fin (nr + 1) → ℝ) (h0 : total m ≠ 0) (i : Fin nr) (j) :
    dm dep m i j = q1 (coef dep i) m j := by
  simp only [dm, q1, lin_coef, h0, if_false, coef]
  split_ifs <;> field_simp
  ring

theorem d2m_eq (dep : Fin (nr + 1)) (m : Fin (nr + 1) → ℝ) (h0 : total m ≠ 0) (i : Fin nr) (j k) :
    d2m dep m i j k = q2 (coef dep i) m j k := by
  simp only [d2m, q2, lin_coef, h0, if_false, coef, ite_div, zero_div]

theorem d3m_eq (dep : Fin (nr + 1)) (m : Fin (nr + 1) → ℝ) (h0 : total m ≠ 0) (i : Fin nr) (j k l) :
    d3m dep m i j k l = q3 (coef dep i) m j k l := by
  simp only [d3m, q3, lin_coef, h0, if_false, coef, mul_ite, mul_one, mul_zero, ite_div, zero_div]

/-! ### Theorems -/

/-- **C25.** Moles to independent variables to mole fractions is moles to mole fractions. -/
theorem C25_roundtrip (dep : Fin (nr + 1)) (m : Fin (nr + 1) → ℝ) (h0 : ∑ i, m i ≠ 0) :
    fromR dep (toR dep m) = toX m ∧ ∀ i, toX m i = m i / ∑ i, m i := by
  have h0' : total m ≠ 0 := h0
  refine ⟨?_, fun i => by simp [toX, h0']; rfl⟩
  funext i
  unfold fromR
  refine dep.succAboveCases ?_ (fun k => ?_) i
  · rw [Fin.insertNth_apply_same]
    simp only [toR, toX, h0', ne_eq, not_false_eq_true, if_true]
    rw [← Finset.sum_div]
    have := Fin.sum_univ_succAbove m dep
    have h2 : ∑ i, m (dep.succAbove i) = total m - m dep := by rw [total, this]; ring
    rw [h2]; field_simp; ring
  · rw [Fin.insertNth_apply_succAbove]
    simp [toR, toX]

/-- **C25.** Mole fractions sum to one, both from moles and from any independent variables. -/
theorem C25_sum_one (dep : Fin (nr + 1)) (m : Fin (nr + 1) → ℝ) (h0 : ∑ i, m i ≠ 0) (r : Fin nr → ℝ) :
    ∑ i, toX m i = 1 ∧ ∑ i, fromR dep r i = 1 := by
  have h0' : total m ≠ 0 := h0
  constructor
  · simp only [toX, h0', ne_eq, not_false_eq_true, if_true]
    rw [← Finset.sum_div]; exact div_self h0
  · rw [Fin.sum_univ_succAbove _ dep]
    simp [fromR]

/-- **C25.** Taking mole fractions as moles gives back the independent variables they came from. -/
theorem C25_inverse (dep : Fin (nr + 1)) (r : Fin nr → ℝ) : toR dep (fromR dep r) = r := by
  have h1 : total (fromR dep r) = 1 := (C25_sum_one dep (fun _ => 1) (by simp; positivity) r).2
  funext i
  simp only [toR, h1]
  simp [fromR]

/-- **C25.** Scaling all moles changes neither the independent variables nor the mole fractions. -/
theorem C25_scale (dep : Fin (nr + 1)) (m : Fin (nr + 1) → ℝ) (c : ℝ) (hc : c ≠ 0) :
    toR dep (fun i => c * m i) = toR dep m ∧ toX (fun i => c * m i) = toX m := by
  have ht : total (fun i => c * m i) = c * total m := by simp [total, mul_sum]
  by_cases h0 : total m = 0
  · constructor <;> (funext i; simp [toR, toX, ht, h0])
  · constructor <;> (funext i; simp only [toR, toX, ht]; simp [h0, hc]; field_simp)

/-- **C25.** The Jacobian, second and third derivatives returned are the derivatives of the independent
variables in the moles. -/
theorem C25_derivatives (dep : Fin (nr + 1)) (m : Fin (nr + 1) → ℝ) (h0 : ∑ i, m i ≠ 0) (i : Fin nr)
    (j k l : Fin (nr + 1)) :
    Partial (fun m => toR dep m i) m j (dm dep m i j) ∧
    Partial (fun m => dm dep m i j) m k (d2m dep m i j k) ∧
    Partial (fun m => d2m dep m i j k) m l (d3m dep m i j k l) := by
  refine ⟨?_, ?_, ?_⟩
  · rw [dm_eq dep m h0]
    exact partial_congr h0 (fun m h => toR_eq dep m h i) (q0_partial _ m h0 j)
  · rw [d2m_eq dep m h0]
    exact partial_congr h0 (fun m h => dm_eq dep m h i j) (q1_partial _ m h0 j k)
  · rw [d3m_eq dep m h0]
    exact partial_congr h0 (fun m h => d2m_eq dep m h i j k) (q2_partial _ m h0 j k l)

/-- **C25.** The second and third derivatives returned are symmetric, for every mole vector. -/
theorem C25_symmetric (dep : Fin (nr + 1)) (m : Fin (nr + 1) → ℝ) (i : Fin nr) (j k l : Fin (nr + 1)) :
    d2m dep m i j k = d2m dep m i k j ∧ d3m dep m i j k l = d3m dep m i k j l ∧
    d3m dep m i j k l = d3m dep m i j l k := by
  refine ⟨?_, ?_, ?_⟩ <;> (simp only [d2m, d3m]; split_ifs <;> ring)

/-- **C25.** `∂x/∂r` as returned is the derivative of the mole fractions in the independent variables. -/
theorem C25_dr (dep : Fin (nr + 1)) (r : Fin nr → ℝ) (i : Fin (nr + 1)) (j : Fin nr) :
    Partial (fun r => fromR dep r i) r j (dr dep i j) := by
  unfold Partial fromR dr
  refine dep.succAboveCases ?_ (fun k => ?_) i
  · simp only [Fin.insertNth_apply_same]
    exact ((deriv_total r j).const_sub 1).congr_deriv (by simp)
  · simp only [Fin.insertNth_apply_succAbove, bump]
    split_ifs with h
    · exact ((hasDerivAt_id' (0 : ℝ)).const_add (r k))
    · exact (hasDerivAt_const (0 : ℝ) _)

/-- **C25.** The feldspar conversion from independent variables moves the sanidine fraction by less than
`√ε` and changes nothing else; with the fraction at least `√ε` it changes nothing. -/
theorem C25_feldspar_snap (ε : ℝ) (hε : 0 < ε) (r : Fin 2 → ℝ) :
    fromRFld ε r 0 = r 0 ∧ fromRFld ε r 1 = r 1 ∧
    |fromRFld ε r 2 - (1 - r 0 - r 1)| < √ε ∧
    (√ε ≤ |1 - r 0 - r 1| → fromRFld ε r 2 = 1 - r 0 - r 1) := by
  have e0 : fromR 2 r 0 = r 0 := Fin.insertNth_apply_succAbove (α := fun _ => ℝ) (2 : Fin 3) _ r 0
  have e1 : fromR 2 r 1 = r 1 := Fin.insertNth_apply_succAbove (α := fun _ => ℝ) (2 : Fin 3) _ r 1
  have e2 : fromR 2 r 2 = 1 - r 0 - r 1 := by
    have := Fin.insertNth_apply_same (α := fun _ => ℝ) (2 : Fin 3) (1 - ∑ i, r i) r
    change fromR 2 r 2 = _ at this
    rw [this, Fin.sum_univ_two]; ring
  have hs : 0 < √ε := Real.sqrt_pos.mpr hε
  refine ⟨by simp [fromRFld, e0], by simp [fromRFld, e1], ?_, fun h => ?_⟩
  · simp only [fromRFld, true_and, e2]
    split_ifs with h
    · rwa [zero_sub, abs_neg]
    · rwa [sub_self, abs_zero]
  · simp only [fromRFld, true_and, e2]
    rw [if_neg (not_lt.mpr h)]

/-- **C23.** The gradient built from these derivatives satisfies Euler's relation: weighted by moles it sums
to the extensive property, whatever molar derivatives a phase supplies. -/
theorem C23_euler_conversion (dep : Fin (nr + 1)) (m : Fin (nr + 1) → ℝ) (h0 : ∑ i, m i ≠ 0) (pMix : ℝ)
    (dpMix : Fin nr → ℝ) :
    ∑ j, m j * gradient pMix dpMix (∑ i, m i) (dm dep m) j = (∑ i, m i) * pMix := by
  refine C23_euler pMix dpMix m _ fun i => ?_
  simp only [dm_eq dep m h0]
  exact q1_homogeneous _ m h0

/-- **C23.** With these conversions the gradient returned is the gradient of total moles times the molar
property, for every differentiable molar property. -/
theorem C23_gradient_conversion (dep : Fin (nr + 1)) (P : (Fin nr → ℝ) → ℝ) (m : Fin (nr + 1) → ℝ)
    (h0 : ∑ i, m i ≠ 0) (dpMix : Fin nr → ℝ) (hP : Grad P (toR dep m) dpMix) (j : Fin (nr + 1)) :
    Partial (extensive P (toR dep)) m j (gradient (P (toR dep m)) dpMix (∑ i, m i) (dm dep m) j) :=
  C23_gradient P (toR dep) m dpMix (dm dep m) hP (fun i j => (C25_derivatives dep m h0 i j j j).1) j

/-- A concrete case: a two-component phase (dependent end member last) with molar property `2 r` and moles
`(1, 3)`: the gradient is `(2, 0)`. -/
example : ∃ m : Fin 2 → ℝ, ∃ P : (Fin 1 → ℝ) → ℝ, ∃ d, Grad P (toR 1 m) d ∧ ∑ i, m i ≠ 0 ∧
    gradient (P (toR 1 m)) d (∑ i, m i) (dm 1 m) 0 = 2 ∧
    gradient (P (toR 1 m)) d (∑ i, m i) (dm 1 m) 1 = 0 := by
  have ht : total (![1, 3] : Fin 2 → ℝ) = 4 := by simp [total, Fin.sum_univ_two]; norm_num
  have hs : (1 : Fin 2).succAbove (0 : Fin 1) = 0 := rfl
  refine ⟨![1, 3], fun r => 2 * r 0, fun _ => 2, ?_, ?_, ?_, ?_⟩
  · unfold Grad
    have h : HasFDerivAt (fun r : Fin 1 → ℝ => r 0) (ContinuousLinearMap.proj 0 : (Fin 1 → ℝ) →L[ℝ] ℝ)
        (toR 1 ![1, 3]) := hasFDerivAt_apply 0 _
    simpa using h.const_mul 2
  · change total _ ≠ 0
    rw [ht]; norm_num
  all_goals
    change gradient _ _ (total _) _ _ = _
    simp only [gradient, Fin.sum_univ_one, dm, toR, ht, hs]
    norm_num

/-- Concrete feldspar composition (0.5, 0.3, 0.2 mol): total 1 is not zero and the conversion gives its first
two mole fractions. -/
example : ∑ i, (![1/2, 3/10, 1/5] : Fin 3 → ℝ) i ≠ 0 ∧
    toR 2 ![1/2, 3/10, 1/5] = ![1/2, 3/10] := by
  have ht : total (![1/2, 3/10, 1/5] : Fin 3 → ℝ) = 1 := by
    rw [total, Fin.sum_univ_three]
    change (1 : ℝ) / 2 + 3 / 10 + 1 / 5 = 1
    norm_num
  constructor
  · change total _ ≠ 0
    rw [ht]; norm_num
  · funext i
    fin_cases i
    · change toR (2 : Fin 3) _ (0 : Fin 2) = 1 / 2
      simp only [toR, ht]
      have hs : (2 : Fin 3).succAbove (0 : Fin 2) = 0 := rfl
      rw [hs]; norm_num
    · change toR (2 : Fin 3) _ (1 : Fin 2) = 3 / 10
      simp only [toR, ht]
      have hs : (2 : Fin 3).succAbove (1 : Fin 2) = 1 := rfl
      rw [hs]; norm_num

end

end Magma.Thermo.Compo
