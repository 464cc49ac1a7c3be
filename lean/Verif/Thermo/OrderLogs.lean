import Verif.Thermo.OrderTables

/-!
Logarithms of quotients of site fractions, as the macros of olivine.c and spinel.c write them: their derivatives and
their values in terms of the logarithms of the fractions. Used by the generated files only.
-/

namespace Verif.Thermo.Ordering

noncomputable section

lemma log2 {a b : ℝ} (ha : a ≠ 0) (hb : b ≠ 0) : Real.log (a / b) = Real.log a - Real.log b := Real.log_div ha hb

lemma log4 {a b c d : ℝ} (ha : a ≠ 0) (hb : b ≠ 0) (hc : c ≠ 0) (hd : d ≠ 0) :
    Real.log (a * b / c / d) = Real.log a + Real.log b - Real.log c - Real.log d := by
  rw [Real.log_div (div_ne_zero (mul_ne_zero ha hb) hc) hd, Real.log_div (mul_ne_zero ha hb) hc, Real.log_mul ha hb]

lemma hasDerivAt_log2 {a b : ℝ → ℝ} {v da db : ℝ} (ha : HasDerivAt a da v) (hb : HasDerivAt b db v)
    (na : a v ≠ 0) (nb : b v ≠ 0) :
    HasDerivAt (fun v => Real.log (a v / b v)) (da / a v - db / b v) v := by
  refine ((ha.fun_div hb nb).log (div_ne_zero na nb)).congr_deriv ?_
  field_simp

lemma hasDerivAt_log4 {a b c d : ℝ → ℝ} {v da db dc dd : ℝ} (ha : HasDerivAt a da v) (hb : HasDerivAt b db v)
    (hc : HasDerivAt c dc v) (hd : HasDerivAt d dd v) (na : a v ≠ 0) (nb : b v ≠ 0) (nc : c v ≠ 0) (nd : d v ≠ 0) :
    HasDerivAt (fun v => Real.log (a v * b v / c v / d v)) (da / a v + db / b v - dc / c v - dd / d v) v := by
  refine ((((ha.fun_mul hb).fun_div hc nc).fun_div hd nd).log
    (div_ne_zero (div_ne_zero (mul_ne_zero na nb) nc) nd)).congr_deriv ?_
  field_simp

/-- `hdo` with the logarithms of quotients. -/
macro "hdq" : tactic => `(tactic| repeat' first
  | with_reducible exact hasDerivAt_const _ _
  | with_reducible exact hasDerivAt_id' _
  | with_reducible assumption
  | with_reducible apply HasDerivAt.fun_sub
  | with_reducible apply HasDerivAt.fun_add
  | with_reducible apply HasDerivAt.fun_neg
  | with_reducible apply hasDerivAt_cxlogx
  | with_reducible apply hasDerivAt_xlogx
  | with_reducible apply hasDerivAt_log4
  | with_reducible apply hasDerivAt_log2
  | with_reducible apply hasDerivAt_divsq
  | with_reducible apply hasDerivAt_divcu
  | with_reducible apply hasDerivAt_quot
  | with_reducible apply HasDerivAt.fun_mul
  | with_reducible apply HasDerivAt.fun_pow
  | with_reducible apply HasDerivAt.log
  | apply mul_ne_zero
  | apply pow_ne_zero
  | exact two_ne_zero
  | (norm_num; done))

/-- `hdo` for logarithms of quotients with constants: no rule for `x log x`. -/
macro "hdl" : tactic => `(tactic| repeat' first
  | with_reducible exact hasDerivAt_const _ _
  | with_reducible exact hasDerivAt_id' _
  | with_reducible assumption
  | with_reducible apply HasDerivAt.fun_sub
  | with_reducible apply HasDerivAt.fun_add
  | with_reducible apply HasDerivAt.fun_neg
  | with_reducible apply hasDerivAt_log2
  | with_reducible apply hasDerivAt_divsq
  | with_reducible apply hasDerivAt_divcu
  | with_reducible apply hasDerivAt_quot
  | with_reducible apply HasDerivAt.fun_mul
  | with_reducible apply HasDerivAt.fun_pow
  | with_reducible apply HasDerivAt.log
  | apply mul_ne_zero
  | apply pow_ne_zero
  | exact two_ne_zero
  | (norm_num; done))

/-- `ddo` with the logarithms of quotients. -/
macro "ddq" : tactic => `(tactic| repeat' first
  | with_reducible exact differentiableAt_const _
  | with_reducible exact differentiableAt_var _ _
  | with_reducible assumption
  | with_reducible apply DifferentiableAt.fun_sub
  | with_reducible apply DifferentiableAt.fun_add
  | with_reducible apply DifferentiableAt.fun_neg
  | with_reducible apply differentiableAt_div'
  | with_reducible apply DifferentiableAt.fun_mul
  | with_reducible apply DifferentiableAt.fun_pow
  | with_reducible apply DifferentiableAt.log
  | apply div_ne_zero
  | apply mul_ne_zero
  | apply pow_ne_zero
  | exact two_ne_zero
  | (norm_num; done))

end

end Verif.Thermo.Ordering
