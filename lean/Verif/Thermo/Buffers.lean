import Verif.Prelude
import Mathlib.Analysis.Calculus.Deriv.Inv
import Mathlib.Analysis.Calculus.Deriv.Add
import Mathlib.Analysis.Calculus.Deriv.Mul
import Mathlib.Analysis.Calculus.Deriv.Pow

/-!
Model of the oxygen buffers: `getlog10fo2COH`, `getlog10fo2` and its derivatives
(/repo/sources/gibbs.c 213-363).

Simplification: `double` is the real numbers; decimal constants are exact (trailing zeros omitted).
-/

namespace Magma.Thermo.Buffers

noncomputable section

/-- The buffer codes FO2_NONE ... (/repo/includes/silmin.h); FMQ+n / FMQ-n with `n` in log units are one
constructor, `n` one of 3, 2, 1, -1 ... -9, 0.5, 1.5. -/
inductive Buffer
  | none | hm | nno | qfm | coh | iw | qfmPlus (n : ℝ)

/-- gibbs.c 214. -/
def pLim (p : ℝ) : ℝ := if p < 67201 then p else 67201

/-- gibbs.c 217-219, mask FIRST. -/
def coh (t p : ℝ) : ℝ :=
  let r := (-22324 + 189 * pLim p / 1000 - 1.41 * pLim p * pLim p / 1000000) / t + 4.62
  if p > 67201 then r + (608.966 * (p / 10000) / t - 608.966 * (67201 / 10000) / t) else r

/-- gibbs.c 220-222, mask SECOND. -/
def cohDt (t p : ℝ) : ℝ :=
  let r := -(-22324 + 189 * pLim p / 1000 - 1.41 * pLim p * pLim p / 1000000) / (t * t)
  if p > 67201 then r + (-608.966 * (p / 10000) / (t * t) + 608.966 * (67201 / 10000) / (t * t)) else r

/-- gibbs.c 223-225, mask THIRD. -/
def cohDp (t p : ℝ) : ℝ :=
  let r := (189 / 1000 - 2 * 1.41 * pLim p / 1000000) / t
  if p > 67201 then r + 608.966 * (1 / 10000) / t else r

/-- gibbs.c 226-228, mask FOURTH. -/
def cohDt2 (t p : ℝ) : ℝ :=
  let r := 2 * (-22324 + 189 * pLim p / 1000 - 1.41 * pLim p * pLim p / 1000000) / (t * t * t)
  if p > 67201 then r + (2 * 608.966 * (p / 10000) / (t * t * t) - 2 * 608.966 * (67201 / 10000) / (t * t * t))
  else r

/-- gibbs.c 229-231, mask FIFTH. -/
def cohDp2 (t _p : ℝ) : ℝ := (-2 * 1.41 / 1000000) / t

/-- gibbs.c 244-268 `getlog10fo2`; `delta` is `silminState->fo2Delta`. -/
def log10fo2 (delta t p : ℝ) : Buffer → ℝ
  | .hm => -23847.6 / t + 13.48 + delta
  | .nno => -24930 / t + 9.36 + delta
  | .qfm => -24441.9 / t + 0.11 * (p - 1) / t + 8.29 + delta
  | .coh => coh t p + delta
  | .iw => -26834.7 / t + 6.471 + delta
  | .qfmPlus n => -24441.9 / t + 0.11 * (p - 1) / t + 8.29 + n
  | .none => 0

/-- gibbs.c 270-292 `getdlog10fo2dt`. -/
def dlog10fo2dt (t p : ℝ) : Buffer → ℝ
  | .hm => 23847.6 / (t * t)
  | .nno => 24930 / (t * t)
  | .qfm => 24441.9 / (t * t) - 0.11 * (p - 1) / (t * t)
  | .coh => cohDt t p
  | .iw => 26834.7 / (t * t)
  | .qfmPlus _ => 24441.9 / (t * t) - 0.11 * (p - 1) / (t * t)
  | .none => 0

/-- gibbs.c 294-316 `getdlog10fo2dp`. -/
def dlog10fo2dp (t p : ℝ) : Buffer → ℝ
  | .hm => 0
  | .nno => 0
  | .qfm => 0.11 / t
  | .coh => cohDp t p
  | .iw => 0
  | .qfmPlus _ => 0.11 / t
  | .none => 0.11 / t

/-- gibbs.c 318-340 `getd2log10fo2dt2`. -/
def d2log10fo2dt2 (t p : ℝ) : Buffer → ℝ
  | .hm => -2 * 23847.6 / (t * t * t)
  | .nno => -2 * 24930 / (t * t * t)
  | .qfm => -2 * 24441.9 / (t * t * t) + 2 * 0.11 * (p - 1) / (t * t * t)
  | .coh => cohDt2 t p
  | .iw => -2 * 26834.7 / (t * t * t)
  | .qfmPlus _ => -2 * 24441.9 / (t * t * t) + 2 * 0.11 * (p - 1) / (t * t * t)
  | .none => 0

/-- gibbs.c 342-363 `getd2log10fo2dp2`. -/
def d2log10fo2dp2 (t p : ℝ) : Buffer → ℝ
  | .coh => cohDp2 t p
  | _ => 0

/-! ### Lemmas -/

theorem deriv_const_div (a t : ℝ) (ht : t ≠ 0) : HasDerivAt (fun x => a / x) (-a / (t * t)) t := by
  have h := (hasDerivAt_inv ht).const_mul a
  have e : (fun x : ℝ => a / x) = fun y => a * y⁻¹ := by funext x; rw [div_eq_mul_inv]
  rw [e]
  exact h.congr_deriv (by field_simp)

theorem deriv_const_div2 (a t : ℝ) (ht : t ≠ 0) :
    HasDerivAt (fun x => a / (x * x)) (-2 * a / (t * t * t)) t := by
  have h1 : HasDerivAt (fun x : ℝ => x * x) (t + t) t := by
    have := (hasDerivAt_id' t).mul (hasDerivAt_id' t)
    exact this.congr_deriv (by ring)
  have h := (h1.inv (mul_ne_zero ht ht)).const_mul a
  have e : (fun x : ℝ => a / (x * x)) = fun y => a * (y * y)⁻¹ := by funext x; rw [div_eq_mul_inv]
  rw [e]
  exact h.congr_deriv (by field_simp; ring)

/-! ### Theorems -/

/-- **C21.** For every buffer and every non-zero temperature the reported first and second temperature
derivatives are the derivatives of the reported log10 fO2. -/
theorem C21_temperature_derivatives (b : Buffer) (delta t p : ℝ) (ht : t ≠ 0) :
    HasDerivAt (fun x => log10fo2 delta x p b) (dlog10fo2dt t p b) t ∧
    HasDerivAt (fun x => dlog10fo2dt x p b) (d2log10fo2dt2 t p b) t := by
  have key : ∀ (a c : ℝ) (f : ℝ → ℝ) (f' : ℝ), (∀ x, f x = a / x + c) → f' = -a / (t * t) → HasDerivAt f f' t := by
    intro a c f f' hf hf'
    rw [show f = fun x => a / x + c from funext hf, hf']
    exact (deriv_const_div a t ht).add_const c
  have key2 : ∀ (a : ℝ) (f : ℝ → ℝ) (f' : ℝ), (∀ x, f x = a / (x * x)) → f' = -2 * a / (t * t * t) →
      HasDerivAt f f' t := by
    intro a f f' hf hf'
    rw [show f = fun x => a / (x * x) from funext hf, hf']
    exact deriv_const_div2 a t ht
  cases b with
  | none => exact ⟨hasDerivAt_const t 0, hasDerivAt_const t 0⟩
  | hm => exact ⟨key (-23847.6) (13.48 + delta) _ _ (fun x => by simp only [log10fo2]; ring)
      (by simp only [dlog10fo2dt]; ring), key2 23847.6 _ _ (fun x => rfl) (by simp only [d2log10fo2dt2])⟩
  | nno => exact ⟨key (-24930) (9.36 + delta) _ _ (fun x => by simp only [log10fo2]; ring)
      (by simp only [dlog10fo2dt]; ring), key2 24930 _ _ (fun x => rfl) (by simp only [d2log10fo2dt2])⟩
  | iw => exact ⟨key (-26834.7) (6.471 + delta) _ _ (fun x => by simp only [log10fo2]; ring)
      (by simp only [dlog10fo2dt]; ring), key2 26834.7 _ _ (fun x => rfl) (by simp only [d2log10fo2dt2])⟩
  | qfm => exact ⟨key (-24441.9 + 0.11 * (p - 1)) (8.29 + delta) _ _ (fun x => by simp only [log10fo2]; ring)
      (by simp only [dlog10fo2dt]; ring),
      key2 (24441.9 - 0.11 * (p - 1)) _ _ (fun x => by simp only [dlog10fo2dt]; ring)
        (by simp only [d2log10fo2dt2]; ring)⟩
  | qfmPlus n => exact ⟨key (-24441.9 + 0.11 * (p - 1)) (8.29 + n) _ _
      (fun x => by simp only [log10fo2]; ring) (by simp only [dlog10fo2dt]; ring),
      key2 (24441.9 - 0.11 * (p - 1)) _ _ (fun x => by simp only [dlog10fo2dt]; ring)
        (by simp only [d2log10fo2dt2]; ring)⟩
  | coh =>
    by_cases hp : p > 67201
    · exact ⟨key (-22324 + 189 * pLim p / 1000 - 1.41 * pLim p * pLim p / 1000000 + 608.966 * (p / 10000) -
          608.966 * (67201 / 10000)) (4.62 + delta) _ _
          (fun x => by simp only [log10fo2, coh, if_pos hp]; ring)
          (by simp only [dlog10fo2dt, cohDt, if_pos hp]; ring),
        key2 (-(-22324 + 189 * pLim p / 1000 - 1.41 * pLim p * pLim p / 1000000) - 608.966 * (p / 10000) +
          608.966 * (67201 / 10000)) _ _ (fun x => by simp only [dlog10fo2dt, cohDt, if_pos hp]; ring)
          (by simp only [d2log10fo2dt2, cohDt2, if_pos hp]; ring)⟩
    · exact ⟨key (-22324 + 189 * pLim p / 1000 - 1.41 * pLim p * pLim p / 1000000) (4.62 + delta) _ _
          (fun x => by simp only [log10fo2, coh, if_neg hp]; ring)
          (by simp only [dlog10fo2dt, cohDt, if_neg hp]),
        key2 (-(-22324 + 189 * pLim p / 1000 - 1.41 * pLim p * pLim p / 1000000)) _ _
          (fun x => by simp only [dlog10fo2dt, cohDt, if_neg hp])
          (by simp only [d2log10fo2dt2, cohDt2, if_neg hp]; ring)⟩

theorem deriv_quad (f : ℝ → ℝ) (a b c p f' : ℝ) (s : Set ℝ) (hs : s ∈ nhds p)
    (hf : ∀ x ∈ s, f x = a + b * x + c * (x * x)) (hf' : f' = b + 2 * c * p) : HasDerivAt f f' p := by
  have h1 : HasDerivAt (fun x : ℝ => x * x) (p + p) p := by
    have := (hasDerivAt_id' p).mul (hasDerivAt_id' p)
    exact this.congr_deriv (by ring)
  have h := (((hasDerivAt_id p).const_mul b).const_add a).add (h1.const_mul c)
  have e : b * 1 + c * (p + p) = f' := by rw [hf']; ring
  rw [e] at h
  refine h.congr_of_eventuallyEq ?_
  filter_upwards [hs] with x hx
  simp [hf x hx]

/-- **C21.** For every buffer the reported pressure derivatives are the derivatives of the reported log10 fO2,
with COH below 67201 bars. -/
theorem C21_pressure_derivatives (b : Buffer) (delta t p : ℝ) (hb : b ≠ .none)
    (hc : b = .coh → p < 67201) :
    HasDerivAt (fun x => log10fo2 delta t x b) (dlog10fo2dp t p b) p ∧
    HasDerivAt (fun x => dlog10fo2dp t x b) (d2log10fo2dp2 t p b) p := by
  cases b with
  | none => exact absurd rfl hb
  | hm => exact ⟨hasDerivAt_const p _, hasDerivAt_const p _⟩
  | nno => exact ⟨hasDerivAt_const p _, hasDerivAt_const p _⟩
  | iw => exact ⟨hasDerivAt_const p _, hasDerivAt_const p _⟩
  | qfm => exact ⟨deriv_quad _ (-24441.9 / t - 0.11 / t + 8.29 + delta) (0.11 / t) 0 p _ Set.univ
      Filter.univ_mem (fun x _ => by simp only [log10fo2]; ring) (by simp [dlog10fo2dp]),
      hasDerivAt_const p _⟩
  | qfmPlus n => exact ⟨deriv_quad _ (-24441.9 / t - 0.11 / t + 8.29 + n) (0.11 / t) 0 p _ Set.univ
      Filter.univ_mem (fun x _ => by simp only [log10fo2]; ring) (by simp [dlog10fo2dp]),
      hasDerivAt_const p _⟩
  | coh =>
    have hp := hc rfl
    refine ⟨deriv_quad _ (-22324 / t + 4.62 + delta) (189 / 1000 / t) (-(1.41 / 1000000) / t) p _ (Set.Iio 67201)
        (Iio_mem_nhds hp) (fun x hx => ?_) ?_,
      deriv_quad _ (189 / 1000 / t) (-(2 * 1.41 / 1000000) / t) 0 p _ (Set.Iio 67201)
        (Iio_mem_nhds hp) (fun x hx => ?_) ?_⟩
    · have hx' : x < 67201 := hx
      simp only [log10fo2, coh, pLim, if_pos hx', if_neg (not_lt.mpr hx'.le)]
      ring
    · simp only [dlog10fo2dp, cohDp, pLim, if_pos hp, if_neg (not_lt.mpr hp.le)]
      ring
    · have hx' : x < 67201 := hx
      simp only [dlog10fo2dp, cohDp, pLim, if_pos hx', if_neg (not_lt.mpr hx'.le)]
      ring
    · simp only [d2log10fo2dp2, cohDp2]
      ring

/-- **C21.** Without buffer the reported log10 fO2 is constant, but the reported pressure derivative is not
its derivative, at any temperature. -/
theorem C21_none_pressure_derivative_wrong (delta t p : ℝ) (ht : t ≠ 0) :
    ¬ HasDerivAt (fun x => log10fo2 delta t x .none) (dlog10fo2dp t p .none) p := by
  intro h
  have h0 : HasDerivAt (fun x => log10fo2 delta t x .none) 0 p := hasDerivAt_const p _
  have := h.unique h0
  simp only [dlog10fo2dp] at this
  rw [div_eq_zero_iff] at this
  rcases this with e | e
  · norm_num at e
  · exact ht e

/-- **C21.** For COH above 67201 bars neither the reported first nor the reported second pressure derivative
is the derivative of the reported quantity, at any temperature: the first is off by the frozen slope
`(0.189 - 2.82e-6 * 67201) / t`. -/
theorem C21_coh_high_pressure_wrong (delta t p : ℝ) (ht : t ≠ 0) (hp : 67201 < p) :
    HasDerivAt (fun x => log10fo2 delta t x .coh)
      (dlog10fo2dp t p .coh - (189 / 1000 - 2 * 1.41 * 67201 / 1000000) / t) p ∧
    ¬ HasDerivAt (fun x => log10fo2 delta t x .coh) (dlog10fo2dp t p .coh) p ∧
    ¬ HasDerivAt (fun x => dlog10fo2dp t x .coh) (d2log10fo2dp2 t p .coh) p := by
  have h1 : HasDerivAt (fun x => log10fo2 delta t x .coh)
      (dlog10fo2dp t p .coh - (189 / 1000 - 2 * 1.41 * 67201 / 1000000) / t) p := by
    refine deriv_quad _ ((-22324 + 189 * 67201 / 1000 - 1.41 * 67201 * 67201 / 1000000) / t + 4.62 -
        608.966 * (67201 / 10000) / t + delta) (608.966 / 10000 / t) 0 p _ (Set.Ioi 67201)
        (Ioi_mem_nhds hp) (fun x hx => ?_) ?_
    · have hx' : 67201 < x := hx
      simp only [log10fo2, coh, pLim, if_neg (not_lt.mpr hx'.le), gt_iff_lt, if_pos hx']
      ring
    · simp only [dlog10fo2dp, cohDp, pLim, if_neg (not_lt.mpr hp.le), gt_iff_lt, if_pos hp]
      ring
  refine ⟨h1, fun h => ?_, fun h => ?_⟩
  · have := h.unique h1
    have e : (189 / 1000 - 2 * 1.41 * 67201 / 1000000 : ℝ) / t = 0 := by linarith
    rw [div_eq_zero_iff] at e
    rcases e with e | e
    · norm_num at e
    · exact ht e
  · have h0 : HasDerivAt (fun x => dlog10fo2dp t x .coh) 0 p := by
      refine deriv_quad _ ((189 / 1000 - 2 * 1.41 * 67201 / 1000000) / t + 608.966 * (1 / 10000) / t) 0 0 p _
        (Set.Ioi 67201) (Ioi_mem_nhds hp) (fun x hx => ?_) (by ring)
      have hx' : 67201 < x := hx
      simp only [dlog10fo2dp, cohDp, pLim, if_neg (not_lt.mpr hx'.le), gt_iff_lt, if_pos hx']
      ring
    have := h.unique h0
    simp only [d2log10fo2dp2, cohDp2] at this
    rw [div_eq_zero_iff] at this
    rcases this with e | e
    · norm_num at e
    · exact ht e

/-- The COH formula is continuous at the corner. -/
theorem C21_coh_continuous_at_corner (t : ℝ) :
    Filter.Tendsto (fun p => coh t p) (nhds 67201) (nhds (coh t 67201)) := by
  have hc : Continuous fun p : ℝ => (-22324 + 189 * min p 67201 / 1000 -
      1.41 * min p 67201 * min p 67201 / 1000000) / t + 4.62 +
      (608.966 * (max p 67201 / 10000) / t - 608.966 * (67201 / 10000) / t) := by
    fun_prop
  have e : (fun p => coh t p) = fun p : ℝ => (-22324 + 189 * min p 67201 / 1000 -
      1.41 * min p 67201 * min p 67201 / 1000000) / t + 4.62 +
      (608.966 * (max p 67201 / 10000) / t - 608.966 * (67201 / 10000) / t) := by
    funext p
    rcases lt_trichotomy p 67201 with h | h | h
    · simp only [coh, pLim, if_pos h, if_neg (not_lt.mpr h.le), gt_iff_lt, min_eq_left h.le, max_eq_right h.le]
      ring
    · subst h
      simp only [coh, pLim, lt_irrefl, gt_iff_lt, if_false, min_self, max_self]
      ring
    · simp only [coh, pLim, if_neg (not_lt.mpr h.le), gt_iff_lt, if_pos h, min_eq_right h.le, max_eq_left h.le]
  have h := hc.tendsto 67201
  rw [← e] at h
  exact (congrFun e 67201).symm ▸ h

/-- The user's offset is added for these buffers. -/
def Shiftable : Buffer → Prop
  | .hm | .nno | .qfm | .coh | .iw => True
  | _ => False

/-- **C22.** The user's offset shifts log10 fO2 by exactly that offset for HM, NNO, FMQ, COH and IW and has no
effect for FMQ+n (nor without buffer); FMQ+n differs from FMQ with zero offset by exactly `n`, at every T
and P. -/
theorem C22_offset (delta t p : ℝ) :
    (∀ b, Shiftable b → log10fo2 delta t p b = log10fo2 0 t p b + delta) ∧
    (∀ b, ¬ Shiftable b → log10fo2 delta t p b = log10fo2 0 t p b) ∧
    (∀ n : ℝ, log10fo2 delta t p (.qfmPlus n) = log10fo2 0 t p .qfm + n) := by
  refine ⟨fun b hb => ?_, fun b hb => ?_, fun n => ?_⟩
  · cases b <;> first | exact absurd hb id | (simp only [log10fo2]; ring)
  · cases b <;> first | exact absurd trivial hb | rfl
  · simp only [log10fo2]; ring

/-- **C22.** In particular, FMQ with offset `n` and FMQ+n agree for every T, P, but adding a further offset only
moves the former. -/
theorem C22_integer_buffers_ignore_offset (t p : ℝ) (n delta : ℝ) (hd : delta ≠ n) :
    log10fo2 n t p .qfm = log10fo2 delta t p (.qfmPlus n) ∧
    log10fo2 delta t p .qfm ≠ log10fo2 delta t p (.qfmPlus n) := by
  simp only [log10fo2]
  refine ⟨trivial, fun h => hd ?_⟩
  linarith

example : ∃ t p : ℝ, t ≠ 0 ∧ 67201 < p := ⟨1473, 70000, by norm_num, by norm_num⟩

end

end Magma.Thermo.Buffers
