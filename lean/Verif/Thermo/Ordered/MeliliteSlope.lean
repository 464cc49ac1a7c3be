import Verif.Thermo.OrderUp
import Verif.Thermo.Ordered.SpinelEnds
import Mathlib.Analysis.Complex.ExponentialBounds
import Mathlib.Analysis.SpecialFunctions.Trigonometric.DerivHyp
import Mathlib.Analysis.SpecialFunctions.Arsinh

/-!
The slope of melilite's Gibbs energy in its one ordering parameter `s` (Al-Si order over the two kinds of tetrahedra), for a
melilite with the amounts `r0` of gehlenite and `r2` of soda melilite and `k = RT`. The energy is not convex in `s`, but above
800 K it curves upwards wherever its slope vanishes. `r0 = 1`, `r2 = 0` is pure gehlenite.
-/

namespace Verif.Thermo.Ordering.MeliliteSlope

open Magma.Thermo.Mixing (R R_pos)

noncomputable section

/-- The logarithms of `DGDS0`, melilite.c 1159, with the factors `1/2` of the T2 fractions cancelled. -/
def logs (r0 r2 s : ℝ) : ℝ := Real.log (r2 + s) + Real.log (r0 + s) - Real.log (r0 - s) - Real.log (2 - r0 - s)

/-- `DGDS0`, melilite.c 1159-1161, with the parameters of melilite.c 108-118 inserted (the coefficients of `r[1]` and `r[2]` are
zero). -/
def slope (k r0 r2 s : ℝ) : ℝ := k * logs r0 r2 s + (16000 + 34354 * r0 - 76708 * s)

/-- `D2GDS0S0`, melilite.c 1183. -/
def curv (k r0 r2 s : ℝ) : ℝ := k * (1 / (r2 + s) + 1 / (r0 + s) + 1 / (r0 - s) + 1 / (2 - r0 - s)) - 76708

/-- Possible ordering states: the fractions on the tetrahedra are positive. -/
structure In (r0 r2 s : ℝ) : Prop where
  na : 0 ≤ r2
  sum : r0 + r2 ≤ 1
  si : 0 < r2 + s
  al2 : 0 < r0 + s
  al1 : 0 < r0 - s

lemma one_add_log_le {a c : ℝ} (ha : 0 < a) (hc : 0 < c) : 1 + Real.log c ≤ c / a + Real.log a := by
  have h := Real.log_le_sub_one_of_pos (div_pos hc ha)
  rw [Real.log_div hc.ne' ha.ne'] at h
  linarith

lemma log_le_half {a b : ℝ} (ha : 0 < a) (hab : a ≤ b) : Real.log b - Real.log a ≤ (b ^ 2 - a ^ 2) / (2 * a * b) := by
  have hb : 0 < b := lt_of_lt_of_le ha hab
  have h : Real.log (b / a) ≤ Real.sinh (Real.log (b / a)) :=
    Real.self_le_sinh_iff.mpr (Real.log_nonneg ((one_le_div ha).mpr hab))
  rw [Real.sinh_log (div_pos hb ha), Real.log_div hb.ne' ha.ne'] at h
  refine h.trans (le_of_eq ?_)
  field_simp

lemma le_log_div {a b : ℝ} (hb : 0 < b) (hab : b ≤ a) : 2 * (a - b) / (a + b) ≤ Real.log a - Real.log b := by
  have ha : 0 < a := lt_of_lt_of_le hb hab
  have h := Real.le_log_one_add_of_nonneg (x := a / b - 1) (by rw [sub_nonneg]; exact (one_le_div hb).mpr hab)
  rw [add_sub_cancel, Real.log_div ha.ne' hb.ne'] at h
  refine le_trans (le_of_eq ?_) h
  have : a / b - 1 + 2 = (a + b) / b := by field_simp; ring
  rw [this]
  field_simp

lemma pair {a b c : ℝ} (ha : 0 < a) (hb : 0 < b) (hc : 0 < c) (hq : 0 ≤ c - (b - a) / 2) :
    4 * (c - (b - a) / 2) / (a + b) ≤ c / a + c / b - (Real.log b - Real.log a) := by
  rcases le_total a b with h | h
  · have h1 := log_le_half ha h
    have e : c / a + c / b - (b ^ 2 - a ^ 2) / (2 * a * b) = (a + b) * (c - (b - a) / 2) / (a * b) := by
      field_simp; ring
    have h2 : 4 * (c - (b - a) / 2) / (a + b) ≤ (a + b) * (c - (b - a) / 2) / (a * b) := by
      rw [div_le_div_iff₀ (by positivity) (by positivity)]
      nlinarith [mul_nonneg hq (sq_nonneg (a - b))]
    linarith
  · have h1 := le_log_div hb h
    have h2 : 4 * c / (a + b) ≤ c / a + c / b := by
      rw [div_add_div _ _ ha.ne' hb.ne', div_le_div_iff₀ (by positivity) (by positivity)]
      nlinarith [mul_nonneg hc.le (sq_nonneg (a - b))]
    have e : 4 * (c - (b - a) / 2) / (a + b) = 4 * c / (a + b) + 2 * (a - b) / (a + b) := by ring
    rw [e]; linarith

lemma sites_prod {u : ℝ} (h1 : 3777 / 10000 ≤ u) (h2 : u ≤ 1) : 61 / 100 ≤ u * (2 - u) := by
  nlinarith [mul_nonneg (sub_nonneg.mpr h1) (sub_nonneg.mpr h2)]

lemma quot_bound {q d : ℝ} (h1 : -(245 / 1000) ≤ q) (h2 : 61 / 100 ≤ d) : -(81 / 100) ≤ 2 * q / d := by
  rw [le_div_iff₀ (by linarith)]
  linarith

/-- The tangent of the ideal part meets the line of the rest below: `c` is the distance to the ordering state at which the rest
of the slope vanishes. -/
lemma tangent {r0 r2 s c : ℝ} (h : In r0 r2 s) (hc : 76708 * c = 16000 + 34354 * r0 - 76708 * s) (hc0 : 0 < c)
    (hL : logs r0 r2 s < 0) :
    0 < logs r0 r2 s + c * (1 / (r2 + s) + 1 / (r0 + s) + 1 / (r0 - s) + 1 / (2 - r0 - s)) := by
  obtain ⟨hr2, hsum, ha, hu, hb⟩ := h
  have hw : 0 < 2 - r0 - s := by linarith
  have hr0 : 0 < r0 := by linarith
  have hprod : (r2 + s) * (r0 + s) < (r0 - s) * (2 - r0 - s) := by
    rw [← Real.log_lt_log_iff (by positivity) (by positivity), Real.log_mul ha.ne' hu.ne', Real.log_mul hb.ne' hw.ne']
    unfold logs at hL; linarith
  have e : logs r0 r2 s + c * (1 / (r2 + s) + 1 / (r0 + s) + 1 / (r0 - s) + 1 / (2 - r0 - s)) =
      (c / (r2 + s) + Real.log (r2 + s)) + (c / (r0 + s) + Real.log (r0 + s)) + (c / (r0 - s) - Real.log (r0 - s)) +
        (c / (2 - r0 - s) - Real.log (2 - r0 - s)) := by
    unfold logs; ring
  have p1 := one_add_log_le ha hc0
  have p2 := one_add_log_le hu hc0
  have p4 : -Real.log 2 < c / (2 - r0 - s) - Real.log (2 - r0 - s) := by
    have := Real.log_lt_log hw (show 2 - r0 - s < 2 by linarith)
    have : 0 < c / (2 - r0 - s) := by positivity
    linarith
  have l2 := Real.log_two_lt_d9
  rcases le_total s 0 with hs | hs
  · -- disordered side
    rw [e]
    have hcb : 16000 + 34354 * (r0 - s) ≤ 76708 * c := by linarith
    have hsq : 37 / 100 * (r0 - s) ≤ c ^ 2 := by
      have h1 : (16000 + 34354 * (r0 - s)) ^ 2 ≤ (76708 * c) ^ 2 := pow_le_pow_left₀ (by positivity) hcb 2
      nlinarith [sq_nonneg (16000 - 34354 * (r0 - s))]
    have hlog : -1 ≤ 2 * Real.log c - Real.log (r0 - s) := by
      have h1 : Real.exp (-1) * (r0 - s) ≤ c ^ 2 := by
        have := Real.exp_neg_one_lt_d9
        nlinarith
      have h2 := Real.log_le_log (by positivity) h1
      rw [Real.log_mul (Real.exp_pos _).ne' hb.ne', Real.log_exp, Real.log_pow] at h2
      push_cast at h2
      linarith
    have : 0 < c / (r0 - s) := by positivity
    linarith
  · rcases le_total r0 (3777 / 10000) with hr | hr
    · rw [e]
      have hcb : r0 - s ≤ c := by linarith
      have hc1 : 1 / 10 ≤ c := by
        have h1 : s * (2 + r0 + r2) ≤ r0 * (2 - r0 - r2) := by nlinarith
        have h2 : s * (2 + r0) ≤ r0 * (2 - r0) := by nlinarith
        nlinarith [sq_nonneg (r0 - 1 / 3)]
      have h3 : 1 ≤ Real.log c - Real.log (r0 - s) + c / (r0 - s) := by
        have := Real.log_le_log hb hcb
        have := (one_le_div hb).mpr hcb
        linarith
      have h4 : -3 ≤ Real.log c - Real.log 2 := by
        rw [← Real.log_div hc0.ne' (by norm_num), Real.le_log_iff_exp_le (by positivity)]
        have h5 : Real.exp (-3) * (Real.exp 1) ^ 3 = 1 := by
          rw [← Real.exp_nat_mul, ← Real.exp_add]; norm_num
        have h6 : (20 : ℝ) ≤ Real.exp 1 ^ 3 := by
          have := Real.exp_one_gt_d9
          calc (20 : ℝ) ≤ 2.7182818283 ^ 3 := by norm_num
            _ ≤ Real.exp 1 ^ 3 := pow_le_pow_left₀ (by norm_num) this.le 3
        have : Real.exp (-3) ≤ 1 / 20 := by
          rw [le_div_iff₀ (by norm_num), ← h5]
          exact mul_le_mul_of_nonneg_left h6 (Real.exp_pos _).le
        linarith
      linarith
    · -- two pairs
      have q1 : 0 ≤ c - ((r0 - s) - (r2 + s)) / 2 := by linarith
      have P1 := pair ha hb hc0 q1
      have hD : 0 < r0 + r2 := by linarith
      have e2 : (r2 + s) + (r0 - s) = r0 + r2 := by ring
      rw [e2] at P1
      have e' : logs r0 r2 s + c * (1 / (r2 + s) + 1 / (r0 + s) + 1 / (r0 - s) + 1 / (2 - r0 - s)) =
          (c / (r2 + s) + c / (r0 - s) - (Real.log (r0 - s) - Real.log (r2 + s))) +
            (c / (r0 + s) + c / (2 - r0 - s) - (Real.log (2 - r0 - s) - Real.log (r0 + s))) := by
        unfold logs; ring
      rw [e']
      rcases le_total 0 (c - ((2 - r0 - s) - (r0 + s)) / 2) with q2 | q2
      · have P2 := pair hu hw hc0 q2
        have : 0 ≤ 4 * (c - ((2 - r0 - s) - (r0 + s)) / 2) / ((r0 + s) + (2 - r0 - s)) :=
          div_nonneg (by linarith) (by linarith)
        have : 0 < 4 * (c - ((r0 - s) - (r2 + s)) / 2) / (r0 + r2) := by
          refine div_pos ?_ hD
          have : (16000 - 4000 * r0) / 76708 ≤ c - ((r0 - s) - (r2 + s)) / 2 := by
            rw [div_le_iff₀ (by norm_num)]; linarith
          have : 0 < (16000 - 4000 * r0) / 76708 := by
            refine div_pos ?_ (by norm_num); linarith
          linarith
        linarith
      · have hr3 : r0 ≤ 547 / 1000 := by linarith
        have huw : r0 + s ≤ 2 - r0 - s := by linarith
        have P2 := log_le_half hu huw
        have huw2 : 61 / 100 ≤ (r0 + s) * (2 - r0 - s) := by
          have := sites_prod (show 3777 / 10000 ≤ r0 + s by linarith) (show r0 + s ≤ 1 by linarith)
          rwa [show 2 - (r0 + s) = 2 - r0 - s by ring] at this
        have e3 : c / (r0 + s) + c / (2 - r0 - s) - ((2 - r0 - s) ^ 2 - (r0 + s) ^ 2) / (2 * (r0 + s) * (2 - r0 - s)) =
            2 * (c - ((2 - r0 - s) - (r0 + s)) / 2) / ((r0 + s) * (2 - r0 - s)) := by
          have := hu.ne'; have := hw.ne'
          field_simp; ring
        have h5 : -(81 / 100) ≤ 2 * (c - ((2 - r0 - s) - (r0 + s)) / 2) / ((r0 + s) * (2 - r0 - s)) := by
          exact quot_bound (by linarith) huw2
        have h6 : 1 ≤ 4 * (c - ((r0 - s) - (r2 + s)) / 2) / (r0 + r2) := by
          rw [le_div_iff₀ hD]
          linarith
        linarith

/-- Above 800 K the slope is positive where the rest of it is negative. -/
lemma high {k r0 r2 s : ℝ} (hk : 6651 ≤ k) (h : In r0 r2 s) (hl : 16000 + 34354 * r0 - 76708 * s ≤ 0) : 0 < slope k r0 r2 s := by
  obtain ⟨hr2, hsum, ha, hu, hb⟩ := h
  have hw : 0 < 2 - r0 - s := by linarith
  have hs : 0 < s := by linarith
  have hr0 : 0 < r0 := by linarith
  have hr : 3777 / 10000 ≤ r0 := by linarith
  have hbs : r0 - s ≤ s := by linarith
  have h1 : 2 * (2 * s - r0) / r0 ≤ Real.log (r2 + s) - Real.log (r0 - s) := by
    have h2 := le_log_div hb hbs
    have h3 := Real.log_le_log hs (show s ≤ r2 + s by linarith)
    have e1 : s - (r0 - s) = 2 * s - r0 := by ring
    have e2 : s + (r0 - s) = r0 := by ring
    rw [e1, e2] at h2
    linarith
  have eL : logs r0 r2 s = (Real.log (r2 + s) - Real.log (r0 - s)) + (Real.log (r0 + s) - Real.log (2 - r0 - s)) := by
    unfold logs; ring
  unfold slope
  rcases le_total 1 (r0 + s) with hu1 | hu1
  · have h2 := le_log_div hw (show 2 - r0 - s ≤ r0 + s by linarith)
    have e1 : 2 * (r0 + s - (2 - r0 - s)) / (r0 + s + (2 - r0 - s)) = 2 * (r0 + s - 1) := by
      rw [show r0 + s + (2 - r0 - s) = 2 by ring]; ring
    rw [e1] at h2
    have h3 : 2 * (2 * s - r0) / r0 + 2 * (r0 + s - 1) ≤ logs r0 r2 s := by rw [eL]; linarith
    have h0 : 0 ≤ 2 * (2 * s - r0) / r0 + 2 * (r0 + s - 1) := by
      have : 0 ≤ 2 * (2 * s - r0) / r0 := div_nonneg (by linarith) hr0.le
      linarith
    have h4 : 6651 * (2 * (2 * s - r0) / r0 + 2 * (r0 + s - 1)) ≤ k * logs r0 r2 s :=
      mul_le_mul hk h3 h0 (by linarith)
    have h5 : 0 < 6651 * (2 * (2 * s - r0) / r0 + 2 * (r0 + s - 1)) + (16000 + 34354 * r0 - 76708 * s) := by
      have e3 : 6651 * (2 * (2 * s - r0) / r0 + 2 * (r0 + s - 1)) + (16000 + 34354 * r0 - 76708 * s) =
          (6651 * (2 * (2 * s - r0) + 2 * (r0 + s - 1) * r0) + (16000 + 34354 * r0 - 76708 * s) * r0) / r0 := by
        field_simp
      rw [e3]
      refine div_pos ?_ hr0
      nlinarith [mul_nonneg (sub_nonneg.mpr hr) hb.le, mul_nonneg hb.le (show (0 : ℝ) ≤ 1 - r0 by linarith),
        mul_nonneg (show (0 : ℝ) ≤ 1 - r0 by linarith) hr0.le]
    linarith
  · have hs2 : s ≤ 1 / 2 := by linarith
    have h2 := log_le_half hu (show r0 + s ≤ 2 - r0 - s by linarith)
    have e1 : ((2 - r0 - s) ^ 2 - (r0 + s) ^ 2) / (2 * (r0 + s) * (2 - r0 - s)) = 2 * (1 - (r0 + s)) / ((r0 + s) * (2 - r0 - s)) := by
      have := hu.ne'; have := hw.ne'
      field_simp; ring
    rw [e1] at h2
    have hu2 : 75 / 100 ≤ r0 + s := by linarith
    have h3 : 2 * (1 - (r0 + s)) / ((r0 + s) * (2 - r0 - s)) ≤ 535 / 1000 := by
      rw [div_le_iff₀ (by positivity)]
      nlinarith
    have h4 : 1315 / 1000 ≤ 2 * (2 * s - r0) / r0 := by
      rw [le_div_iff₀ hr0]
      have : r0 ≤ 547 / 1000 := by linarith
      linarith
    have h5 : 78 / 100 ≤ logs r0 r2 s := by rw [eL]; linarith
    have h6 : 6651 * (78 / 100) ≤ k * logs r0 r2 s := mul_le_mul hk h5 (by norm_num) (by linarith)
    linarith

/-- Above 800 K the energy curves upwards wherever its slope vanishes. -/
theorem up {k r0 r2 s : ℝ} (hk : 6651 ≤ k) (h : In r0 r2 s) (h0 : slope k r0 r2 s = 0) : 0 < curv k r0 r2 s := by
  rcases le_or_gt (16000 + 34354 * r0 - 76708 * s) 0 with hl | hl
  · exact absurd h0 (high hk h hl).ne'
  have hk0 : 0 < k := by linarith
  unfold slope at h0
  have hL : logs r0 r2 s < 0 := by
    by_contra hc
    have := mul_nonneg hk0.le (not_lt.mp hc)
    linarith
  set c := (16000 + 34354 * r0 - 76708 * s) / 76708 with hc
  have hc1 : 76708 * c = 16000 + 34354 * r0 - 76708 * s := by rw [hc]; field_simp
  have hc0 : 0 < c := by rw [hc]; positivity
  have ht := tangent h hc1 hc0 hL
  set A := 1 / (r2 + s) + 1 / (r0 + s) + 1 / (r0 - s) + 1 / (2 - r0 - s) with hA
  unfold curv
  rw [← hA]
  have h1 := mul_pos hk0 ht
  have h2 : 0 < c * (k * A - 76708) := by
    have : c * (k * A - 76708) = k * (logs r0 r2 s + c * A) - (k * logs r0 r2 s + 76708 * c) := by ring
    rw [this, hc1, h0]; linarith
  exact pos_of_mul_pos_right h2 hc0.le

/-- `D2GDS0S0` is the derivative of `DGDS0`. -/
lemma slope_deriv (k : ℝ) {r0 r2 s : ℝ} (h : In r0 r2 s) : HasDerivAt (slope k r0 r2) (curv k r0 r2 s) s := by
  obtain ⟨hr2, hsum, ha, hu, hb⟩ := h
  have hw : 0 < 2 - r0 - s := by linarith
  have d1 := ((hasDerivAt_id' s).const_add r2).log ha.ne'
  have d2 := ((hasDerivAt_id' s).const_add r0).log hu.ne'
  have d3 := ((hasDerivAt_id' s).const_sub r0).log hb.ne'
  have d4 := ((hasDerivAt_id' s).const_sub (2 - r0)).log hw.ne'
  have d5 := ((hasDerivAt_id' s).const_mul 76708).const_sub (16000 + 34354 * r0)
  refine ((((((d1.add d2).sub d3).sub d4).const_mul k)).add d5).congr_deriv ?_
  unfold curv
  ring

lemma states_connected (r0 r2 : ℝ) : {s | In r0 r2 s}.OrdConnected :=
  ⟨fun _ hx _ hy _ hz => ⟨hx.na, hx.sum, by linarith [hx.si, hz.1], by linarith [hx.al2, hz.1], by linarith [hy.al1, hz.2]⟩⟩

/-- At most one stationary ordering state above 800 K. -/
theorem unique {k r0 r2 s s' : ℝ} (hk : 6651 ≤ k) (h : In r0 r2 s) (h' : In r0 r2 s') (h0 : slope k r0 r2 s = 0)
    (h0' : slope k r0 r2 s' = 0) : s = s' :=
  up_unique (states_connected r0 r2) (fun _ hx => slope_deriv k hx) (fun _ hx h => up hk hx h) h h' h0 h0'

/-- The slope is positive at every larger ordering state. -/
theorem sign {k r0 r2 s s' : ℝ} (hk : 6651 ≤ k) (h : In r0 r2 s) (h' : In r0 r2 s') (h0 : slope k r0 r2 s = 0) (hs : s < s') :
    0 < slope k r0 r2 s' :=
  up_sign (states_connected r0 r2) (fun _ hx => slope_deriv k hx) (fun _ hx h => up hk hx h) h h' h0 hs

/-- Where the slope is positive it stays positive at every larger ordering state: the stationary one lies below. -/
theorem above {k r0 r2 s s' : ℝ} (hk : 6651 ≤ k) (h : In r0 r2 s) (h' : In r0 r2 s') (h0 : 0 < slope k r0 r2 s) {e : ℝ}
    (he : In r0 r2 e) (e0 : slope k r0 r2 e = 0) (hs : s ≤ s') : e < s ∧ 0 < slope k r0 r2 s' := by
  have h1 : e < s := by
    rcases lt_trichotomy e s with h1 | h1 | h1
    · exact h1
    · rw [h1] at e0; exact absurd e0 h0.ne'
    · exact absurd (up_before (states_connected r0 r2) (fun _ hx => slope_deriv k hx) (fun _ hx h => up hk hx h) he h e0 h1)
        (not_lt.mpr h0.le)
  exact ⟨h1, sign hk he h' e0 (lt_of_lt_of_le h1 hs)⟩

lemma rt {t : ℝ} (ht : 800 < t) : 6651 ≤ R * t := by rw [R_val]; linarith

end

end Verif.Thermo.Ordering.MeliliteSlope
