import Verif.Thermo.OrderPack
import Mathlib.Dynamics.FixedPoints.Topology

/-!
Convergent ordering over two equivalent sites: the energy `T ((1+x) log (1+x) + (1-x) log (1-x)) - h x²` of a crystal in which
exchanging the two sites changes nothing. Below the critical temperature (`T < h`, with `T` the temperature times the gas
constant) there are exactly three stationary states, `0` and `±x`, and the ordered ones have the least energy.
-/

namespace Verif.Thermo.Ordering.Sym

open Finset Filter Topology

noncomputable section

/-- The derivative of the energy. -/
def slope (T h x : ℝ) : ℝ := T * (Real.log (1 + x) - Real.log (1 - x)) - 2 * h * x

/-- The energy. -/
def energy (T h x : ℝ) : ℝ := T * ((1 + x) * Real.log (1 + x) + (1 - x) * Real.log (1 - x)) - h * x ^ 2

lemma slope_odd (T h x : ℝ) : slope T h (-x) = -slope T h x := by
  unfold slope; rw [show 1 + -x = 1 - x by ring, show 1 - -x = 1 + x by ring]; ring

lemma energy_even (T h x : ℝ) : energy T h (-x) = energy T h x := by
  unfold energy; rw [show 1 + -x = 1 - x by ring, show 1 - -x = 1 + x by ring]; ring

lemma slope_zero (T h : ℝ) : slope T h 0 = 0 := by simp [slope]

/-- `log y < (y - 1/y)/2` for `y > 1`, at `y = (1+x)/(1-x)`. -/
lemma log_bound {x : ℝ} (h0 : 0 < x) (h1 : x < 1) : Real.log (1 + x) - Real.log (1 - x) < 2 * x / (1 - x ^ 2) := by
  have p : 0 < 1 - x := by linarith
  have q : 0 < 1 + x := by linarith
  have pq : 0 < 1 - x ^ 2 := by nlinarith
  set f : ℝ → ℝ := fun x => 2 * x / (1 - x ^ 2) - (Real.log (1 + x) - Real.log (1 - x)) with hf
  have d : ∀ y ∈ Set.Ico (0 : ℝ) 1, HasDerivAt f (4 * y ^ 2 / (1 - y ^ 2) ^ 2) y := by
    intro y hy
    have a : 1 - y ^ 2 ≠ 0 := by nlinarith [hy.1, hy.2]
    have b : 1 + y ≠ 0 := by linarith [hy.1]
    have c : 1 - y ≠ 0 := by linarith [hy.2]
    have d1 : HasDerivAt (fun y : ℝ => 2 * y) 2 y := by simpa using (hasDerivAt_id' y).const_mul 2
    have d2 : HasDerivAt (fun y : ℝ => 1 - y ^ 2) (-(2 * y)) y := by
      simpa using (hasDerivAt_pow 2 y).const_sub 1
    have d3 : HasDerivAt (fun y : ℝ => Real.log (1 + y)) (1 / (1 + y)) y := ((hasDerivAt_id' y).const_add 1).log b
    have d4 : HasDerivAt (fun y : ℝ => Real.log (1 - y)) (-1 / (1 - y)) y := ((hasDerivAt_id' y).const_sub 1).log c
    refine HasDerivAt.congr_deriv (f := f) ((d1.div d2 a).sub (d3.sub d4)) ?_
    have a' : 1 - y ^ 2 = (1 + y) * (1 - y) := by ring
    rw [a']
    field_simp
    ring
  have hmono : StrictMonoOn f (Set.Ico 0 1) := by
    refine strictMonoOn_of_deriv_pos (convex_Ico 0 1) (fun y hy => (d y hy).continuousAt.continuousWithinAt) ?_
    intro y hy
    rw [interior_Ico] at hy
    rw [(d y ⟨hy.1.le, hy.2⟩).deriv]
    have a : 1 - y ^ 2 ≠ 0 := by nlinarith [hy.1, hy.2]
    have := hy.1
    have : 0 < (1 - y ^ 2) ^ 2 := by positivity
    positivity
  have := hmono ⟨le_refl 0, one_pos⟩ ⟨h0.le, h1⟩ h0
  simp only [hf] at this
  norm_num at this
  linarith

/-- The energy has a strictly positive second derivative at every ordered stationary state. -/
theorem curvature {T h x : ℝ} (hT : 0 < T) (h0 : 0 < x) (h1 : x < 1) (hs : slope T h x = 0) :
    0 < T * (1 / (1 + x) + 1 / (1 - x)) - 2 * h := by
  have p : 0 < 1 - x := by linarith
  have q : 0 < 1 + x := by linarith
  have b := mul_lt_mul_of_pos_left (log_bound h0 h1) hT
  unfold slope at hs
  have e : T * (1 / (1 + x) + 1 / (1 - x)) = T * (2 * x / (1 - x ^ 2)) / x := by
    have : 1 - x ^ 2 = (1 + x) * (1 - x) := by ring
    rw [this]; field_simp; ring
  rw [e, sub_pos, lt_div_iff₀ h0]
  linarith

/-- The slope is strictly convex on `[0, 1)`. -/
lemma slope_convex {T h : ℝ} (hT : 0 < T) : StrictConvexOn ℝ (Set.Ico 0 1) (slope T h) := by
  have d : ∀ y ∈ Set.Ico (0 : ℝ) 1, HasDerivAt (slope T h) (T * (1 / (1 + y) + 1 / (1 - y)) - 2 * h) y := by
    intro y hy
    have b : 1 + y ≠ 0 := by linarith [hy.1]
    have c : 1 - y ≠ 0 := by linarith [hy.2]
    have d3 : HasDerivAt (fun y : ℝ => Real.log (1 + y)) (1 / (1 + y)) y := ((hasDerivAt_id' y).const_add 1).log b
    have d4 : HasDerivAt (fun y : ℝ => Real.log (1 - y)) (-1 / (1 - y)) y := ((hasDerivAt_id' y).const_sub 1).log c
    have := ((d3.sub d4).const_mul T).sub ((hasDerivAt_id' y).const_mul (2 * h))
    refine this.congr_deriv ?_
    ring
  refine StrictMonoOn.strictConvexOn_of_deriv (convex_Ico 0 1) (fun y hy => (d y hy).continuousAt.continuousWithinAt) ?_
  rw [interior_Ico]
  intro y hy z hz hyz
  rw [(d y ⟨hy.1.le, hy.2⟩).deriv, (d z ⟨hz.1.le, hz.2⟩).deriv]
  have k : 1 / (1 + y) + 1 / (1 - y) < 1 / (1 + z) + 1 / (1 - z) := by
    have e : ∀ w : ℝ, 0 < w → w < 1 → 1 / (1 + w) + 1 / (1 - w) = 2 / (1 - w ^ 2) := by
      intro w h0 h1
      have : 1 - w ^ 2 = (1 + w) * (1 - w) := by ring
      have a : 1 + w ≠ 0 := by linarith
      have b : 1 - w ≠ 0 := by linarith
      rw [this]; field_simp; ring
    rw [e y hy.1 hy.2, e z hz.1 hz.2]
    have : 0 < 1 - z ^ 2 := by nlinarith [hz.1, hz.2]
    refine div_lt_div_of_pos_left two_pos this ?_
    nlinarith [hy.1]
  nlinarith

/-- There is at most one stationary state with positive order. -/
theorem unique {T h a b : ℝ} (hT : 0 < T) (ha : 0 < a ∧ a < 1) (hb : 0 < b ∧ b < 1) (sa : slope T h a = 0)
    (sb : slope T h b = 0) : a = b := by
  have key : ∀ a b : ℝ, 0 < a → a < b → b < 1 → slope T h a = 0 → slope T h b = 0 → False := by
    intro a b ha hab hb sa sb
    have hb0 : 0 < b := ha.trans hab
    have c := (slope_convex (h := h) hT).2 (⟨le_refl 0, one_pos⟩ : (0 : ℝ) ∈ Set.Ico 0 1)
      (⟨hb0.le, hb⟩ : b ∈ Set.Ico (0 : ℝ) 1) hb0.ne
      (by rw [sub_pos, div_lt_one hb0]; exact hab : 0 < 1 - a / b) (by positivity : 0 < a / b) (by ring)
    simp only [smul_eq_mul, mul_zero, zero_add, slope_zero, sb] at c
    rw [show a / b * b = a by field_simp, sa] at c
    exact lt_irrefl _ c
  rcases lt_trichotomy a b with h | h | h
  · exact (key a b ha.1 h hb.2 sa sb).elim
  · exact h
  · exact (key b a hb.1 h ha.2 sb sa).elim

/-- Below the critical temperature disorder does not have the least energy. -/
theorem disorder {T h : ℝ} (hT : 0 < T) (hh : T < h) : ∃ x, 0 < x ∧ x < 1 ∧ energy T h x < energy T h 0 := by
  have hh0 : 0 < h := hT.trans hh
  set x := (1 - T / h) with hx
  have hq : T / h < 1 := (div_lt_one hh0).mpr hh
  have hq0 : 0 < T / h := by positivity
  have x0 : 0 < x := by linarith
  have x1 : x < 1 := by linarith
  refine ⟨x, x0, x1, ?_⟩
  have d : ∀ y ∈ Set.Icc (0 : ℝ) x, HasDerivAt (energy T h) (slope T h y) y := by
    intro y hy
    have b : 1 + y ≠ 0 := by linarith [hy.1]
    have c : 1 - y ≠ 0 := by linarith [hy.2]
    have e1 : HasDerivAt (fun y : ℝ => 1 + y) 1 y := (hasDerivAt_id' y).const_add 1
    have e2 : HasDerivAt (fun y : ℝ => 1 - y) (-1) y := (hasDerivAt_id' y).const_sub 1
    have := (((e1.mul (e1.log b)).add (e2.mul (e2.log c))).const_mul T).sub ((hasDerivAt_pow 2 y).const_mul h)
    refine this.congr_deriv ?_
    unfold slope
    field_simp
    norm_num
    ring
  have hanti : StrictAntiOn (energy T h) (Set.Icc 0 x) := by
    refine strictAntiOn_of_deriv_neg (convex_Icc 0 x) (fun y hy => (d y hy).continuousAt.continuousWithinAt) ?_
    intro y hy
    rw [interior_Icc] at hy
    rw [(d y ⟨hy.1.le, hy.2.le⟩).deriv]
    have hy1 : y < 1 := hy.2.trans x1
    have b := mul_lt_mul_of_pos_left (log_bound hy.1 hy1) hT
    have p : 0 < 1 - y ^ 2 := by nlinarith [hy.1]
    have k : T ≤ h * (1 - y ^ 2) := by
      have k1 : y ^ 2 ≤ x := by nlinarith [hy.1, hy.2]
      have k2 : T = h * (1 - x) := by rw [hx]; field_simp; ring
      rw [k2]
      exact mul_le_mul_of_nonneg_left (by linarith) hh0.le
    have k3 : T * (2 * y / (1 - y ^ 2)) ≤ 2 * h * y := by
      rw [mul_div_assoc', div_le_iff₀ p]
      nlinarith [hy.1]
    unfold slope
    linarith
  exact hanti ⟨le_refl 0, x0.le⟩ ⟨x0.le, le_refl x⟩ x0

/-- Second derivative of the energy. -/
def curv (T h x : ℝ) : ℝ := T * (1 / (1 + x) + 1 / (1 - x)) - 2 * h

lemma curv_even (T h x : ℝ) : curv T h (-x) = curv T h x := by
  unfold curv; rw [show 1 + -x = 1 - x by ring, show 1 - -x = 1 + x by ring, add_comm]

lemma slope_deriv (T h : ℝ) {y : ℝ} (h0 : 0 ≤ y) (h1 : y < 1) : HasDerivAt (slope T h) (curv T h y) y := by
  have b : 1 + y ≠ 0 := by linarith
  have c : 1 - y ≠ 0 := by linarith
  have d3 : HasDerivAt (fun y : ℝ => Real.log (1 + y)) (1 / (1 + y)) y := ((hasDerivAt_id' y).const_add 1).log b
  have d4 : HasDerivAt (fun y : ℝ => Real.log (1 - y)) (-1 / (1 - y)) y := ((hasDerivAt_id' y).const_sub 1).log c
  have := ((d3.sub d4).const_mul T).sub ((hasDerivAt_id' y).const_mul (2 * h))
  refine this.congr_deriv ?_
  unfold curv
  ring

lemma curv_mono {T h x y : ℝ} (hT : 0 < T) (h0 : 0 ≤ x) (hxy : x ≤ y) (h1 : y < 1) : curv T h x ≤ curv T h y := by
  have e : ∀ w : ℝ, 0 ≤ w → w < 1 → 1 / (1 + w) + 1 / (1 - w) = 2 / (1 - w ^ 2) := by
    intro w h0 h1
    have : 1 - w ^ 2 = (1 + w) * (1 - w) := by ring
    have a : 1 + w ≠ 0 := by linarith
    have b : 1 - w ≠ 0 := by linarith
    rw [this]; field_simp; ring
  unfold curv
  rw [e x h0 (hxy.trans_lt h1), e y (h0.trans hxy) h1]
  have p : 0 < 1 - y ^ 2 := by nlinarith
  have : 2 / (1 - x ^ 2) ≤ 2 / (1 - y ^ 2) := div_le_div_of_nonneg_left two_pos.le p (by nlinarith)
  nlinarith

/-- The tangent of the slope lies below it. -/
lemma tangent {T h x y : ℝ} (hT : 0 < T) (hx : 0 ≤ x ∧ x < 1) (hy : 0 ≤ y ∧ y < 1) :
    slope T h y + curv T h y * (x - y) ≤ slope T h x := by
  have c := (slope_convex (h := h) hT).convexOn
  rcases lt_trichotomy x y with q | q | q
  · have := c.slope_le_of_hasDerivAt hx hy q (slope_deriv T h hy.1 hy.2)
    rw [_root_.slope_def_field, div_le_iff₀ (by linarith)] at this
    linarith
  · rw [q]; simp
  · have := c.le_slope_of_hasDerivAt hy hx q (slope_deriv T h hy.1 hy.2)
    rw [_root_.slope_def_field, le_div_iff₀ (by linarith)] at this
    linarith

lemma slope_neg {T h x y : ℝ} (hT : 0 < T) (hy : 0 < y) (hyx : y < x) (hx : x < 1) (sx : slope T h x = 0) : slope T h y < 0 := by
  have hx0 : 0 < x := hy.trans hyx
  have c := (slope_convex (h := h) hT).2 (⟨le_refl 0, one_pos⟩ : (0 : ℝ) ∈ Set.Ico 0 1)
    (⟨hx0.le, hx⟩ : x ∈ Set.Ico (0 : ℝ) 1) hx0.ne
    (by rw [sub_pos, div_lt_one hx0]; exact hyx : 0 < 1 - y / x) (by positivity : 0 < y / x) (by ring)
  simp only [smul_eq_mul, mul_zero, zero_add, slope_zero, sx] at c
  rwa [show y / x * x = y by field_simp] at c

lemma slope_pos {T h x y : ℝ} (hT : 0 < T) (hx : 0 < x) (hxy : x < y) (hy : y < 1) (sx : slope T h x = 0) : 0 < slope T h y := by
  have hy0 : 0 < y := hx.trans hxy
  have c := (slope_convex (h := h) hT).2 (⟨le_refl 0, one_pos⟩ : (0 : ℝ) ∈ Set.Ico 0 1)
    (⟨hy0.le, hy⟩ : y ∈ Set.Ico (0 : ℝ) 1) hy0.ne
    (by rw [sub_pos, div_lt_one hy0]; exact hxy : 0 < 1 - x / y) (by positivity : 0 < x / y) (by ring)
  simp only [smul_eq_mul, mul_zero, zero_add, slope_zero] at c
  rw [show x / y * y = x by field_simp, sx] at c
  by_contra q
  push Not at q
  have : x / y * slope T h y ≤ 0 := mul_nonpos_of_nonneg_of_nonpos (by positivity) q
  linarith

/-- Above the critical temperature disorder is the only stationary state. -/
theorem only_disorder {T h y : ℝ} (hh : h < T) (hT : 0 < T) (hy : -1 < y ∧ y < 1) (sy : slope T h y = 0) : y = 0 := by
  have key : ∀ y : ℝ, 0 < y → y < 1 → 0 < slope T h y := by
    intro y h0 h1
    have t := tangent (h := h) hT (⟨h0.le, h1⟩ : 0 ≤ y ∧ y < 1) (⟨le_refl 0, one_pos⟩ : (0 : ℝ) ≤ 0 ∧ (0 : ℝ) < 1)
    have c : curv T h 0 = 2 * (T - h) := by unfold curv; norm_num; ring
    rw [slope_zero, c] at t
    have : 0 < 2 * (T - h) * (y - 0) := by
      have := mul_pos (sub_pos.mpr hh) h0
      nlinarith
    linarith
  rcases lt_trichotomy y 0 with q | q | q
  · have := key (-y) (by linarith) (by linarith)
    rw [slope_odd, sy] at this
    simp at this
  · exact q
  · exact absurd sy (key y q hy.2).ne'

/-- One Newton step, kept in `[e, 1 - e]`. -/
def newton (T h e y : ℝ) : ℝ := max (min (y - slope T h y / curv T h y) (1 - e)) e

section
variable {T h e x : ℝ}

/-- Where the energy is convex a Newton step lands beyond the ordered state. -/
lemma newton_beyond (hT : 0 < T) (he : 0 < e) (hx : 0 < x) (hx1 : x ≤ 1 - e) (sx : slope T h x = 0) {y : ℝ} (hy : 0 ≤ y ∧ y < 1)
    (hc : 0 < curv T h y) (hex : e ≤ x) : x ≤ newton T h e y ∧ newton T h e y ≤ 1 - e := by
  have t := tangent (h := h) hT (⟨hx.le, by linarith⟩ : 0 ≤ x ∧ x < 1) hy
  rw [sx] at t
  have k : x ≤ y - slope T h y / curv T h y := by
    rw [le_sub_comm, div_le_iff₀ hc]
    linarith
  exact ⟨le_max_of_le_left (le_min k hx1), max_le (min_le_right _ _) (by linarith)⟩

lemma newton_down (hT : 0 < T) (hx : 0 < x) (sx : slope T h x = 0) {y : ℝ} (hxy : x ≤ y) (hy : y < 1) (hex : e ≤ x) :
    newton T h e y ≤ y := by
  have hc : 0 < curv T h y := (curvature hT hx (hxy.trans_lt hy) sx).trans_le (curv_mono hT hx.le hxy hy)
  have hs : 0 ≤ slope T h y := by
    rcases hxy.eq_or_lt with q | q
    · rw [← q, sx]
    · exact (slope_pos hT hx q hy sx).le
  exact max_le ((min_le_left _ _).trans (by linarith [div_nonneg hs hc.le])) (hex.trans hxy)

/-- Newton's iteration, started where the energy is convex, converges to the ordered state. -/
theorem newton_tendsto (hT : 0 < T) (he : 0 < e) (hx : 0 < x) (hex : e ≤ x) (hx1 : x ≤ 1 - e) (sx : slope T h x = 0) {y : ℝ}
    (hy : 0 ≤ y ∧ y < 1) (hc : 0 < curv T h y) : Tendsto (fun n => (newton T h e)^[n] y) atTop (𝓝 x) := by
  set N := newton T h e with hN
  set z := N y with hz
  have b0 := newton_beyond hT he hx hx1 sx hy hc hex
  have inv : ∀ n, x ≤ N^[n] z ∧ N^[n] z ≤ 1 - e := by
    intro n
    induction n with
    | zero => exact b0
    | succ n ih =>
      rw [Function.iterate_succ_apply']
      have h1 : N^[n] z < 1 := by linarith [ih.2]
      exact newton_beyond hT he hx hx1 sx ⟨hx.le.trans ih.1, h1⟩
        ((curvature hT hx (ih.1.trans_lt h1) sx).trans_le (curv_mono hT hx.le ih.1 h1)) hex
  have anti : Antitone fun n => N^[n] z := by
    refine antitone_nat_of_succ_le fun n => ?_
    rw [Function.iterate_succ_apply']
    exact newton_down hT hx sx (inv n).1 (by linarith [(inv n).2]) hex
  have bdd : BddBelow (Set.range fun n => N^[n] z) := ⟨x, by rintro _ ⟨n, rfl⟩; exact (inv n).1⟩
  have lim := tendsto_atTop_ciInf anti bdd
  set L := ⨅ n, N^[n] z with hL
  have hxL : x ≤ L := ge_of_tendsto' lim fun n => (inv n).1
  have hL1 : L ≤ 1 - e := le_of_tendsto' lim fun n => (inv n).2
  have hL1' : L < 1 := by linarith
  have hcL : 0 < curv T h L := (curvature hT hx (hxL.trans_lt hL1') sx).trans_le (curv_mono hT hx.le hxL hL1')
  have cont : ContinuousAt N L := by
    have c1 := (slope_deriv T h (hx.le.trans hxL) hL1').continuousAt
    have c2 : ContinuousAt (curv T h) L := by
      unfold curv
      have a : 1 + L ≠ 0 := by linarith
      have b : 1 - L ≠ 0 := by linarith
      have a1 : ContinuousAt (fun L : ℝ => 1 / (1 + L)) L := continuousAt_const.div (by fun_prop) a
      have b1 : ContinuousAt (fun L : ℝ => 1 / (1 - L)) L := continuousAt_const.div (by fun_prop) b
      exact (continuousAt_const.mul (a1.add b1)).sub continuousAt_const
    exact (((continuousAt_id.sub (c1.div c2 hcL.ne')).min continuousAt_const).max continuousAt_const)
  have fix : N L = L := isFixedPt_of_tendsto_iterate lim cont
  have e : L = x := by
    by_contra q
    have q' : x < L := lt_of_le_of_ne hxL (Ne.symm q)
    have hs := slope_pos hT hx q' hL1' sx
    have hd := div_pos hs hcL
    have : N L < L := by
      rw [hN]
      exact max_lt (lt_of_le_of_lt (min_le_left _ _) (by linarith)) (hex.trans_lt q')
    exact absurd fix this.ne
  have l2 : Tendsto (fun n => N^[n + 1] y) atTop (𝓝 x) := by
    rw [← e]
    exact lim
  exact (tendsto_add_atTop_iff_nat 1).mp l2

/-- Started where the energy is not convex, it never gets near it. -/
theorem newton_lost (hT : 0 < T) (hx : 0 < x) (hx1 : x < 1) (sx : slope T h x = 0) {y : ℝ} (he : 0 < e) (hy : e ≤ y) (hyx : y < 1)
    (hc : curv T h y < 0) (n : ℕ) : e ≤ (newton T h e)^[n] y ∧ (newton T h e)^[n] y ≤ y ∧ y < x := by
  have hlt : y < x := by
    by_contra q
    push Not at q
    have := (curvature hT hx hx1 sx).trans_le (curv_mono hT hx.le q hyx)
    exact lt_asymm hc this
  induction n with
  | zero => exact ⟨hy, le_refl _, hlt⟩
  | succ n ih =>
    rw [Function.iterate_succ_apply']
    set w := (newton T h e)^[n] y
    have hw0 : 0 < w := he.trans_le ih.1
    have hcw : curv T h w < 0 := (curv_mono hT hw0.le ih.2.1 hyx).trans_lt hc
    have hsw : slope T h w < 0 := slope_neg hT hw0 (ih.2.1.trans_lt hlt) hx1 sx
    have : 0 < slope T h w / curv T h w := div_pos_of_neg_of_neg hsw hcw
    exact ⟨le_max_right _ _, max_le ((min_le_left _ _).trans (by linarith [ih.2.1])) hy, hlt⟩

end

end

end Verif.Thermo.Ordering.Sym
