import Verif.Thermo.MiscibilityGarnet

/-!
# C85: miscibility of leucite

The ideal part of leucite's energy of mixing (potassium and sodium on the large sites and, with water, on the small ones) is a
sum of a function of the potassium content and one of the water content; the two are coupled by one term.
-/

open Set

namespace Magma.Thermo.Mixing

open Magma.Thermo.Extensive Magma.Thermo.Compo

noncomputable section

lemma line_at (x d s : ℝ) : HasDerivAt (fun s : ℝ => x + s * d) d s := by
  simpa using ((hasDerivAt_id s).mul_const d).const_add x

lemma xlog_d1 {a d s : ℝ} (h : 0 < a + s * d) :
    HasDerivAt (fun s => (a + s * d) * Real.log (a + s * d)) (d * Real.log (a + s * d) + d) s := by
  refine ((line_at a d s).mul ((line_at a d s).log h.ne')).congr_deriv ?_
  rw [← mul_div_assoc, mul_div_cancel_left₀ _ h.ne']

lemma xlog_d2 {a d s : ℝ} (h : 0 < a + s * d) :
    HasDerivAt (fun s => d * Real.log (a + s * d) + d) (d ^ 2 / (a + s * d)) s := by
  refine ((((line_at a d s).log h.ne').const_mul d).add_const d).congr_deriv ?_
  rw [sq, mul_div_assoc]

/-- The energy of mixing at potassium content `x` and water content `y`. -/
def leuE (t x y : ℝ) : ℝ :=
  R * t * (x * Real.log x + (1 - x) * Real.log (1 - x) + ((1 - y) * Real.log (1 - y) + 2 * (y * Real.log y)) +
      3 / 2 * ((1 - 2 * y / 3) * Real.log (1 - 2 * y / 3)) - y * (1 / 2 * Real.log (2 / 3) + 1 / 2 * Real.log (1 / 2))) +
    (7000 * (x * (1 - x)) + 7000 * (y * (1 - y)) + 53000 * (x * y))

lemma mul_log_mul (x y : ℝ) : x * y * Real.log (x * y) = x * y * (Real.log x + Real.log y) := by
  by_cases hx : x = 0
  · simp [hx]
  · by_cases hy : y = 0
    · simp [hy]
    · rw [Real.log_mul hx hy]

lemma leucite_energy (t p r0 r1 : ℝ) : Leucite.G t p r0 r1 (r0 * (1 - r1)) ((1 - r0) * (1 - r1)) r1 (2 * r0 * r1 / 3)
    (2 * (1 - r0) * r1 / 3) (1 - 2 * r1 / 3) = leuE t r0 r1 := by
  have e1 := mul_log_mul r0 (1 - r1)
  have e2 := mul_log_mul (1 - r0) (1 - r1)
  have e3 := mul_log_mul r0 (r1 * (2 / 3))
  have e4 := mul_log_mul (1 - r0) (r1 * (2 / 3))
  have e5 := mul_log_mul r1 (2 / 3)
  have e6 : r1 * (Real.log (r1 * (2 / 3))) = r1 * (Real.log r1 + Real.log (2 / 3)) := by linarith
  rw [show r0 * (r1 * (2 / 3)) = 2 * r0 * r1 / 3 by ring] at e3
  rw [show (1 - r0) * (r1 * (2 / 3)) = 2 * (1 - r0) * r1 / 3 by ring] at e4
  simp only [Leucite.G, Leucite.H, Leucite.S, Leucite.V, Leucite.G0, Leucite.GX, Leucite.GY, Leucite.GXX, Leucite.GYY,
    Leucite.GXY, Leucite.WNAK, Leucite.WNAH, Leucite.DGR, leuE]
  linear_combination R * t * (e1 + e2 + 3 / 2 * e3 + 3 / 2 * e4 + e6)

/-- The ideal curvature in the water content. -/
lemma water_curve {y : ℝ} (y0 : 0 < y) (y1 : y < 1) : 69 / 10 ≤ 2 / y + 1 / (1 - y) + 1 / (3 / 2 - y) := by
  have a : 0 < 1 - y := by linarith
  have b : 0 < 3 / 2 - y := by linarith
  have e : 2 / y + 1 / (1 - y) + 1 / (3 / 2 - y) - 69 / 10 =
      (2 * (1 - y) * (3 / 2 - y) + y * (3 / 2 - y) + y * (1 - y) - 69 / 10 * (y * (1 - y) * (3 / 2 - y))) /
        (y * (1 - y) * (3 / 2 - y)) := by
    have n : 3 - 2 * y ≠ 0 := by linarith
    field_simp
  have : 0 ≤ 2 / y + 1 / (1 - y) + 1 / (3 / 2 - y) - 69 / 10 := by
    rw [e]
    refine div_nonneg ?_ (by positivity)
    nlinarith [mul_nonneg a.le (sq_nonneg (y - 14 / 25)), mul_nonneg b.le (sq_nonneg (y - 14 / 25)), sq_nonneg (y - 14 / 25)]
  linarith

lemma leu_curve {t x y d e : ℝ} (ht : 1550 ≤ t) (x0 : 0 < x) (x1 : x < 1) (y0 : 0 < y) (y1 : y < 1) :
    R * t / 500 * (d ^ 2 + e ^ 2) ≤
      R * t * (d ^ 2 / x + d ^ 2 / (1 - x) + (e ^ 2 / (1 - y) + 2 * (e ^ 2 / y)) + e ^ 2 / (3 / 2 - y)) +
        (7000 * (-2 * d ^ 2) + 7000 * (-2 * e ^ 2) + 53000 * (2 * (d * e))) := by
  have hRt : 12887 ≤ R * t := by unfold R; linarith
  have a : 0 < 1 - x := by linarith
  have k1 : 4 ≤ 1 / x + 1 / (1 - x) := by
    have : 1 / x + 1 / (1 - x) - 4 = (1 - 2 * x) ^ 2 / (x * (1 - x)) := by
      field_simp
      ring
    have : 0 ≤ 1 / x + 1 / (1 - x) - 4 := by rw [this]; positivity
    linarith
  have k2 := water_curve y0 y1
  have m1 := mul_le_mul_of_nonneg_left k1 (show 0 ≤ R * t * d ^ 2 by nlinarith [sq_nonneg d])
  have m2 := mul_le_mul_of_nonneg_left k2 (show 0 ≤ R * t * e ^ 2 by nlinarith [sq_nonneg e])
  have n1 := mul_le_mul_of_nonneg_right hRt (sq_nonneg d)
  have n2 := mul_le_mul_of_nonneg_right hRt (sq_nonneg e)
  have e1 : R * t * d ^ 2 * (1 / x + 1 / (1 - x)) = R * t * (d ^ 2 / x + d ^ 2 / (1 - x)) := by ring
  have e2 : R * t * e ^ 2 * (2 / y + 1 / (1 - y) + 1 / (3 / 2 - y)) =
      R * t * (e ^ 2 / (1 - y) + 2 * (e ^ 2 / y) + e ^ 2 / (3 / 2 - y)) := by ring
  rw [e1] at m1
  rw [e2] at m2
  nlinarith [sq_nonneg (d + 53000 / 37522 * e), sq_nonneg d, sq_nonneg e]

lemma leuE_line {t x y X Y : ℝ} (ht : 1550 ≤ t) (x0 : 0 < x) (x1 : x < 1) (y0 : 0 < y) (y1 : y < 1)
    (X0 : 0 ≤ X) (X1 : X ≤ 1) (Y0 : 0 ≤ Y) (Y1 : Y ≤ 1) :
    ConvexOn ℝ (Icc 0 1) fun s => leuE t (x + s * (X - x)) (y + s * (Y - y)) -
      R * t / 1000 * ((X - x) ^ 2 + (Y - y) ^ 2) * s ^ 2 := by
  have pos : ∀ {a b s : ℝ}, 0 < a → 0 ≤ b → 0 < s → s < 1 → 0 < a + s * (b - a) := by
    intro a b s ha hb s0 s1
    nlinarith [mul_pos ha (sub_pos.2 s1), mul_nonneg s0.le hb]
  obtain ⟨c, hc⟩ : ∃ c, c = 1 / 2 * Real.log (2 / 3) + 1 / 2 * Real.log (1 / 2) := ⟨_, rfl⟩
  obtain ⟨d, hd⟩ : ∃ d, d = X - x := ⟨_, rfl⟩
  obtain ⟨e, he⟩ : ∃ e, e = Y - y := ⟨_, rfl⟩
  obtain ⟨μ, hμ⟩ : ∃ μ, μ = R * t / 1000 * (d ^ 2 + e ^ 2) := ⟨_, rfl⟩
  have form : (fun s => leuE t (x + s * (X - x)) (y + s * (Y - y)) - R * t / 1000 * ((X - x) ^ 2 + (Y - y) ^ 2) * s ^ 2) =
      fun s => R * t * ((x + s * d) * Real.log (x + s * d) + (1 - x + s * -d) * Real.log (1 - x + s * -d) +
          ((1 - y + s * -e) * Real.log (1 - y + s * -e) + 2 * ((y + s * e) * Real.log (y + s * e))) +
          3 / 2 * ((1 - 2 * y / 3 + s * (-2 * e / 3)) * Real.log (1 - 2 * y / 3 + s * (-2 * e / 3))) - (y + s * e) * c) +
        (7000 * ((x + s * d) * (1 - x + s * -d)) + 7000 * ((y + s * e) * (1 - y + s * -e)) + 53000 * ((x + s * d) * (y + s * e))) -
        μ * s ^ 2 := by
    funext s
    rw [hμ, hd, he, leuE, hc]
    rw [show 1 - (x + s * (X - x)) = 1 - x + s * -(X - x) by ring, show 1 - (y + s * (Y - y)) = 1 - y + s * -(Y - y) by ring,
      show 1 - 2 * (y + s * (Y - y)) / 3 = 1 - 2 * y / 3 + s * (-2 * (Y - y) / 3) by ring]
  rw [form]
  have px : ∀ s, 0 < s → s < 1 → 0 < x + s * d := fun s i j => by rw [hd]; exact pos x0 X0 i j
  have px' : ∀ s, 0 < s → s < 1 → 0 < 1 - x + s * -d := fun s i j => by
    have := pos (show 0 < 1 - x by linarith) (show 0 ≤ 1 - X by linarith) i j
    rw [hd]; linarith
  have py : ∀ s, 0 < s → s < 1 → 0 < y + s * e := fun s i j => by rw [he]; exact pos y0 Y0 i j
  have py' : ∀ s, 0 < s → s < 1 → 0 < 1 - y + s * -e := fun s i j => by
    have := pos (show 0 < 1 - y by linarith) (show 0 ≤ 1 - Y by linarith) i j
    rw [he]; linarith
  have pv : ∀ s, 0 < s → s < 1 → 0 < 1 - 2 * y / 3 + s * (-2 * e / 3) := fun s i j => by
    have := py' s i j
    linarith
  have cx : ∀ a b : ℝ, Continuous fun s => (a + s * b) * Real.log (a + s * b) := fun a b =>
    Real.continuous_mul_log.comp (continuous_iff_continuousAt.2 fun s => (line_at a b s).continuousAt)
  refine convexOn_of_hasDerivWithinAt2_nonneg (convex_Icc 0 1)
    (f' := fun s => R * t * ((d * Real.log (x + s * d) + d) + (-d * Real.log (1 - x + s * -d) + -d) +
        ((-e * Real.log (1 - y + s * -e) + -e) + 2 * (e * Real.log (y + s * e) + e)) +
        3 / 2 * (-2 * e / 3 * Real.log (1 - 2 * y / 3 + s * (-2 * e / 3)) + -2 * e / 3) - e * c) +
      (7000 * (d * (1 - x + s * -d) + (x + s * d) * -d) + 7000 * (e * (1 - y + s * -e) + (y + s * e) * -e) +
        53000 * (d * (y + s * e) + (x + s * d) * e)) - μ * (2 * s))
    (f'' := fun s => R * t * (d ^ 2 / (x + s * d) + (-d) ^ 2 / (1 - x + s * -d) +
        ((-e) ^ 2 / (1 - y + s * -e) + 2 * (e ^ 2 / (y + s * e))) +
        3 / 2 * ((-2 * e / 3) ^ 2 / (1 - 2 * y / 3 + s * (-2 * e / 3)))) +
      (7000 * (d * -d + d * -d) + 7000 * (e * -e + e * -e) + 53000 * (d * e + d * e)) - μ * 2) ?_ ?_ ?_ ?_
  · have cl : ∀ a b : ℝ, Continuous fun s : ℝ => a + s * b := fun a b =>
      continuous_iff_continuousAt.2 fun s => (line_at a b s).continuousAt
    exact (((continuous_const.mul (((((cx _ _).add (cx _ _)).add ((cx _ _).add (continuous_const.mul (cx _ _)))).add
      (continuous_const.mul (cx _ _))).sub ((cl _ _).mul continuous_const))).add
      (((continuous_const.mul ((cl _ _).mul (cl _ _))).add (continuous_const.mul ((cl _ _).mul (cl _ _)))).add
        (continuous_const.mul ((cl _ _).mul (cl _ _))))).sub (continuous_const.mul (continuous_pow 2))).continuousOn
  · intro s hs
    rw [interior_Icc] at hs
    obtain ⟨s0, s1⟩ := hs
    have sq : HasDerivAt (fun s : ℝ => s ^ 2) (2 * s) s := by simpa using hasDerivAt_pow 2 s
    exact ((((((((xlog_d1 (px s s0 s1)).add (xlog_d1 (px' s s0 s1))).add
      ((xlog_d1 (py' s s0 s1)).add ((xlog_d1 (py s s0 s1)).const_mul 2))).add
      ((xlog_d1 (pv s s0 s1)).const_mul (3 / 2))).sub ((line_at y e s).mul_const c)).const_mul (R * t)).add
      (((((line_at x d s).mul (line_at (1 - x) (-d) s)).const_mul 7000).add
        (((line_at y e s).mul (line_at (1 - y) (-e) s)).const_mul 7000)).add
        (((line_at x d s).mul (line_at y e s)).const_mul 53000))).sub (sq.const_mul μ)).hasDerivWithinAt
  · intro s hs
    rw [interior_Icc] at hs
    obtain ⟨s0, s1⟩ := hs
    have two : HasDerivAt (fun s : ℝ => 2 * s) 2 s := by simpa using (hasDerivAt_id s).const_mul (2 : ℝ)
    exact ((((((((xlog_d2 (px s s0 s1)).add (xlog_d2 (px' s s0 s1))).add
      ((xlog_d2 (py' s s0 s1)).add ((xlog_d2 (py s s0 s1)).const_mul 2))).add
      ((xlog_d2 (pv s s0 s1)).const_mul (3 / 2))).sub_const (e * c)).const_mul (R * t)).add
      ((((((line_at (1 - x) (-d) s).const_mul d).add ((line_at x d s).mul_const (-d))).const_mul 7000).add
        ((((line_at (1 - y) (-e) s).const_mul e).add ((line_at y e s).mul_const (-e))).const_mul 7000)).add
        ((((line_at y e s).const_mul d).add ((line_at x d s).mul_const e)).const_mul 53000))).sub (two.const_mul μ)).hasDerivWithinAt
  · intro s hs
    rw [interior_Icc] at hs
    obtain ⟨s0, s1⟩ := hs
    have i := px s s0 s1
    have i' := px' s s0 s1
    have j := py s s0 s1
    have j' := py' s s0 s1
    have := leu_curve (d := d) (e := e) ht i (by linarith) j (by linarith)
    rw [show 1 - (x + s * d) = 1 - x + s * -d by ring, show 1 - (y + s * e) = 1 - y + s * -e by ring] at this
    have v : 3 / 2 * ((-2 * e / 3) ^ 2 / (1 - 2 * y / 3 + s * (-2 * e / 3))) = e ^ 2 / (3 / 2 - (y + s * e)) := by
      have n := (pv s s0 s1).ne'
      have n' : 3 / 2 - (y + s * e) ≠ 0 := by linarith
      rw [mul_div_assoc', div_eq_div_iff n n']
      ring
    rw [v, hμ, neg_sq, neg_sq]
    linarith

lemma leu_clamp {t : ℝ} (ht : 0 < t) (p : ℝ) {u v : ℝ} (u0 : 0 ≤ u) (u1 : u ≤ 1) (v0 : 0 ≤ v) (v1 : v ≤ 1) :
    leuE t u v - 271 * eps * (R * t) ≤ Leucite.mix.g t p ![u, v] := by
  have hRt : 0 < R * t := mul_pos R_pos ht
  have e0 := eps_pos
  have a0 : 0 ≤ 1 - u := by linarith
  have b0 : 0 ≤ 1 - v := by linarith
  have k0 := clamp_log (mul_nonneg u0 b0) (mul_le_one₀ u1 b0 (by linarith))
  have k1 := clamp_log (mul_nonneg a0 b0) (mul_le_one₀ (by linarith) b0 (by linarith))
  have k2 := clamp_log v0 v1
  have uv : u * v ≤ 1 := mul_le_one₀ u1 v0 v1
  have av : (1 - u) * v ≤ 1 := mul_le_one₀ (by linarith) v0 v1
  have uv0 : 0 ≤ u * v := mul_nonneg u0 v0
  have av0 : 0 ≤ (1 - u) * v := mul_nonneg a0 v0
  have k3 := clamp_log (x := 2 * u * v / 3) (by linarith) (by linarith)
  have k4 := clamp_log (x := 2 * (1 - u) * v / 3) (by linarith) (by linarith)
  have k5 := clamp_log (x := 1 - 2 * v / 3) (by linarith) (by linarith)
  have l := mul_le_mul_of_nonneg_left (add_le_add (add_le_add (add_le_add k0 k1) k2)
    (mul_le_mul_of_nonneg_left (add_le_add (add_le_add k3 k4) k5) (show (0 : ℝ) ≤ 3 / 2 by norm_num))) hRt.le
  have q := mul_nonneg e0.le hRt.le
  rw [← leucite_energy t p]
  show _ ≤ Leucite.G t p u v (clamp (u * (1 - v))) (clamp ((1 - u) * (1 - v))) (clamp v) (clamp (2 * u * v / 3))
    (clamp (2 * (1 - u) * v / 3)) (clamp (1 - 2 * v / 3))
  simp only [Leucite.G, Leucite.H, Leucite.S, Leucite.V]
  linarith

/-- Away from the edges nothing is clamped. -/
lemma leu_inside {u v : ℝ} (u0 : 1 / 1000000 ≤ u) (u1 : u ≤ 1 - 1 / 1000000) (v0 : 1 / 1000000 ≤ v) (v1 : v ≤ 1 - 1 / 1000000) :
    Interior Leucite.raw ![u, v] := by
  have he : eps < 1 / 10000000000000 := by unfold eps; norm_num
  have pr : ∀ {a b : ℝ}, 1 / 1000000 ≤ a → 1 / 1000000 ≤ b → 1 / 1000000000000 ≤ a * b := fun ha hb => by
    have := mul_le_mul ha hb (by norm_num) (by linarith)
    linarith
  have a := pr u0 v0
  have b := pr (show 1 / 1000000 ≤ 1 - u by linarith) v0
  have c := pr u0 (show 1 / 1000000 ≤ 1 - v by linarith)
  have d := pr (show 1 / 1000000 ≤ 1 - u by linarith) (show 1 / 1000000 ≤ 1 - v by linarith)
  intro k
  fin_cases k
  · show u * (1 - v) > eps; linarith
  · show (1 - u) * (1 - v) > eps; linarith
  · show v > eps; linarith
  · show 2 * u * v / 3 > eps; linarith
  · show 2 * (1 - u) * v / 3 > eps; linarith
  · show 1 - 2 * v / 3 > eps; linarith

lemma leu_g {u v : ℝ} (t p : ℝ) (h : Interior Leucite.raw ![u, v]) : Leucite.mix.g t p ![u, v] = leuE t u v := by
  rw [← leucite_energy t p]
  show Leucite.G t p u v (clamp (Leucite.raw ![u, v] 0)) (clamp (Leucite.raw ![u, v] 1)) (clamp (Leucite.raw ![u, v] 2))
    (clamp (Leucite.raw ![u, v] 3)) (clamp (Leucite.raw ![u, v] 4)) (clamp (Leucite.raw ![u, v] 5)) = _
  rw [clamp_of (h 0), clamp_of (h 1), clamp_of (h 2), clamp_of (h 3), clamp_of (h 4), clamp_of (h 5)]
  rfl

lemma vec2 (r : ℕ → ℝ) : (fun i : Fin 2 => r i) = ![r 0, r 1] := by
  funext i; fin_cases i <;> rfl

/-- **C85.**  Leucite is one solution from 1550 K up at every composition in which leucite and analcime each make up
between a ten-thousandth and all but a ten-thousandth; the amount of the third end member may be negative. -/
theorem C85_leucite {t p : ℝ} (ht : 1550 ≤ t) (h0 : ℕ → ℝ) (N : ℕ) (m : ℕ → ℝ)
    (hm : 0 < m 0 + m 1 + m 2) (hmin : ∀ i < 2, (m 0 + m 1 + m 2) / 10000 ≤ m i)
    (hmax : ∀ i < 2, m i ≤ (1 - 1 / 10000) * (m 0 + m 1 + m 2)) :
    Engine.Unmix.split (solution3 Leucite.mix Leucite.dep t p) h0 N m = none := by
  have t0 : 0 < t := by linarith
  have hRt : 0 < R * t := mul_pos R_pos t0
  have e0 := eps_pos
  cases h : Engine.Unmix.split (solution3 Leucite.mix Leucite.dep t p) h0 N m with
  | none => rfl
  | some r =>
    exfalso
    obtain ⟨r', y, e1, e2, -⟩ := Engine.Unmix.C74_below_tangent h
    obtain ⟨b, hb⟩ : ∃ b, b = Engine.Unmix.ref (solution3 Leucite.mix Leucite.dep t p) m := ⟨_, rfl⟩
    rw [← hb] at e2
    have hy : (0 ≤ y 0 ∧ y 0 ≤ 1) ∧ 0 ≤ y 1 ∧ y 1 ≤ 1 := by
      simp only [solution3] at e1
      split_ifs at e1 with hc
      injection e1 with e1
      rw [← e1]; exact hc
    have ht' : total (fun k : Fin 3 => m k) = m 0 + m 1 + m 2 := by simp [total, Fin.sum_univ_three]
    have b0 : b 0 = m 0 / (m 0 + m 1 + m 2) := by
      rw [hb]
      simp [Engine.Unmix.ref, solution3, toR, ht', hm.ne', Leucite.dep, Fin.succAbove]
    have b1 : b 1 = m 1 / (m 0 + m 1 + m 2) := by
      rw [hb]
      simp [Engine.Unmix.ref, solution3, toR, ht', hm.ne', Leucite.dep, Fin.succAbove]
    have hb0 : 1 / 10000 ≤ b 0 ∧ b 0 ≤ 1 - 1 / 10000 := by
      rw [b0, le_div_iff₀ hm, div_le_iff₀ hm]
      exact ⟨by linarith [hmin 0 (by norm_num)], hmax 0 (by norm_num)⟩
    have hb1 : 1 / 10000 ≤ b 1 ∧ b 1 ≤ 1 - 1 / 10000 := by
      rw [b1, le_div_iff₀ hm, div_le_iff₀ hm]
      exact ⟨by linarith [hmin 1 (by norm_num)], hmax 1 (by norm_num)⟩
    have hI := leu_inside (u := b 0) (v := b 1) (by linarith [hb0.1]) (by linarith [hb0.2]) (by linarith [hb1.1]) (by linarith [hb1.2])
    obtain ⟨D, hD⟩ : ∃ D, D = (y 0 - b 0) ^ 2 + (y 1 - b 1) ^ 2 := ⟨_, rfl⟩
    obtain ⟨f, hf⟩ : ∃ f : ℝ → ℝ, f = fun s => leuE t (b 0 + s * (y 0 - b 0)) (b 1 + s * (y 1 - b 1)) - R * t / 1000 * D * s ^ 2 :=
      ⟨_, rfl⟩
    have hconv : ConvexOn ℝ (Icc 0 1) f := by
      rw [hf, hD]
      exact leuE_line ht (by linarith [hb0.1]) (by linarith [hb0.2]) (by linarith [hb1.1]) (by linarith [hb1.2])
        hy.1.1 hy.1.2 hy.2.1 hy.2.2
    have hder : HasDerivAt f (Leucite.mix.gr t p ![b 0, b 1] 0 * (y 0 - b 0) + Leucite.mix.gr t p ![b 0, b 1] 1 * (y 1 - b 1)) 0 := by
      have hd := Leucite.consistent.g_r t p _ hI
      unfold Grad at hd
      have hc : HasDerivAt (fun s : ℝ => ![b 0 + s * (y 0 - b 0), b 1 + s * (y 1 - b 1)]) ![y 0 - b 0, y 1 - b 1] 0 := by
        refine hasDerivAt_pi.2 fun i => ?_
        fin_cases i
        · exact line_at _ _ _
        · exact line_at _ _ _
      have := HasFDerivAt.comp_hasDerivAt_of_eq (0 : ℝ) hd hc (by simp)
      have sq : HasDerivAt (fun s : ℝ => R * t / 1000 * D * s ^ 2) 0 0 := by
        simpa using (hasDerivAt_pow 2 (0 : ℝ)).const_mul (R * t / 1000 * D)
      refine ((this.sub sq).congr_deriv (by simp [Fin.sum_univ_two])).congr_of_eventuallyEq ?_
      have c : ∀ a d : ℝ, 1 / 10000 ≤ a → ∀ᶠ s in nhds (0 : ℝ), 1 / 1000000 < a + s * d := fun a d ha =>
        (line_at a d 0).continuousAt.eventually (lt_mem_nhds (by simp only [zero_mul, add_zero]; linarith))
      filter_upwards [c _ (y 0 - b 0) hb0.1, c _ (y 1 - b 1) hb1.1, c (1 - b 0) (-(y 0 - b 0)) (by linarith [hb0.2]),
        c (1 - b 1) (-(y 1 - b 1)) (by linarith [hb1.2])] with s i j k l
      show f s = Leucite.mix.g t p ![b 0 + s * (y 0 - b 0), b 1 + s * (y 1 - b 1)] - _
      rw [leu_g t p (leu_inside i.le (by linarith) j.le (by linarith)), hf]
    have htan := tangent hconv (b := 0) (x := 1) (by simp) (by simp) hder
    have f0 : f 0 = Leucite.mix.g t p ![b 0, b 1] := by
      rw [leu_g t p hI, hf]; simp
    have f1 : f 1 = leuE t (y 0) (y 1) - R * t / 1000 * D := by rw [hf]; simp
    have D0 : 0 ≤ R * t / 1000 * D := by rw [hD]; positivity
    -- the energy at `y` is not below the tangent
    have key : f 1 ≤ Leucite.mix.g t p ![y 0, y 1] := by
      rw [f1]
      by_cases hin : (1 / 1000000 ≤ y 0 ∧ y 0 ≤ 1 - 1 / 1000000) ∧ 1 / 1000000 ≤ y 1 ∧ y 1 ≤ 1 - 1 / 1000000
      · rw [leu_g t p (leu_inside hin.1.1 hin.1.2 hin.2.1 hin.2.2)]
        linarith
      · have far : (99 / 1000000) ^ 2 ≤ D := by
          rw [hD]
          have q : ∀ {a c : ℝ}, (1 / 10000 ≤ c ∧ c ≤ 1 - 1 / 10000) → ¬(1 / 1000000 ≤ a ∧ a ≤ 1 - 1 / 1000000) →
              (99 / 1000000) ^ 2 ≤ (a - c) ^ 2 := by
            intro a c hc ha
            rw [not_and_or, not_le, not_le] at ha
            rcases ha with ha | ha
            · rw [← neg_sq (a - c)]; exact pow_le_pow_left₀ (by norm_num) (by linarith [hc.1]) 2
            · exact pow_le_pow_left₀ (by norm_num) (by linarith [hc.2]) 2
          rw [not_and_or] at hin
          rcases hin with i | i
          · linarith [q hb0 i, sq_nonneg (y 1 - b 1)]
          · linarith [q hb1 i, sq_nonneg (y 0 - b 0)]
        have := leu_clamp t0 p hy.1.1 hy.1.2 hy.2.1 hy.2.2
        have k := mul_le_mul_of_nonneg_left far hRt.le
        have he : 271 * eps ≤ (99 / 1000000) ^ 2 / 1000 := by unfold eps; norm_num
        have k' := mul_le_mul_of_nonneg_right he hRt.le
        linarith
    have hna : (solution3 Leucite.mix Leucite.dep t p).na = 3 := rfl
    have hgm : ∀ r : ℕ → ℝ, (solution3 Leucite.mix Leucite.dep t p).gmix r = Leucite.mix.g t p ![r 0, r 1] := fun r => by
      rw [← vec2]; rfl
    have hdg : ∀ r : ℕ → ℝ, (solution3 Leucite.mix Leucite.dep t p).dgmix r 0 = Leucite.mix.gr t p ![r 0, r 1] 0 ∧
        (solution3 Leucite.mix Leucite.dep t p).dgmix r 1 = Leucite.mix.gr t p ![r 0, r 1] 1 := fun r => by
      rw [← vec2]; exact ⟨rfl, rfl⟩
    have hsm : 0 ≤ Engine.Saturation.small := by unfold Engine.Saturation.small; exact Real.sqrt_nonneg _
    rw [hna, show 3 - 1 = 2 from rfl, Finset.sum_range_succ, Finset.sum_range_one, (hdg b).1, (hdg b).2, hgm, hgm] at e2
    have := mul_nonneg hsm (abs_nonneg (Leucite.mix.g t p ![b 0, b 1]))
    rw [f0] at htan
    linarith

/-- **C85.**  Up to 1547 K leucite with equal potassium and sodium and 14 parts in 25 of water loses energy by separating into
one with more potassium and less water and one with less potassium and more water. -/
theorem C85_leucite_gap {t p : ℝ} (h : t ≤ 1547) :
    ∃ s, 0 < s ∧ s < 1 / 2 ∧ ∀ h, 0 < h → h ≤ s →
      (Leucite.mix.g t p ![1 / 2 - h, 14 / 25 + 7 / 10 * h] + Leucite.mix.g t p ![1 / 2 + h, 14 / 25 - 7 / 10 * h]) / 2 <
        Leucite.mix.g t p ![1 / 2, 14 / 25] := by
  obtain ⟨d, hd⟩ : ∃ d : ℝ → Fin 2 → ℝ, d = fun y => ![y, 14 / 25 - 7 / 10 * (y - 1 / 2)] := ⟨_, rfl⟩
  have hI : ∀ y, 1 / 100 < y → y < 99 / 100 → Interior Leucite.raw (d y) := fun y a b => by
    rw [hd]
    exact leu_inside (by linarith) (by linarith) (by linarith) (by linarith)
  have hc : ∀ y, HasDerivAt d ![1, -(7 / 10)] y := fun y => by
    rw [hd]
    refine hasDerivAt_pi.2 fun i => ?_
    fin_cases i
    · exact hasDerivAt_id y
    · exact ((((hasDerivAt_id y).sub_const (1 / 2)).const_mul (7 / 10)).const_sub (14 / 25)).congr_deriv (by norm_num)
  have d1 : ∀ y, 1 / 100 < y → y < 99 / 100 →
      HasDerivAt (fun y => Leucite.mix.g t p (d y)) (Leucite.mix.gr t p (d y) 0 - 7 / 10 * Leucite.mix.gr t p (d y) 1) y := fun y a b => by
    have hg := Leucite.consistent.g_r t p _ (hI y a b)
    unfold Grad at hg
    refine (HasFDerivAt.comp_hasDerivAt_of_eq y hg (hc y) rfl).congr_deriv ?_
    simp [Fin.sum_univ_two]
    ring
  have d2 : HasDerivAt (fun y => Leucite.mix.gr t p (d y) 0 - 7 / 10 * Leucite.mix.gr t p (d y) 1)
      ((Leucite.mix.grr t p (d (1 / 2)) 0 0 - 7 / 10 * Leucite.mix.grr t p (d (1 / 2)) 0 1) -
        7 / 10 * (Leucite.mix.grr t p (d (1 / 2)) 1 0 - 7 / 10 * Leucite.mix.grr t p (d (1 / 2)) 1 1)) (1 / 2) := by
    have g : ∀ i, HasDerivAt (fun y => Leucite.mix.gr t p (d y) i)
        (Leucite.mix.grr t p (d (1 / 2)) i 0 - 7 / 10 * Leucite.mix.grr t p (d (1 / 2)) i 1) (1 / 2) := fun i => by
      have hg := Leucite.consistent.g_rr t p _ (hI (1 / 2) (by norm_num) (by norm_num)) i
      unfold Grad at hg
      refine (HasFDerivAt.comp_hasDerivAt_of_eq _ hg (hc _) rfl).congr_deriv ?_
      simp [Fin.sum_univ_two]
      ring
    exact (g 0).sub ((g 1).const_mul (7 / 10))
  obtain ⟨s, s0, a, b, hs⟩ := dip (lo := 1 / 100) (hi := 99 / 100) (by norm_num) (by norm_num) d1 d2 (by
    have hv : d (1 / 2) = ![1 / 2, 14 / 25] := by rw [hd]; norm_num
    have hJ := hI (1 / 2) (by norm_num) (by norm_num)
    rw [hv] at hJ ⊢
    show (Leucite.D2GDR0R0 t p (1 / 2) (14 / 25) (clamp (Leucite.raw ![1 / 2, 14 / 25] 0)) (clamp (Leucite.raw ![1 / 2, 14 / 25] 1))
      (clamp (Leucite.raw ![1 / 2, 14 / 25] 2)) (clamp (Leucite.raw ![1 / 2, 14 / 25] 3)) (clamp (Leucite.raw ![1 / 2, 14 / 25] 4))
      (clamp (Leucite.raw ![1 / 2, 14 / 25] 5)) - 7 / 10 * Leucite.D2GDR0R1 t p (1 / 2) (14 / 25)
      (clamp (Leucite.raw ![1 / 2, 14 / 25] 0)) (clamp (Leucite.raw ![1 / 2, 14 / 25] 1))
      (clamp (Leucite.raw ![1 / 2, 14 / 25] 2)) (clamp (Leucite.raw ![1 / 2, 14 / 25] 3)) (clamp (Leucite.raw ![1 / 2, 14 / 25] 4))
      (clamp (Leucite.raw ![1 / 2, 14 / 25] 5))) - 7 / 10 * (Leucite.D2GDR0R1 t p (1 / 2) (14 / 25)
      (clamp (Leucite.raw ![1 / 2, 14 / 25] 0)) (clamp (Leucite.raw ![1 / 2, 14 / 25] 1))
      (clamp (Leucite.raw ![1 / 2, 14 / 25] 2)) (clamp (Leucite.raw ![1 / 2, 14 / 25] 3)) (clamp (Leucite.raw ![1 / 2, 14 / 25] 4))
      (clamp (Leucite.raw ![1 / 2, 14 / 25] 5)) - 7 / 10 * Leucite.D2GDR1R1 t p (1 / 2) (14 / 25)
      (clamp (Leucite.raw ![1 / 2, 14 / 25] 0)) (clamp (Leucite.raw ![1 / 2, 14 / 25] 1))
      (clamp (Leucite.raw ![1 / 2, 14 / 25] 2)) (clamp (Leucite.raw ![1 / 2, 14 / 25] 3)) (clamp (Leucite.raw ![1 / 2, 14 / 25] 4))
      (clamp (Leucite.raw ![1 / 2, 14 / 25] 5))) < 0
    rw [clamp_of (hJ 0), clamp_of (hJ 1), clamp_of (hJ 2), clamp_of (hJ 3), clamp_of (hJ 4), clamp_of (hJ 5)]
    simp only [Leucite.raw, Leucite.D2GDR0R0, Leucite.D2GDR0R1, Leucite.D2GDR1R1, Leucite.GXX, Leucite.GYY, Leucite.GXY,
      Leucite.WNAK, Leucite.WNAH, Leucite.DGR, R]
    simp
    norm_num
    linarith)
  refine ⟨s, s0, by linarith, fun h h1 h2 => ?_⟩
  have := hs h h1 h2
  rw [hd] at this
  simpa [sub_eq_add_neg, add_assoc, add_comm, add_left_comm] using this

/-- Half leucite, half water-bearing, at 1600 K. -/
example (h0 : ℕ → ℝ) (N : ℕ) : Engine.Unmix.split (solution3 Leucite.mix Leucite.dep 1600 1000) h0 N (fun _ => 1) = none :=
  C85_leucite (by norm_num) h0 N _ (by norm_num) (by norm_num) (by norm_num)

end

end Magma.Thermo.Mixing
