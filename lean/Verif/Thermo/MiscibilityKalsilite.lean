import Verif.Thermo.MiscibilityHornblende
import Verif.Thermo.Minerals.Kalsilite

/-!
# C85: exchange of potassium and sodium in kalsilite

Along a line of fixed calcium and vacancies, `a` and `b` parts of the vacancy and calcium components, potassium and sodium share
`1 - a / 4 - b / 2` of the large sites.
-/

open Set

namespace Magma.Thermo.Mixing

open Magma.Thermo.Extensive Magma.Thermo.Compo

noncomputable section

lemma kalsilite_interior {a b y : ℝ} (a0 : 4 * eps < a) (b0 : 4 * eps < b) (y0 : eps < y) (y1 : y < 1 - a / 4 - b / 2 - eps) :
    Interior Kalsilite.dom ![y, a, b] := by
  have := eps_pos
  intro k
  fin_cases k
  · show y > eps; linarith
  · show (a + b) / 4 > eps; linarith
  · show 1 - y - a / 4 - b / 2 > eps; linarith
  · show b / 4 > eps; linarith
  · show (a + b) / 4 - b / 4 > eps; linarith

lemma kalsilite_curve (a b y : ℝ) : HasDerivAt (fun y : ℝ => ![y, a, b]) (Pi.single 0 1) y := by
  refine hasDerivAt_pi.2 fun i => ?_
  fin_cases i
  · exact hasDerivAt_id y
  · exact hasDerivAt_const y a
  · exact hasDerivAt_const y b

lemma kalsilite_d1 (t p : ℝ) {a b y : ℝ} (h : Interior Kalsilite.dom ![y, a, b]) :
    HasDerivAt (fun y => Kalsilite.mix.g t p ![y, a, b]) (Kalsilite.mix.gr t p ![y, a, b] 0) y := by
  have hg := Kalsilite.consistent.g_r t p _ h
  unfold Grad at hg
  exact (HasFDerivAt.comp_hasDerivAt_of_eq y hg (kalsilite_curve a b y) rfl).congr_deriv (by simp [Fin.sum_univ_three])

lemma kalsilite_d2 (t p : ℝ) {a b y : ℝ} (h : Interior Kalsilite.dom ![y, a, b]) :
    HasDerivAt (fun y => Kalsilite.mix.gr t p ![y, a, b] 0)
      (R * t * 4 * (1 / y + 1 / (1 - y - a / 4 - b / 2)) - 2 * 29288) y := by
  have hg := Kalsilite.consistent.g_rr t p _ h 0
  unfold Grad at hg
  refine (HasFDerivAt.comp_hasDerivAt_of_eq y hg (kalsilite_curve a b y) rfl).congr_deriv ?_
  have e : Kalsilite.mix.grr t p ![y, a, b] 0 0 = R * t * 4 * (1 / y + 1 / (1 - y - a / 4 - b / 2)) - 2 * 29288 := by
    have k0 : clamp2 y = y := Kalsilite.clamp2_raw _ h 0
    have k2 : clamp2 (1 - y - a / 4 - b / 2) = 1 - y - a / 4 - b / 2 := Kalsilite.clamp2_raw _ h 2
    show R * t * 4 * (1 / clamp2 y + 1 / clamp2 (1 - y - a / 4 - b / 2)) - 2 * Kalsilite.WKALS = _
    rw [k0, k2, Kalsilite.WKALS]
  simp [Fin.sum_univ_three, e]

/-- **C85.**  To 440 K times the share of the large sites that potassium and sodium fill, kalsilite with as much of one as of the
other loses energy by separating into a kalsilite richer and one poorer in potassium. -/
theorem C85_kalsilite_gap {t p a b : ℝ} (a0 : 4 * eps < a) (b0 : 4 * eps < b) (w0 : 2 * eps < 1 - a / 4 - b / 2)
    (h : t ≤ 440 * (1 - a / 4 - b / 2)) :
    ∃ s, 0 < s ∧ ∀ h, 0 < h → h ≤ s →
      (Kalsilite.mix.g t p ![(1 - a / 4 - b / 2) / 2 - h, a, b] + Kalsilite.mix.g t p ![(1 - a / 4 - b / 2) / 2 + h, a, b]) / 2 <
        Kalsilite.mix.g t p ![(1 - a / 4 - b / 2) / 2, a, b] := by
  have e0 := eps_pos
  obtain ⟨w, hw⟩ : ∃ w, w = 1 - a / 4 - b / 2 := ⟨_, rfl⟩
  rw [← hw] at w0 h ⊢
  have ya : eps < w / 2 := by linarith
  have yb : w / 2 < w - eps := by linarith
  obtain ⟨s, s0, -, -, hs⟩ := dip (lo := eps) (hi := w - eps) ya yb
    (fun y c d => kalsilite_d1 t p (kalsilite_interior a0 b0 c (by rw [← hw]; exact d)))
    (kalsilite_d2 t p (kalsilite_interior a0 b0 ya (by rw [← hw]; exact yb))) (by
    have w1 : 0 < w := by linarith
    have e : 1 / (w / 2) + 1 / (1 - w / 2 - a / 4 - b / 2) = 4 / w := by
      rw [show 1 - w / 2 - a / 4 - b / 2 = w / 2 by rw [hw]; ring]
      field_simp
      ring
    rw [e]
    have : t / w ≤ 440 := by rwa [div_le_iff₀ w1]
    rw [show R * t * 4 * (4 / w) = 16 * R * (t / w) by ring]
    unfold R
    linarith)
  exact ⟨s, s0, hs⟩

/-- **C85.**  From 441 K times the share of the large sites that potassium and sodium fill, kalsilite does not lose energy by
separating into a part richer and a part poorer in potassium with the same calcium and vacancies: the energy of mixing of a blend,
in any proportions, is at most that of the two parts. -/
theorem C85_kalsilite {t p a b x y s : ℝ} (a0 : 4 * eps < a) (b0 : 4 * eps < b) (w0 : 0 < 1 - a / 4 - b / 2)
    (h : 441 * (1 - a / 4 - b / 2) ≤ t)
    (hx : eps < x) (hx' : x < 1 - a / 4 - b / 2 - eps) (hy : eps < y) (hy' : y < 1 - a / 4 - b / 2 - eps)
    (s0 : 0 ≤ s) (s1 : s ≤ 1) :
    Kalsilite.mix.g t p ![(1 - s) * x + s * y, a, b] ≤
      (1 - s) * Kalsilite.mix.g t p ![x, a, b] + s * Kalsilite.mix.g t p ![y, a, b] := by
  have e0 := eps_pos
  have c : ConvexOn ℝ (Ioo eps (1 - a / 4 - b / 2 - eps)) fun y => Kalsilite.mix.g t p ![y, a, b] := by
    refine convexOn_of_hasDerivWithinAt2_nonneg (convex_Ioo _ _)
      (f' := fun y => Kalsilite.mix.gr t p ![y, a, b] 0)
      (f'' := fun y => R * t * 4 * (1 / y + 1 / (1 - y - a / 4 - b / 2)) - 2 * 29288) ?_ ?_ ?_ ?_
    · intro z hz
      exact (kalsilite_d1 t p (kalsilite_interior a0 b0 hz.1 hz.2)).continuousAt.continuousWithinAt
    · intro z hz
      rw [interior_Ioo] at hz
      exact (kalsilite_d1 t p (kalsilite_interior a0 b0 hz.1 hz.2)).hasDerivWithinAt
    · intro z hz
      rw [interior_Ioo] at hz
      exact (kalsilite_d2 t p (kalsilite_interior a0 b0 hz.1 hz.2)).hasDerivWithinAt
    · intro z hz
      rw [interior_Ioo] at hz
      obtain ⟨z0, z1⟩ := hz
      obtain ⟨w, hw⟩ : ∃ w, w = 1 - a / 4 - b / 2 := ⟨_, rfl⟩
      rw [← hw] at w0 h z1
      have p0 : 0 < z := by linarith
      have p1 : 0 < w - z := by linarith
      have t0 : 0 < t := lt_of_lt_of_le (by positivity) h
      have e : 4 / w ≤ 1 / z + 1 / (1 - z - a / 4 - b / 2) := by
        rw [show 1 - z - a / 4 - b / 2 = w - z by rw [hw]; ring, div_add_div _ _ p0.ne' p1.ne', div_le_div_iff₀ w0 (by positivity)]
        nlinarith [sq_nonneg (2 * z - w)]
      have k : 441 ≤ t / w := by rwa [le_div_iff₀ w0]
      have := mul_le_mul_of_nonneg_left e (show 0 ≤ R * t * 4 by have := R_pos; positivity)
      rw [show R * t * 4 * (4 / w) = 16 * R * (t / w) by ring] at this
      have l : 2 * 29288 ≤ 16 * R * (t / w) := by unfold R; linarith
      linarith
  have := c.2 ⟨hx, hx'⟩ ⟨hy, hy'⟩ (show 0 ≤ 1 - s by linarith) s0 (by ring)
  simpa only [smul_eq_mul] using this

/-- One part in a hundred of each of the vacancy and calcium components, at 400 K. -/
example : ∃ s, 0 < s ∧ ∀ h, 0 < h → h ≤ s →
    (Kalsilite.mix.g 400 1 ![(1 - 1 / 100 / 4 - 1 / 100 / 2) / 2 - h, 1 / 100, 1 / 100] +
      Kalsilite.mix.g 400 1 ![(1 - 1 / 100 / 4 - 1 / 100 / 2) / 2 + h, 1 / 100, 1 / 100]) / 2 <
        Kalsilite.mix.g 400 1 ![(1 - 1 / 100 / 4 - 1 / 100 / 2) / 2, 1 / 100, 1 / 100] :=
  C85_kalsilite_gap (by unfold eps; norm_num) (by unfold eps; norm_num) (by unfold eps; norm_num) (by norm_num)

/-- The same at 1000 K: equal parts of a kalsilite with a tenth and one with nine tenths. -/
example : Kalsilite.mix.g 1000 1 ![(1 - 1 / 2) * (1 / 10) + 1 / 2 * (9 / 10), 1 / 100, 1 / 100] ≤
    (1 - 1 / 2) * Kalsilite.mix.g 1000 1 ![1 / 10, 1 / 100, 1 / 100] +
      1 / 2 * Kalsilite.mix.g 1000 1 ![9 / 10, 1 / 100, 1 / 100] :=
  C85_kalsilite (by unfold eps; norm_num) (by unfold eps; norm_num) (by norm_num) (by norm_num) (by unfold eps; norm_num)
    (by unfold eps; norm_num) (by unfold eps; norm_num) (by unfold eps; norm_num) (by norm_num) (by norm_num)

end

end Magma.Thermo.Mixing
