import Verif.Thermo.MiscibilityHornblende
import Verif.Thermo.Minerals.Feldspar

/-!
# C85: the two miscibility gaps of feldspar
-/

namespace Magma.Thermo.Mixing

open Magma.Thermo.Extensive Magma.Thermo.Compo

noncomputable section

lemma feldspar_d1 {t p : ℝ} {c : ℝ → Fin 2 → ℝ} {i : Fin 2} {y : ℝ} (hc : HasDerivAt c (Pi.single i 1) y)
    (hI : Interior Feldspar.raw (c y)) :
    HasDerivAt (fun y => Feldspar.mix.g t p (c y)) (Feldspar.mix.gr t p (c y) i) y := by
  have hg := Feldspar.consistent.g_r t p _ hI
  unfold Grad at hg
  refine (HasFDerivAt.comp_hasDerivAt_of_eq y hg hc rfl).congr_deriv ?_
  fin_cases i <;> simp [Fin.sum_univ_two]

lemma feldspar_d2 {t p : ℝ} {c : ℝ → Fin 2 → ℝ} {i : Fin 2} {y : ℝ} (hc : HasDerivAt c (Pi.single i 1) y)
    (hI : Interior Feldspar.raw (c y)) :
    HasDerivAt (fun y => Feldspar.mix.gr t p (c y) i) (Feldspar.mix.grr t p (c y) i i) y := by
  have hg := Feldspar.consistent.g_rr t p _ hI i
  unfold Grad at hg
  refine (HasFDerivAt.comp_hasDerivAt_of_eq y hg hc rfl).congr_deriv ?_
  fin_cases i <;> simp [Fin.sum_univ_two]

/-- **C85.**  Up to 940 K feldspar with at most one part in a hundred of anorthite and twice as much albite as sanidine loses
energy by separating into a feldspar richer and one poorer in albite. -/
theorem C85_feldspar_gap {t p x : ℝ} (hp : 1 ≤ p) (ht : 0 < t) (h : t ≤ 940) (x0 : eps < x) (x1 : x ≤ 1 / 100) :
    ∃ s, 0 < s ∧ s < 1 / 3 ∧ ∀ h, 0 < h → h ≤ s →
      (Feldspar.mix.g t p ![2 * (1 - x) / 3 - h, x] + Feldspar.mix.g t p ![2 * (1 - x) / 3 + h, x]) / 2 <
        Feldspar.mix.g t p ![2 * (1 - x) / 3, x] := by
  have e0 := eps_pos
  have he : eps < 1 / 100000 := by unfold eps; norm_num
  have hI : ∀ y, eps < y → y < 1 - x - eps → Interior Feldspar.raw ![y, x] := by
    intro y a b k
    fin_cases k
    · show y > eps; linarith
    · show x > eps; linarith
    · show 1 - y - x > eps; linarith
  have hc : ∀ y, HasDerivAt (fun y : ℝ => ![y, x]) (Pi.single 0 1) y := fun y => by
    refine hasDerivAt_pi.2 fun i => ?_
    fin_cases i
    · exact hasDerivAt_id y
    · exact hasDerivAt_const y x
  have ya : eps < 2 * (1 - x) / 3 := by linarith
  have yb : 2 * (1 - x) / 3 < 1 - x - eps := by linarith
  obtain ⟨s, s0, a, b, hs⟩ := dip (lo := eps) (hi := 1 - x - eps) ya yb
    (fun y a b => feldspar_d1 (hc y) (hI y a b)) (feldspar_d2 (hc _) (hI _ ya yb)) (by
    show Feldspar.D2GDR0R0 t p (2 * (1 - x) / 3) x (clamp (2 * (1 - x) / 3)) (clamp x) (clamp (1 - 2 * (1 - x) / 3 - x)) < 0
    rw [clamp_of x0, clamp_of ya, clamp_of (show 1 - 2 * (1 - x) / 3 - x > eps by linarith)]
    have n : 1 - x ≠ 0 := by linarith
    have i : 1 / (2 * (1 - x) / 3) + 1 / (1 - 2 * (1 - x) / 3 - x) = 9 / 2 / (1 - x) := by
      rw [show 1 - 2 * (1 - x) / 3 - x = (1 - x) / 3 by ring]
      field_simp
      ring
    have j : 9 / 2 / (1 - x) ≤ 9 / 2 + 9 / 2 * (101 / 100) * x + 1 / 20 * x := by
      rw [div_le_iff₀ (by linarith)]
      nlinarith [mul_nonneg (show 0 ≤ x by linarith) (sub_nonneg.2 x1)]
    have k := mul_le_mul_of_nonneg_left j (show 0 ≤ R * t by have := R_pos; positivity)
    simp only [Feldspar.D2GDR0R0, Feldspar.whaban, Feldspar.whanab, Feldspar.whabor, Feldspar.whorab, Feldspar.whanor,
      Feldspar.whoran, Feldspar.whabanor, Feldspar.wsabor, Feldspar.wsorab, Feldspar.wvabor, Feldspar.wvorab, Feldspar.wvanor,
      Feldspar.wvabanor]
    rw [i]
    unfold R at k ⊢
    have x00 : 0 ≤ x := by linarith
    nlinarith [mul_nonneg (sub_nonneg.2 hp) (sub_nonneg.2 x1), mul_nonneg (sub_nonneg.2 hp) x00, mul_nonneg x00 (sub_nonneg.2 h),
      mul_nonneg x00 ht.le])
  exact ⟨s, s0, by linarith, hs⟩

/-- **C85.**  Up to 2170 K feldspar with at most one part in a hundred of albite and equal parts of anorthite and sanidine loses
energy by separating into a feldspar richer and one poorer in anorthite, at any pressure to 50 kbar. -/
theorem C85_feldspar_gap_anorthite {t p x : ℝ} (hp : 1 ≤ p) (hp' : p ≤ 50000) (ht : 0 < t) (h : t ≤ 2170) (x0 : eps < x)
    (x1 : x ≤ 1 / 100) :
    ∃ s, 0 < s ∧ s < 1 / 2 ∧ ∀ h, 0 < h → h ≤ s →
      (Feldspar.mix.g t p ![x, (1 - x) / 2 - h] + Feldspar.mix.g t p ![x, (1 - x) / 2 + h]) / 2 <
        Feldspar.mix.g t p ![x, (1 - x) / 2] := by
  have e0 := eps_pos
  have he : eps < 1 / 100000 := by unfold eps; norm_num
  have hI : ∀ y, eps < y → y < 1 - x - eps → Interior Feldspar.raw ![x, y] := by
    intro y a b k
    fin_cases k
    · show x > eps; linarith
    · show y > eps; linarith
    · show 1 - x - y > eps; linarith
  have hc : ∀ y, HasDerivAt (fun y : ℝ => ![x, y]) (Pi.single 1 1) y := fun y => by
    refine hasDerivAt_pi.2 fun i => ?_
    fin_cases i
    · exact hasDerivAt_const y x
    · exact hasDerivAt_id y
  have ya : eps < (1 - x) / 2 := by linarith
  have yb : (1 - x) / 2 < 1 - x - eps := by linarith
  obtain ⟨s, s0, a, b, hs⟩ := dip (lo := eps) (hi := 1 - x - eps) ya yb
    (fun y a b => feldspar_d1 (hc y) (hI y a b)) (feldspar_d2 (hc _) (hI _ ya yb)) (by
    show Feldspar.D2GDR1R1 t p x ((1 - x) / 2) (clamp x) (clamp ((1 - x) / 2)) (clamp (1 - x - (1 - x) / 2)) < 0
    rw [clamp_of x0, clamp_of ya, clamp_of (show 1 - x - (1 - x) / 2 > eps by linarith)]
    have n : 1 - x ≠ 0 := by linarith
    have i : 1 / ((1 - x) / 2) + 1 / (1 - x - (1 - x) / 2) = 4 / (1 - x) := by
      rw [show 1 - x - (1 - x) / 2 = (1 - x) / 2 by ring]
      field_simp
      ring
    have j : 4 / (1 - x) ≤ 4 + 41 / 10 * x := by
      rw [div_le_iff₀ (by linarith)]
      nlinarith [mul_nonneg (show 0 ≤ x by linarith) (sub_nonneg.2 x1)]
    have k := mul_le_mul_of_nonneg_left j (show 0 ≤ R * t by have := R_pos; positivity)
    simp only [Feldspar.D2GDR1R1, Feldspar.whaban, Feldspar.whanab, Feldspar.whabor, Feldspar.whorab, Feldspar.whanor,
      Feldspar.whoran, Feldspar.whabanor, Feldspar.wsabor, Feldspar.wsorab, Feldspar.wvabor, Feldspar.wvorab, Feldspar.wvanor,
      Feldspar.wvabanor]
    rw [i]
    unfold R at k ⊢
    have x00 : 0 ≤ x := by linarith
    nlinarith [mul_nonneg (sub_nonneg.2 hp) (sub_nonneg.2 x1), mul_nonneg (sub_nonneg.2 hp) x00, mul_nonneg x00 (sub_nonneg.2 h),
      mul_nonneg x00 ht.le, mul_nonneg (sub_nonneg.2 hp') x00])
  exact ⟨s, s0, by linarith, hs⟩

/-- **C85.**  From 943 K, one kelvin more per 18 bars, feldspar does not lose energy by separating into a part richer and a part
poorer in albite with the same anorthite: the energy of mixing of a blend, in any proportions, is at most that of the two parts. -/
theorem C85_feldspar {t p x y z s : ℝ} (hp : 1 ≤ p) (h : 943 + (p - 1) / 18 ≤ t) (x0 : eps < x)
    (hy : eps < y) (hy' : y < 1 - x - eps) (hz : eps < z) (hz' : z < 1 - x - eps) (s0 : 0 ≤ s) (s1 : s ≤ 1) :
    Feldspar.mix.g t p ![(1 - s) * y + s * z, x] ≤
      (1 - s) * Feldspar.mix.g t p ![y, x] + s * Feldspar.mix.g t p ![z, x] := by
  have e0 := eps_pos
  have hI : ∀ y, eps < y → y < 1 - x - eps → Interior Feldspar.raw ![y, x] := by
    intro y a b k
    fin_cases k
    · show y > eps; linarith
    · show x > eps; linarith
    · show 1 - y - x > eps; linarith
  have hc : ∀ y, HasDerivAt (fun y : ℝ => ![y, x]) (Pi.single 0 1) y := fun y => by
    refine hasDerivAt_pi.2 fun i => ?_
    fin_cases i
    · exact hasDerivAt_id y
    · exact hasDerivAt_const y x
  have c : ConvexOn ℝ (Set.Ioo eps (1 - x - eps)) fun y => Feldspar.mix.g t p ![y, x] := by
    refine convexOn_of_hasDerivWithinAt2_nonneg (convex_Ioo _ _)
      (f' := fun y => Feldspar.mix.gr t p ![y, x] 0) (f'' := fun y => Feldspar.mix.grr t p ![y, x] 0 0) ?_ ?_ ?_ ?_
    · intro z hz
      exact (feldspar_d1 (hc z) (hI z hz.1 hz.2)).continuousAt.continuousWithinAt
    · intro z hz
      rw [interior_Ioo] at hz
      exact (feldspar_d1 (hc z) (hI z hz.1 hz.2)).hasDerivWithinAt
    · intro z hz
      rw [interior_Ioo] at hz
      exact (feldspar_d2 (hc z) (hI z hz.1 hz.2)).hasDerivWithinAt
    · intro u hz
      rw [interior_Ioo] at hz
      obtain ⟨u0, u1⟩ := hz
      show 0 ≤ Feldspar.D2GDR0R0 t p u x (clamp u) (clamp x) (clamp (1 - u - x))
      rw [clamp_of x0, clamp_of u0, clamp_of (show 1 - u - x > eps by linarith)]
      obtain ⟨o, ho⟩ : ∃ o, o = 1 - u - x := ⟨_, rfl⟩
      rw [← ho]
      have hx : x = 1 - u - o := by linarith
      have tangent : ∀ a b : ℝ, 0 < a → 0 < b → 2 / b - a / b ^ 2 ≤ 1 / a := fun a b ha hb => by
        have : 0 ≤ (a - b) ^ 2 / (a * b ^ 2) := by positivity
        have e : 1 / a - (2 / b - a / b ^ 2) = (a - b) ^ 2 / (a * b ^ 2) := by field_simp; ring
        linarith
      have k1 := tangent u (658 / 1000) (by linarith) (by norm_num)
      have k2 := tangent o (33687 / 100000) (by linarith) (by norm_num)
      have q0 : 0 ≤ p - 1 := by linarith
      obtain ⟨d, hd⟩ : ∃ d, d = t - (943 + (p - 1) / 18) := ⟨_, rfl⟩
      have d0 : 0 ≤ d := by linarith
      have ht : t = 943 + (p - 1) / 18 + d := by linarith
      have t0 : 0 ≤ t := by linarith
      have k := mul_le_mul_of_nonneg_left (add_le_add k1 k2) (show 0 ≤ R * t by have := R_pos; positivity)
      simp only [Feldspar.D2GDR0R0, Feldspar.whaban, Feldspar.whanab, Feldspar.whabor, Feldspar.whorab, Feldspar.whanor,
        Feldspar.whoran, Feldspar.whabanor, Feldspar.wsabor, Feldspar.wsorab, Feldspar.wvabor, Feldspar.wvorab, Feldspar.wvanor,
        Feldspar.wvabanor]
      refine le_trans ?_ (add_le_add_left (add_le_add_left (sub_le_sub_right (sub_le_sub_right (add_le_add_left k _) _) _) _) _)
      have u00 : 0 ≤ u := by linarith
      have o00 : 0 ≤ o := by linarith
      have x00 : 0 ≤ x := by linarith
      obtain ⟨q, hq⟩ : ∃ q, q = p - 1 := ⟨_, rfl⟩
      rw [← hq] at q0 ht ⊢
      have m1 := mul_nonneg q0 u00
      have m2 := mul_nonneg q0 o00
      have m3 := mul_nonneg q0 x00
      have m4 := mul_nonneg d0 u00
      have m5 := mul_nonneg d0 o00
      have m6 := mul_nonneg d0 x00
      rw [ht]
      rw [hx] at m3 m6 x00 ⊢
      unfold R
      ring_nf
      ring_nf at m1 m2 m3 m4 m5 m6
      clear k k1 k2 tangent
      linarith
  have := c.2 ⟨hy, hy'⟩ ⟨hz, hz'⟩ (show 0 ≤ 1 - s by linarith) s0 (by ring)
  simpa only [smul_eq_mul] using this

/-- One part in a hundred of anorthite at 900 K and 1 kbar. -/
example : ∃ s, 0 < s ∧ s < 1 / 3 ∧ ∀ h, 0 < h → h ≤ s →
    (Feldspar.mix.g 900 1000 ![2 * (1 - 1 / 100) / 3 - h, 1 / 100] + Feldspar.mix.g 900 1000 ![2 * (1 - 1 / 100) / 3 + h, 1 / 100])
      / 2 < Feldspar.mix.g 900 1000 ![2 * (1 - 1 / 100) / 3, 1 / 100] :=
  C85_feldspar_gap (by norm_num) (by norm_num) (by norm_num) (by unfold eps; norm_num) le_rfl

/-- One part in a hundred of albite at 1500 K and 1 kbar. -/
example : ∃ s, 0 < s ∧ s < 1 / 2 ∧ ∀ h, 0 < h → h ≤ s →
    (Feldspar.mix.g 1500 1000 ![1 / 100, (1 - 1 / 100) / 2 - h] + Feldspar.mix.g 1500 1000 ![1 / 100, (1 - 1 / 100) / 2 + h]) / 2 <
      Feldspar.mix.g 1500 1000 ![1 / 100, (1 - 1 / 100) / 2] :=
  C85_feldspar_gap_anorthite (by norm_num) (by norm_num) (by norm_num) (by norm_num) (by unfold eps; norm_num) le_rfl

/-- A tenth of anorthite at 1000 K and 1 kbar: equal parts of feldspars with two tenths and six tenths of albite. -/
example : Feldspar.mix.g 1000 1000 ![(1 - 1 / 2) * (2 / 10) + 1 / 2 * (6 / 10), 1 / 10] ≤
    (1 - 1 / 2) * Feldspar.mix.g 1000 1000 ![2 / 10, 1 / 10] + 1 / 2 * Feldspar.mix.g 1000 1000 ![6 / 10, 1 / 10] :=
  C85_feldspar (by norm_num) (by norm_num) (by unfold eps; norm_num) (by unfold eps; norm_num) (by unfold eps; norm_num)
    (by unfold eps; norm_num) (by unfold eps; norm_num) (by norm_num) (by norm_num)

end

end Magma.Thermo.Mixing
