import Verif.Thermo.MiscibilityHornblende
import Verif.Thermo.Minerals.Garnet

/-!
# C85: miscibility of garnet

Garnet's energy of mixing is that of three ideal sites of three components and, for each pair, a term of degree three.
-/

open Set

namespace Magma.Thermo.Mixing

open Magma.Thermo.Extensive Magma.Thermo.Compo

noncomputable section

/-- Garnet as `checkForCoexistingSolids` calls it: `gmixGrn`, `conGrn` (garnet.c 349-500, 629-) and `testGrn` (garnet.c
330-337: each variable between 0 and 1 and their sum at most 1). -/
def garnet (t p : ℝ) : Engine.Unmix.Mix where
  __ := solution3 Garnet.mix Garnet.dep t p
  eval r := open Classical in if ((0 ≤ r 0 ∧ r 0 ≤ 1) ∧ 0 ≤ r 1 ∧ r 1 ≤ 1) ∧ r 0 + r 1 ≤ 1 then some r else none

/-- The excess energy of a pair: half the sum `a` and half the difference `b` of its two parameters. -/
def pairE (a b x y : ℝ) : ℝ := x * y * (a + b * (x - y))

lemma lin (x d s : ℝ) : HasDerivAt (fun s : ℝ => x + s * d) d s := by
  simpa using ((hasDerivAt_id s).mul_const d).const_add x

lemma pair_d1 (a b x d y e s : ℝ) : HasDerivAt (fun s => pairE a b (x + s * d) (y + s * e))
    ((d * (y + s * e) + (x + s * d) * e) * (a + b * (x + s * d - (y + s * e))) + (x + s * d) * (y + s * e) * (b * (d - e))) s :=
  ((lin x d s).mul (lin y e s)).mul ((((lin x d s).sub (lin y e s)).const_mul b).const_add a)

/-- The second derivative of the excess energy of a pair along the direction `d`, `e`. -/
def pairQ (a b x y d e : ℝ) : ℝ := 2 * a * (d * e) + b * (2 * y * d ^ 2 - 2 * x * e ^ 2 + 4 * (d * e) * (x - y))

lemma pair_d2 (a b x d y e s : ℝ) : HasDerivAt
    (fun s => (d * (y + s * e) + (x + s * d) * e) * (a + b * (x + s * d - (y + s * e))) + (x + s * d) * (y + s * e) * (b * (d - e)))
    (pairQ a b (x + s * d) (y + s * e) d e) s := by
  have k := ((((lin y e s).const_mul d).add ((lin x d s).mul_const e)).mul
    ((((lin x d s).sub (lin y e s)).const_mul b).const_add a)).add
    (((lin x d s).mul (lin y e s)).mul_const (b * (d - e)))
  refine k.congr_deriv ?_
  simp only [Pi.add_apply, Pi.sub_apply]
  unfold pairQ
  ring

/-- How much ideal mixing outweighs the excess energy of a pair. -/
lemma pair_pos {a b c x y d e : ℝ} (x0 : 0 < x) (y0 : 0 < y) (c0 : 0 ≤ c) (hb : 2 * |b| * (x * y) ≤ c)
    (hc : 4 * b ^ 2 * (x * y) ^ 2 + x * y * (a + 2 * b * (x - y)) ^ 2 ≤ c ^ 2) :
    0 ≤ c * (d ^ 2 / x + e ^ 2 / y) + pairQ a b x y d e := by
  have hxy : 0 < x * y := by positivity
  have e1 : c * (d ^ 2 / x + e ^ 2 / y) + pairQ a b x y d e =
      ((c + 2 * b * (x * y)) * y * d ^ 2 + (c - 2 * b * (x * y)) * x * e ^ 2 +
        2 * (x * y) * (a + 2 * b * (x - y)) * (d * e)) / (x * y) := by
    unfold pairQ
    field_simp
    ring
  rw [e1]
  refine div_nonneg ?_ hxy.le
  have hb1 := mul_le_mul_of_nonneg_right (le_abs_self b) hxy.le
  have hb2 := mul_le_mul_of_nonneg_right (neg_abs_le b) hxy.le
  have P0 : 0 ≤ (c + 2 * b * (x * y)) * y := mul_nonneg (by linarith) y0.le
  have R0 : 0 ≤ (c - 2 * b * (x * y)) * x := mul_nonneg (by linarith) x0.le
  obtain ⟨P, hP⟩ : ∃ P, P = (c + 2 * b * (x * y)) * y := ⟨_, rfl⟩
  obtain ⟨S, hS⟩ : ∃ S, S = (c - 2 * b * (x * y)) * x := ⟨_, rfl⟩
  obtain ⟨Q, hQ⟩ : ∃ Q, Q = (x * y) * (a + 2 * b * (x - y)) := ⟨_, rfl⟩
  have hdet : Q ^ 2 ≤ P * S := by
    rw [hP, hS, hQ]
    have := mul_le_mul_of_nonneg_left hc hxy.le
    linarith
  rw [← hP] at P0 ⊢
  rw [← hS] at R0 ⊢
  rw [show 2 * (x * y) * (a + 2 * b * (x - y)) * (d * e) = 2 * Q * (d * e) by rw [hQ]; ring]
  by_cases hz : P = 0
  · have : Q = 0 := by
      rw [hz, zero_mul] at hdet
      exact pow_eq_zero_iff (two_ne_zero) |>.1 (le_antisymm hdet (sq_nonneg Q))
    rw [hz, this]
    nlinarith [mul_nonneg R0 (sq_nonneg e)]
  · have hp : 0 < P := lt_of_le_of_ne P0 (Ne.symm hz)
    have : 0 ≤ P * (P * d ^ 2 + S * e ^ 2 + 2 * Q * (d * e)) := by
      nlinarith [sq_nonneg (P * d + Q * e), mul_nonneg (sub_nonneg.2 hdet) (sq_nonneg e)]
    exact nonneg_of_mul_nonneg_right this hp

/-- `pair_pos` from bounds on the parameters: `k` covers both at every composition. -/
lemma pair_pos' {a b A B c x y d e : ℝ} (x0 : 0 < x) (y0 : 0 < y) (h1 : x + y ≤ 1) (c0 : 0 ≤ c) (ha : |a| ≤ A) (hb : |b| ≤ B)
    (hB : B ≤ 2 * c)
    (hk : ∀ u, 0 ≤ u → u ≤ 1 → (1 - u ^ 2) / 4 * (B ^ 2 * (1 - u ^ 2) + (A + 2 * B * u) ^ 2) ≤ c ^ 2) :
    0 ≤ c * (d ^ 2 / x + e ^ 2 / y) + pairQ a b x y d e := by
  have A0 : 0 ≤ A := (abs_nonneg a).trans ha
  have B0 : 0 ≤ B := (abs_nonneg b).trans hb
  have hxy : 0 < x * y := by positivity
  have h4 : x * y ≤ (1 - (x - y) ^ 2) / 4 := by nlinarith
  have hu : |x - y| ≤ 1 := abs_le.2 ⟨by linarith, by linarith⟩
  refine pair_pos x0 y0 c0 ?_ ?_
  · nlinarith [mul_le_mul_of_nonneg_right hb hxy.le, sq_nonneg (x - y)]
  · have i1 : |a + 2 * b * (x - y)| ≤ A + 2 * B * |x - y| := by
      refine (abs_add_le _ _).trans (add_le_add ha ?_)
      rw [abs_mul, abs_mul, abs_two]
      gcongr
    have i2 : (a + 2 * b * (x - y)) ^ 2 ≤ (A + 2 * B * |x - y|) ^ 2 := by
      rw [← sq_abs (a + 2 * b * (x - y))]
      exact pow_le_pow_left₀ (abs_nonneg _) i1 2
    have i3 : b ^ 2 ≤ B ^ 2 := by
      rw [← sq_abs b]
      exact pow_le_pow_left₀ (abs_nonneg _) hb 2
    have := hk |x - y| (abs_nonneg _) hu
    rw [sq_abs] at this
    refine le_trans ?_ this
    have j1 : 4 * b ^ 2 * (x * y) ^ 2 ≤ 4 * B ^ 2 * ((x * y) * ((1 - (x - y) ^ 2) / 4)) := by
      have : (x * y) ^ 2 ≤ (x * y) * ((1 - (x - y) ^ 2) / 4) := by
        rw [sq]; exact mul_le_mul_of_nonneg_left h4 hxy.le
      exact mul_le_mul (by linarith) this (by positivity) (by positivity)
    have j2 : x * y * (a + 2 * b * (x - y)) ^ 2 ≤ x * y * (A + 2 * B * |x - y|) ^ 2 :=
      mul_le_mul_of_nonneg_left i2 hxy.le
    have j3 := mul_le_mul_of_nonneg_right h4
      (show 0 ≤ B ^ 2 * (1 - (x - y) ^ 2) + (A + 2 * B * |x - y|) ^ 2 by
        have : (x - y) ^ 2 ≤ 1 := by rw [← sq_abs]; nlinarith [abs_nonneg (x - y)]
        have := mul_nonneg (sq_nonneg B) (sub_nonneg.2 this)
        positivity)
    nlinarith

/-- Parameters of the pair grossular, pyrope. -/
def a12 (t p : ℝ) : ℝ := 45380 - 1879 / 100 * t + 1 / 10 * p
@[inherit_doc a12]
def b12 : ℝ := -23820

/-- Parameters of the pair grossular, almandine. -/
def a13 (t p : ℝ) : ℝ := 11470 - 127 / 25 * t + 13 / 100 * p
@[inherit_doc a13]
def b13 (p : ℝ) : ℝ := 8850 + 4 / 100 * p

/-- Parameters of the pair pyrope, almandine. -/
def a23 (p : ℝ) : ℝ := 1975 + 35 / 1000 * p
@[inherit_doc a23]
def b23 (p : ℝ) : ℝ := -1745 - 25 / 1000 * p

/-- Ideal mixing on three sites and the excess energies of the pairs; the fractions of almandine, grossular, pyrope. -/
def energy3 (t p x y z : ℝ) : ℝ := 3 * R * t * (y * Real.log y + z * Real.log z + x * Real.log x) +
  (pairE (a12 t p) b12 y z + pairE (a13 t p) (b13 p) y x + pairE (a23 p) (b23 p) z x)

lemma garnet_energy' (t p r0 r1 x y z : ℝ) : Garnet.G t p r0 r1 x y z =
    energy3 t p x y z + (x + y + z - 1) * (a12 t p * (y * z) + a13 t p * (y * x) + a23 p * (z * x)) := by
  simp only [Garnet.G, Garnet.H, Garnet.S, Garnet.V, energy3, pairE, a12, b12, a13, b13, a23, b23, Garnet.WH112, Garnet.WS112,
    Garnet.WV112, Garnet.WH122, Garnet.WS122, Garnet.WV122, Garnet.WH113, Garnet.WS113, Garnet.WV113, Garnet.WH133, Garnet.WS133,
    Garnet.WV133, Garnet.WH223, Garnet.WS223, Garnet.WV223, Garnet.WH233, Garnet.WS233, Garnet.WV233, Garnet.WH123, Garnet.WS123,
    Garnet.WV123]
  ring

lemma garnet_energy (t p r0 r1 : ℝ) {x y z : ℝ} (h : z = 1 - x - y) : Garnet.G t p r0 r1 x y z = energy3 t p x y z := by
  rw [garnet_energy', h]
  ring

/-- Hot enough for the pressure. -/
structure Hot (t p : ℝ) : Prop where
  p0 : 0 ≤ p
  t1 : 1200 + p / 75 ≤ t

lemma quartic {A B c t u : ℝ} (u0 : 0 ≤ u) (u1 : u ≤ 1)
    (h : (1 - u ^ 2) / 4 * (B ^ 2 * (1 - u ^ 2) + (A + 2 * B * u) ^ 2) ≤ c ^ 2) :
    (1 - u ^ 2) / 4 * ((B * t) ^ 2 * (1 - u ^ 2) + (A * t + 2 * (B * t) * u) ^ 2) ≤ (c * t) ^ 2 := by
  have := mul_le_mul_of_nonneg_right h (sq_nonneg t)
  nlinarith

lemma curvature {t p x y z d e f : ℝ} (h : Hot t p) (x0 : 0 < x) (y0 : 0 < y) (z0 : 0 < z) (hs : x + y + z = 1) :
    0 ≤ 3 * R * t * (e ^ 2 / y + f ^ 2 / z + d ^ 2 / x) +
      (pairQ (a12 t p) b12 y z e f + pairQ (a13 t p) (b13 p) y x e d + pairQ (a23 p) (b23 p) z x f d) := by
  obtain ⟨p0, t1⟩ := h
  have k12 := pair_pos' (a := a12 t p) (b := b12) (A := 1905 / 100 * t) (B := 1985 / 100 * t) (c := 186 / 10 * t) (d := e) (e := f)
    y0 z0 (by linarith) (by linarith)
    (abs_le.2 ⟨by unfold a12; linarith, by unfold a12; linarith⟩) (by unfold b12; rw [abs_neg, abs_of_pos (by norm_num)]; linarith)
    (by linarith) (fun u u0 u1 => quartic u0 u1 (by nlinarith [sq_nonneg (u - 13 / 25), sq_nonneg (u * (u - 13 / 25)), mul_nonneg u0 (sq_nonneg (u - 13 / 25))]))
  have k13 := pair_pos' (a := a13 t p) (b := b13 p) (A := 508 / 100 * t) (B := 7375 / 1000 * t) (c := 615 / 100 * t) (d := e) (e := d)
    y0 x0 (by linarith) (by linarith)
    (abs_le.2 ⟨by unfold a13; linarith, by unfold a13; linarith⟩) (abs_le.2 ⟨by unfold b13; linarith, by unfold b13; linarith⟩)
    (by linarith) (fun u u0 u1 => quartic u0 u1 (by nlinarith [sq_nonneg (u - 14 / 25), sq_nonneg (u * (u - 14 / 25)), mul_nonneg u0 (sq_nonneg (u - 14 / 25))]))
  have k23 := pair_pos' (a := a23 p) (b := b23 p) (A := 263 / 100 * t) (B := 188 / 100 * t) (c := 25 / 10 * t) (d := f) (e := d)
    z0 x0 (by linarith) (by linarith)
    (abs_le.2 ⟨by unfold a23; linarith, by unfold a23; linarith⟩) (abs_le.2 ⟨by unfold b23; linarith, by unfold b23; linarith⟩)
    (by linarith) (fun u u0 u1 => quartic u0 u1 (by nlinarith [sq_nonneg (u - 13 / 25), sq_nonneg (u * (u - 13 / 25)), mul_nonneg u0 (sq_nonneg (u - 13 / 25))]))
  have t0 : 0 < t := by linarith
  have e1 : 0 ≤ e ^ 2 / y := by positivity
  have e2 : 0 ≤ f ^ 2 / z := by positivity
  have e3 : 0 ≤ d ^ 2 / x := by positivity
  have hR : 2494 / 100 * t ≤ 3 * R * t := by unfold R; linarith
  have i1 := mul_le_mul_of_nonneg_right hR e1
  have i2 := mul_le_mul_of_nonneg_right hR e2
  have i3 := mul_le_mul_of_nonneg_right hR e3
  have j1 := mul_nonneg t0.le e1
  have j2 := mul_nonneg t0.le e2
  have j3 := mul_nonneg t0.le e3
  linarith

lemma energy3_line {t p x y z X Y Z : ℝ} (h : Hot t p) (x0 : 0 < x) (y0 : 0 < y) (z0 : 0 < z) (hs : x + y + z = 1)
    (X0 : 0 ≤ X) (Y0 : 0 ≤ Y) (Z0 : 0 ≤ Z) (hS : X + Y + Z = 1) :
    ConvexOn ℝ (Icc 0 1) fun s => energy3 t p (x + s * (X - x)) (y + s * (Y - y)) (z + s * (Z - z)) := by
  have pos : ∀ {a b s : ℝ}, 0 < a → 0 ≤ b → 0 < s → s < 1 → 0 < a + s * (b - a) := by
    intro a b s ha hb s0 s1
    nlinarith [mul_pos ha (sub_pos.2 s1), mul_nonneg s0.le hb]
  have term : ∀ {a b s : ℝ}, 0 < a → 0 ≤ b → 0 < s → s < 1 →
      HasDerivAt (fun s => (a + s * (b - a)) * Real.log (a + s * (b - a)))
        ((b - a) * Real.log (a + s * (b - a)) + (b - a)) s := by
    intro a b s ha hb s0 s1
    have n := (pos ha hb s0 s1).ne'
    refine ((lin a (b - a) s).mul ((lin a (b - a) s).log n)).congr_deriv ?_
    rw [← mul_div_assoc, mul_div_cancel_left₀ _ n]
  have term2 : ∀ {a b s : ℝ}, 0 < a → 0 ≤ b → 0 < s → s < 1 →
      HasDerivAt (fun s => (b - a) * Real.log (a + s * (b - a)) + (b - a)) ((b - a) ^ 2 / (a + s * (b - a))) s := by
    intro a b s ha hb s0 s1
    have n := (pos ha hb s0 s1).ne'
    refine ((((lin a (b - a) s).log n).const_mul (b - a)).add_const (b - a)).congr_deriv ?_
    field_simp
  have cont : ∀ a b : ℝ, Continuous fun s => (a + s * (b - a)) * Real.log (a + s * (b - a)) := fun a b =>
    Real.continuous_mul_log.comp (continuous_iff_continuousAt.2 fun s => (lin a (b - a) s).continuousAt)
  have contp : ∀ a b x d y e : ℝ, Continuous fun s : ℝ => pairE a b (x + s * d) (y + s * e) := fun a b x d y e =>
    continuous_iff_continuousAt.2 fun s => (pair_d1 a b x d y e s).continuousAt
  refine convexOn_of_hasDerivWithinAt2_nonneg (convex_Icc 0 1)
    (f' := fun s => 3 * R * t * (((Y - y) * Real.log (y + s * (Y - y)) + (Y - y)) + ((Z - z) * Real.log (z + s * (Z - z)) + (Z - z)) +
        ((X - x) * Real.log (x + s * (X - x)) + (X - x))) +
      ((((Y - y) * (z + s * (Z - z)) + (y + s * (Y - y)) * (Z - z)) * (a12 t p + b12 * (y + s * (Y - y) - (z + s * (Z - z)))) +
          (y + s * (Y - y)) * (z + s * (Z - z)) * (b12 * ((Y - y) - (Z - z)))) +
        (((Y - y) * (x + s * (X - x)) + (y + s * (Y - y)) * (X - x)) * (a13 t p + b13 p * (y + s * (Y - y) - (x + s * (X - x)))) +
          (y + s * (Y - y)) * (x + s * (X - x)) * (b13 p * ((Y - y) - (X - x)))) +
        (((Z - z) * (x + s * (X - x)) + (z + s * (Z - z)) * (X - x)) * (a23 p + b23 p * (z + s * (Z - z) - (x + s * (X - x)))) +
          (z + s * (Z - z)) * (x + s * (X - x)) * (b23 p * ((Z - z) - (X - x))))))
    (f'' := fun s => 3 * R * t * ((Y - y) ^ 2 / (y + s * (Y - y)) + (Z - z) ^ 2 / (z + s * (Z - z)) + (X - x) ^ 2 / (x + s * (X - x))) +
      (pairQ (a12 t p) b12 (y + s * (Y - y)) (z + s * (Z - z)) (Y - y) (Z - z) +
        pairQ (a13 t p) (b13 p) (y + s * (Y - y)) (x + s * (X - x)) (Y - y) (X - x) +
        pairQ (a23 p) (b23 p) (z + s * (Z - z)) (x + s * (X - x)) (Z - z) (X - x))) ?_ ?_ ?_ ?_
  · exact ((continuous_const.mul (((cont y Y).add (cont z Z)).add (cont x X))).add
      (((contp _ _ _ _ _ _).add (contp _ _ _ _ _ _)).add (contp _ _ _ _ _ _))).continuousOn
  · intro s hs'
    rw [interior_Icc] at hs'
    obtain ⟨s0, s1⟩ := hs'
    exact (((((term y0 Y0 s0 s1).add (term z0 Z0 s0 s1)).add (term x0 X0 s0 s1)).const_mul (3 * R * t)).add
      (((pair_d1 _ _ _ _ _ _ s).add (pair_d1 _ _ _ _ _ _ s)).add (pair_d1 _ _ _ _ _ _ s))).hasDerivWithinAt
  · intro s hs'
    rw [interior_Icc] at hs'
    obtain ⟨s0, s1⟩ := hs'
    exact (((((term2 y0 Y0 s0 s1).add (term2 z0 Z0 s0 s1)).add (term2 x0 X0 s0 s1)).const_mul (3 * R * t)).add
      (((pair_d2 _ _ _ _ _ _ s).add (pair_d2 _ _ _ _ _ _ s)).add (pair_d2 _ _ _ _ _ _ s))).hasDerivWithinAt
  · intro s hs'
    rw [interior_Icc] at hs'
    obtain ⟨s0, s1⟩ := hs'
    refine curvature h (pos x0 X0 s0 s1) (pos y0 Y0 s0 s1) (pos z0 Z0 s0 s1) ?_
    linear_combination (1 - s) * hs + s * hS

lemma Hot.bounds {t p : ℝ} (h : Hot t p) : |a12 t p| ≤ 1905 / 100 * t ∧ |b12| ≤ 1985 / 100 * t ∧ |a13 t p| ≤ 508 / 100 * t ∧
    |b13 p| ≤ 7375 / 1000 * t ∧ |a23 p| ≤ 263 / 100 * t ∧ |b23 p| ≤ 188 / 100 * t := by
  obtain ⟨p0, t1⟩ := h
  refine ⟨abs_le.2 ?_, abs_le.2 ?_, abs_le.2 ?_, abs_le.2 ?_, abs_le.2 ?_, abs_le.2 ?_⟩ <;>
    simp only [a12, b12, a13, b13, a23, b23] <;> constructor <;> linarith

lemma pairE_le {a b x y A B : ℝ} (x0 : 0 ≤ x) (y0 : 0 ≤ y) (h1 : x + y ≤ 1) (ha : |a| ≤ A) (hb : |b| ≤ B) :
    pairE a b x y ≤ (A + B) * (x * y) := by
  have hxy : 0 ≤ x * y := mul_nonneg x0 y0
  have hu : |x - y| ≤ 1 := abs_le.2 ⟨by linarith, by linarith⟩
  have : a + b * (x - y) ≤ A + B := by
    refine add_le_add ((le_abs_self a).trans ha) ((le_abs_self _).trans ?_)
    rw [abs_mul]
    exact (mul_le_of_le_one_right (abs_nonneg b) hu).trans hb
  unfold pairE
  have := mul_le_mul_of_nonneg_left this hxy
  linarith

lemma energy3_le {t p x y z : ℝ} (h : Hot t p) (x0 : 0 < x) (y0 : 0 < y) (z0 : 0 < z) (hs : x + y + z = 1) :
    energy3 t p x y z ≤ -(R * t) * (x * y + y * z + z * x) := by
  obtain ⟨h1, h2, h3, h4, h5, h6⟩ := h.bounds
  have t0 : 0 < t := by have := h.p0; have := h.t1; linarith
  have k1 := pairE_le y0.le z0.le (by linarith) h1 h2
  have k2 := pairE_le y0.le x0.le (by linarith) h3 h4
  have k3 := pairE_le z0.le x0.le (by linarith) h5 h6
  have l : ∀ {a : ℝ}, 0 < a → a * Real.log a ≤ a * (a - 1) := fun ha =>
    mul_le_mul_of_nonneg_left (Real.log_le_sub_one_of_pos ha) ha.le
  have hRt : 0 < R * t := mul_pos R_pos t0
  have e : y * Real.log y + z * Real.log z + x * Real.log x ≤ -2 * (x * y + y * z + z * x) := by
    have := l x0
    have := l y0
    have := l z0
    have : x * (x - 1) + y * (y - 1) + z * (z - 1) = -2 * (x * y + y * z + z * x) := by
      linear_combination (x + y + z) * hs
    linarith
  have e' := mul_le_mul_of_nonneg_left e (show 0 ≤ 3 * R * t by linarith)
  have q1 := mul_nonneg t0.le (mul_nonneg x0.le y0.le)
  have q2 := mul_nonneg t0.le (mul_nonneg y0.le z0.le)
  have q3 := mul_nonneg t0.le (mul_nonneg z0.le x0.le)
  unfold energy3
  unfold R at e' ⊢
  linarith

lemma clamp_near {x : ℝ} (h0 : 0 ≤ x) : x ≤ clamp x ∧ clamp x ≤ x + eps := by
  unfold clamp
  have := eps_pos
  split_ifs with h
  · constructor <;> linarith
  · push Not at h; constructor <;> linarith

lemma clamp_le_one {x : ℝ} (h1 : x ≤ 1) : clamp x ≤ 1 := by
  unfold clamp
  have := eps_lt
  split_ifs <;> linarith

lemma clamp_log {x : ℝ} (h0 : 0 ≤ x) (h1 : x ≤ 1) :
    x * Real.log x - 361 / 10 * eps ≤ clamp x * Real.log (clamp x) := by
  have := log_eps
  have := eps_pos
  have := Real.mul_log_nonpos h0 h1
  unfold clamp
  split_ifs <;> linarith

lemma prod_near {x y x' y' e f : ℝ} (x1 : |x| ≤ 1) (y1 : |y'| ≤ 1) (hx : |x' - x| ≤ e) (hy : |y' - y| ≤ f) :
    |x' * y' - x * y| ≤ e + f := by
  rw [show x' * y' - x * y = (x' - x) * y' + x * (y' - y) by ring]
  refine (abs_add_le _ _).trans (add_le_add ?_ ?_)
  · rw [abs_mul]; exact (mul_le_of_le_one_right (abs_nonneg _) y1).trans hx
  · rw [abs_mul]; exact (mul_le_of_le_one_left (abs_nonneg _) x1).trans hy

lemma pairE_near {a b A B x y x' y' e : ℝ} (hx : 0 ≤ x ∧ x ≤ 1) (hy : 0 ≤ y ∧ y ≤ 1) (hx' : 0 ≤ x' ∧ x' ≤ 1)
    (hy' : 0 ≤ y' ∧ y' ≤ 1) (ex : |x' - x| ≤ e) (ey : |y' - y| ≤ e) (ha : |a| ≤ A) (hb : |b| ≤ B) :
    pairE a b x y - (2 * A + 4 * B) * e ≤ pairE a b x' y' := by
  have e0 : 0 ≤ e := (abs_nonneg _).trans ex
  have k1 := prod_near (abs_le.2 ⟨by linarith, hx.2⟩) (abs_le.2 ⟨by linarith, hy'.2⟩) ex ey
  have k2 := prod_near (x := x * y) (x' := x' * y') (y := x - y) (y' := x' - y') (e := e + e) (f := e + e)
    (abs_le.2 ⟨by nlinarith [mul_nonneg hx.1 hy.1], by nlinarith⟩) (abs_le.2 ⟨by linarith, by linarith⟩) k1
    (by rw [show x' - y' - (x - y) = (x' - x) + -(y' - y) by ring]
        refine (abs_add_le _ _).trans ?_
        rw [abs_neg]
        exact add_le_add ex ey)
  have m1 : |a * (x' * y' - x * y)| ≤ A * (2 * e) := by
    rw [abs_mul]; exact mul_le_mul ha (by linarith) (abs_nonneg _) ((abs_nonneg _).trans ha)
  have m2 : |b * (x' * y' * (x' - y') - x * y * (x - y))| ≤ B * (4 * e) := by
    rw [abs_mul]; exact mul_le_mul hb (by linarith) (abs_nonneg _) ((abs_nonneg _).trans hb)
  have n1 := (abs_le.1 m1).1
  have n2 := (abs_le.1 m2).1
  unfold pairE
  linarith

lemma energy3_clamp {t p x y z : ℝ} (h : Hot t p) (x0 : 0 ≤ x) (y0 : 0 ≤ y) (z0 : 0 ≤ z) (hs : x + y + z = 1) :
    energy3 t p x y z - 400 * eps * (R * t) ≤ Garnet.G t p x y (clamp x) (clamp y) (clamp z) := by
  obtain ⟨h1, h2, h3, h4, h5, h6⟩ := h.bounds
  have t0 : 0 < t := by have := h.p0; have := h.t1; linarith
  have e0 := eps_pos
  have near : ∀ {a : ℝ}, 0 ≤ a → |clamp a - a| ≤ eps := fun ha => by
    obtain ⟨i, j⟩ := clamp_near ha
    exact abs_le.2 ⟨by linarith, by linarith⟩
  have box : ∀ {a : ℝ}, 0 ≤ a → a ≤ 1 → 0 ≤ clamp a ∧ clamp a ≤ 1 := fun ha hb =>
    ⟨ha.trans (clamp_near ha).1, clamp_le_one hb⟩
  have x1 : x ≤ 1 := by linarith
  have y1 : y ≤ 1 := by linarith
  have z1 : z ≤ 1 := by linarith
  have k1 := pairE_near ⟨y0, y1⟩ ⟨z0, z1⟩ (box y0 y1) (box z0 z1) (near y0) (near z0) h1 h2
  have k2 := pairE_near ⟨y0, y1⟩ ⟨x0, x1⟩ (box y0 y1) (box x0 x1) (near y0) (near x0) h3 h4
  have k3 := pairE_near ⟨z0, z1⟩ ⟨x0, x1⟩ (box z0 z1) (box x0 x1) (near z0) (near x0) h5 h6
  have hRt : 0 < R * t := mul_pos R_pos t0
  have l := mul_le_mul_of_nonneg_left (add_le_add (add_le_add (clamp_log y0 y1) (clamp_log z0 z1)) (clamp_log x0 x1))
    (show 0 ≤ 3 * R * t by linarith)
  have q := mul_nonneg e0.le t0.le
  have over : ∀ {a A u v : ℝ}, |a| ≤ A * t → 0 ≤ u ∧ u ≤ 1 → 0 ≤ v ∧ v ≤ 1 →
      -(3 * eps * (A * t)) ≤ (clamp x + clamp y + clamp z - 1) * (a * (u * v)) := by
    intro a A u v ha hu hv
    have s0 : |clamp x + clamp y + clamp z - 1| ≤ 3 * eps :=
      abs_le.2 ⟨by linarith [(clamp_near x0).1, (clamp_near y0).1, (clamp_near z0).1],
        by linarith [(clamp_near x0).2, (clamp_near y0).2, (clamp_near z0).2]⟩
    have s1 : |a * (u * v)| ≤ A * t := by
      rw [abs_mul, abs_of_nonneg (mul_nonneg hu.1 hv.1)]
      exact (mul_le_of_le_one_right (abs_nonneg a) (mul_le_one₀ hu.2 hv.1 hv.2)).trans ha
    have := mul_le_mul s0 s1 (abs_nonneg _) (by linarith)
    rw [← abs_mul] at this
    exact (abs_le.1 this).1
  have o1 := over h1 (box y0 y1) (box z0 z1)
  have o2 := over h3 (box y0 y1) (box x0 x1)
  have o3 := over h5 (box z0 z1) (box x0 x1)
  rw [garnet_energy', mul_add, mul_add]
  unfold energy3
  unfold R at l ⊢
  linarith

/-- **C85.**  Garnet is one solution from 1200 K up, a kelvin more per 75 bars, whatever its composition, as long as
each end member makes up at least a hundred-thousandth of it. -/
theorem C85_garnet {t p : ℝ} (hp : 0 ≤ p) (ht : 1200 + p / 75 ≤ t) (h0 : ℕ → ℝ) (N : ℕ) (m : ℕ → ℝ)
    (hm : 0 < m 0 + m 1 + m 2) (hmin : ∀ i < 3, (m 0 + m 1 + m 2) / 100000 ≤ m i) :
    Engine.Unmix.split (garnet t p) h0 N m = none := by
  have hh : Hot t p := ⟨hp, ht⟩
  have t0 : 0 < t := by linarith [div_nonneg hp (by norm_num : (0 : ℝ) ≤ 75)]
  have hRt : 0 < R * t := mul_pos R_pos t0
  cases h : Engine.Unmix.split (garnet t p) h0 N m with
  | none => rfl
  | some r =>
    exfalso
    obtain ⟨r', y, e1, e2, -⟩ := Engine.Unmix.C74_below_tangent h
    obtain ⟨b, hb⟩ : ∃ b, b = Engine.Unmix.ref (garnet t p) m := ⟨_, rfl⟩
    rw [← hb] at e2
    have hy : ((0 ≤ y 0 ∧ y 0 ≤ 1) ∧ 0 ≤ y 1 ∧ y 1 ≤ 1) ∧ y 0 + y 1 ≤ 1 := by
      simp only [garnet] at e1
      split_ifs at e1 with hc
      injection e1 with e1
      rw [← e1]; exact hc
    have ht' : total (fun k : Fin 3 => m k) = m 0 + m 1 + m 2 := by simp [total, Fin.sum_univ_three]
    have b0 : b 0 = m 0 / (m 0 + m 1 + m 2) := by
      rw [hb]
      simp [Engine.Unmix.ref, garnet, solution3, toR, ht', hm.ne', Garnet.dep, Fin.succAbove]
    have b1 : b 1 = m 1 / (m 0 + m 1 + m 2) := by
      rw [hb]
      simp [Engine.Unmix.ref, garnet, solution3, toR, ht', hm.ne', Garnet.dep, Fin.succAbove]
    have m0 := hmin 0 (by norm_num)
    have m1 := hmin 1 (by norm_num)
    have m2 := hmin 2 (by norm_num)
    have hb0 : 1 / 100000 ≤ b 0 := by rw [b0, le_div_iff₀ hm]; linarith
    have hb1 : 1 / 100000 ≤ b 1 := by rw [b1, le_div_iff₀ hm]; linarith
    have hb2 : 1 / 100000 ≤ 1 - b 0 - b 1 := by
      have : 1 - b 0 - b 1 = m 2 / (m 0 + m 1 + m 2) := by
        rw [b0, b1]
        field_simp
        ring
      rw [this, le_div_iff₀ hm]; linarith
    have he : eps < 1 / 100000 := by unfold eps; norm_num
    have hg : ∀ u v : ℝ, Garnet.mix.g t p ![u, v] = Garnet.G t p u v (clamp u) (clamp v) (clamp (1 - u - v)) := fun u v => rfl
    have vec : ∀ r : ℕ → ℝ, (fun i : Fin 2 => r i) = ![r 0, r 1] := fun r => by
      funext i; fin_cases i <;> rfl
    have hin : ∀ u v : ℝ, u > eps → v > eps → 1 - u - v > eps →
        Garnet.mix.g t p ![u, v] = energy3 t p u v (1 - u - v) := fun u v i j k => by
      rw [hg, clamp_of i, clamp_of j, clamp_of k, garnet_energy _ _ _ _ rfl]
    obtain ⟨f, hf⟩ : ∃ f : ℝ → ℝ, f = fun s => energy3 t p (b 0 + s * (y 0 - b 0)) (b 1 + s * (y 1 - b 1))
        (1 - b 0 - b 1 + s * (1 - y 0 - y 1 - (1 - b 0 - b 1))) := ⟨_, rfl⟩
    have hconv : ConvexOn ℝ (Icc 0 1) f := by
      rw [hf]
      exact energy3_line hh (by linarith) (by linarith) (by linarith) (by ring) hy.1.1.1 hy.1.2.1 (by linarith [hy.2]) (by ring)
    have hder : HasDerivAt f (Garnet.mix.gr t p ![b 0, b 1] 0 * (y 0 - b 0) + Garnet.mix.gr t p ![b 0, b 1] 1 * (y 1 - b 1)) 0 := by
      have hI : Interior Garnet.raw ![b 0, b 1] := by
        intro k
        fin_cases k
        · show b 0 > eps; linarith
        · show b 1 > eps; linarith
        · show 1 - b 0 - b 1 > eps; linarith
      have hd := Garnet.consistent.g_r t p _ hI
      unfold Grad at hd
      have hc : HasDerivAt (fun s : ℝ => ![b 0 + s * (y 0 - b 0), b 1 + s * (y 1 - b 1)]) ![y 0 - b 0, y 1 - b 1] 0 := by
        refine hasDerivAt_pi.2 fun i => ?_
        fin_cases i
        · exact lin _ _ _
        · exact lin _ _ _
      have := HasFDerivAt.comp_hasDerivAt_of_eq (0 : ℝ) hd hc (by simp)
      refine (this.congr_deriv (by simp [Fin.sum_univ_two])).congr_of_eventuallyEq ?_
      have c : ∀ a d : ℝ, 1 / 100000 ≤ a → ∀ᶠ s in nhds (0 : ℝ), eps < a + s * d := fun a d ha =>
        (lin a d 0).continuousAt.eventually (lt_mem_nhds (by simp only [zero_mul, add_zero]; linarith))
      filter_upwards [c _ (y 0 - b 0) hb0, c _ (y 1 - b 1) hb1, c _ (1 - y 0 - y 1 - (1 - b 0 - b 1)) hb2] with s i j k
      have e : 1 - (b 0 + s * (y 0 - b 0)) - (b 1 + s * (y 1 - b 1)) =
          1 - b 0 - b 1 + s * (1 - y 0 - y 1 - (1 - b 0 - b 1)) := by ring
      show f s = Garnet.mix.g t p ![b 0 + s * (y 0 - b 0), b 1 + s * (y 1 - b 1)]
      rw [hin _ _ i j (by rw [e]; exact k), e, hf]
    have htan := tangent hconv (b := 0) (x := 1) (by simp) (by simp) hder
    have f0 : f 0 = Garnet.mix.g t p ![b 0, b 1] := by
      rw [hin _ _ (by linarith) (by linarith) (by linarith), hf]
      simp
    have f1 : f 1 - 400 * eps * (R * t) ≤ Garnet.mix.g t p ![y 0, y 1] := by
      rw [hg]
      have : f 1 = energy3 t p (y 0) (y 1) (1 - y 0 - y 1) := by rw [hf]; simp
      rw [this]
      exact energy3_clamp hh hy.1.1.1 hy.1.2.1 (by linarith [hy.2] : 0 ≤ 1 - y 0 - y 1) (by ring)
    have neg : Garnet.mix.g t p ![b 0, b 1] ≤ -(R * t) * (199 / 10000000) := by
      rw [hin _ _ (by linarith) (by linarith) (by linarith)]
      refine (energy3_le hh (by linarith) (by linarith) (by linarith) (by ring)).trans ?_
      have k1 := mul_nonneg (sub_nonneg.2 hb0) (sub_nonneg.2 hb1)
      have k2 := mul_nonneg (sub_nonneg.2 hb1) (sub_nonneg.2 hb2)
      have k3 := mul_nonneg (sub_nonneg.2 hb2) (sub_nonneg.2 hb0)
      have k : 199 / 10000000 ≤ b 0 * b 1 + b 1 * (1 - b 0 - b 1) + (1 - b 0 - b 1) * b 0 := by linarith
      have := mul_le_mul_of_nonneg_left k hRt.le
      linarith
    have hsm : Engine.Saturation.small = 1 / 2 ^ 26 := by
      unfold Engine.Saturation.small Engine.Saturation.eps
      rw [show (1 : ℝ) / 2 ^ 52 = (1 / 2 ^ 26) ^ 2 by norm_num]
      exact Real.sqrt_sq (by positivity)
    have hes : eps = 1 / 2 ^ 52 := rfl
    have hna : (garnet t p).na = 3 := rfl
    have hgm : ∀ r : ℕ → ℝ, (garnet t p).gmix r = Garnet.mix.g t p ![r 0, r 1] := fun r => by
      rw [← vec]; rfl
    have hdg : ∀ r : ℕ → ℝ, (garnet t p).dgmix r 0 = Garnet.mix.gr t p ![r 0, r 1] 0 ∧
        (garnet t p).dgmix r 1 = Garnet.mix.gr t p ![r 0, r 1] 1 := fun r => by
      rw [← vec]; exact ⟨rfl, rfl⟩
    rw [hna, show 3 - 1 = 2 from rfl, Finset.sum_range_succ, Finset.sum_range_one, (hdg b).1, (hdg b).2, hgm, hgm, hsm,
      abs_of_neg (by nlinarith)] at e2
    rw [hes] at f1
    rw [f0] at htan
    nlinarith

/-- **C85.**  Up to 910 K garnet with at most one part in a hundred of almandine and twice as much pyrope as grossular loses
energy by separating into a garnet richer and one poorer in grossular. -/
theorem C85_garnet_gap {t p x : ℝ} (hp : 0 ≤ p) (ht : 0 < t) (h : t ≤ 910) (x0 : eps < x) (x1 : x ≤ 1 / 100) :
    ∃ s, 0 < s ∧ s < 1 / 3 ∧ ∀ h, 0 < h → h ≤ s →
      (Garnet.mix.g t p ![x, (1 - x) / 3 - h] + Garnet.mix.g t p ![x, (1 - x) / 3 + h]) / 2 <
        Garnet.mix.g t p ![x, (1 - x) / 3] := by
  have e0 := eps_pos
  have he : eps < 1 / 100000 := by unfold eps; norm_num
  have hI : ∀ y, eps < y → y < 1 - x - eps → Interior Garnet.raw ![x, y] := by
    intro y a b k
    fin_cases k
    · show x > eps; linarith
    · show y > eps; linarith
    · show 1 - x - y > eps; linarith
  have hc : ∀ y, HasDerivAt (fun y : ℝ => ![x, y]) ![0, 1] y := fun y => by
    refine hasDerivAt_pi.2 fun i => ?_
    fin_cases i
    · exact hasDerivAt_const y x
    · exact hasDerivAt_id y
  have d1 : ∀ y, eps < y → y < 1 - x - eps →
      HasDerivAt (fun y => Garnet.mix.g t p ![x, y]) (Garnet.mix.gr t p ![x, y] 1) y := fun y a b => by
    have hg := Garnet.consistent.g_r t p _ (hI y a b)
    unfold Grad at hg
    exact (HasFDerivAt.comp_hasDerivAt_of_eq y hg (hc y) rfl).congr_deriv (by simp [Fin.sum_univ_two])
  have ya : eps < (1 - x) / 3 := by linarith
  have yb : (1 - x) / 3 < 1 - x - eps := by linarith
  have d2 : HasDerivAt (fun y => Garnet.mix.gr t p ![x, y] 1) (Garnet.mix.grr t p ![x, (1 - x) / 3] 1 1) ((1 - x) / 3) := by
    have hg := Garnet.consistent.g_rr t p _ (hI _ ya yb) 1
    unfold Grad at hg
    exact (HasFDerivAt.comp_hasDerivAt_of_eq _ hg (hc _) rfl).congr_deriv (by simp [Fin.sum_univ_two])
  obtain ⟨s, s0, a, b, hs⟩ := dip (lo := eps) (hi := 1 - x - eps) ya yb d1 d2 (by
    show Garnet.D2GDR1R1 t p x ((1 - x) / 3) (clamp x) (clamp ((1 - x) / 3)) (clamp (1 - x - (1 - x) / 3)) < 0
    rw [clamp_of x0, clamp_of ya, clamp_of (show 1 - x - (1 - x) / 3 > eps by linarith)]
    have n : 1 - x ≠ 0 := by linarith
    have i : 1 / ((1 - x) / 3) + 1 / (1 - x - (1 - x) / 3) = 9 / 2 / (1 - x) := by
      rw [show 1 - x - (1 - x) / 3 = 2 * (1 - x) / 3 by ring]
      field_simp
      ring
    have j : 9 / 2 / (1 - x) ≤ 9 / 2 / (99 / 100) := div_le_div_of_nonneg_left (by norm_num) (by norm_num) (by linarith)
    have k := mul_le_mul_of_nonneg_left j (show 0 ≤ 3 * R * t by have := R_pos; positivity)
    simp only [Garnet.D2GDR1R1, Garnet.WG112, Garnet.WG122, Garnet.WG113, Garnet.WG133, Garnet.WG223, Garnet.WG233, Garnet.WG123,
      Garnet.WH112, Garnet.WS112, Garnet.WV112, Garnet.WH122, Garnet.WS122, Garnet.WV122, Garnet.WH113, Garnet.WS113, Garnet.WV113,
      Garnet.WH133, Garnet.WS133, Garnet.WV133, Garnet.WH223, Garnet.WS223, Garnet.WV223, Garnet.WH233, Garnet.WS233, Garnet.WV233,
      Garnet.WH123, Garnet.WS123, Garnet.WV123]
    rw [i]
    unfold R at k ⊢
    nlinarith [mul_nonneg hp (sub_nonneg.2 x1), mul_nonneg hp (show 0 ≤ x by linarith), mul_nonneg ht.le (sub_nonneg.2 x1)])
  exact ⟨s, s0, by linarith, hs⟩

/-- Equal parts of the three end members at 1473 K and 1 bar. -/
example (h0 : ℕ → ℝ) (N : ℕ) : Engine.Unmix.split (garnet 1473 1) h0 N (fun _ => 1) = none :=
  C85_garnet (by norm_num) (by norm_num) h0 N _ (by norm_num) (by norm_num)

/-- One part in a hundred of almandine at 900 K and 1 kbar. -/
example : ∃ s, 0 < s ∧ s < 1 / 3 ∧ ∀ h, 0 < h → h ≤ s →
    (Garnet.mix.g 900 1000 ![1 / 100, (1 - 1 / 100) / 3 - h] + Garnet.mix.g 900 1000 ![1 / 100, (1 - 1 / 100) / 3 + h]) / 2 <
      Garnet.mix.g 900 1000 ![1 / 100, (1 - 1 / 100) / 3] :=
  C85_garnet_gap (by norm_num) (by norm_num) (by norm_num) (by unfold eps; norm_num) le_rfl

end

end Magma.Thermo.Mixing
