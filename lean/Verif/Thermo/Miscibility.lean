import Verif.Engine.UnmixProps
import Verif.Thermo.Minerals.Binary
import Mathlib.Analysis.SpecialFunctions.Log.NegMulLog
import Mathlib.Analysis.Complex.ExponentialBounds

/-!
# C85: when the two-component solutions mix in all proportions

The test for unmixing (`Engine/Unmix`, check_coexisting_solids.c) applied to the two-component phases as coded
(`Minerals/Binary`), which replace a site fraction by `DBL_EPSILON` below that bound.
-/

open Set

namespace Magma.Thermo.Mixing

open Magma.Thermo.Extensive Magma.Thermo.Compo

noncomputable section

/-- A two-component phase as `checkForCoexistingSolids` calls it at fixed temperature and pressure: `gmix*`,
`con*` (biotite.c 266, 343, 348-349, the same in the other files with the dependent end member `dep`) and `test*`
(biotite.c 190-196). Moles and compositions are functions on all indices. -/
def solution (M : Mix 1) (dep : Fin 2) (t p : ℝ) : Engine.Unmix.Mix where
  na := 2
  conv m := fun i => if i = 0 then toR dep (fun k : Fin 2 => m k) 0 else 0
  frac r i := if i = (dep : ℕ) then 1 - r 0 else r 0
  dxdr _ i _ := if i = (dep : ℕ) then -1 else 1
  gmix r := M.g t p fun _ => r 0
  dgmix r _ := M.gr t p (fun _ => r 0) 0
  eval r := open Classical in if 0 ≤ r 0 ∧ r 0 ≤ 1 then some r else none

/-- Ideal mixing on one site and a factor `q` of the product of the two fractions. -/
def energy (t : ℝ) (q : ℝ → ℝ → ℝ) (x y : ℝ) : ℝ := R * t * (x * Real.log x + y * Real.log y) + x * y * q x y

/-- The energy of mixing of the phase is `energy`, at the clamped fractions. -/
def Form (M : Mix 1) (t p : ℝ) (q : ℝ → ℝ → ℝ) : Prop :=
  ∀ r, M.g t p r = energy t q (clamp (r 0)) (clamp (1 - r 0))

/-- The compositions away from the ends. -/
def Inside (r : Fin 1 → ℝ) : Prop := r 0 > eps ∧ 1 - r 0 > eps

lemma eps_lt : eps < 1 / 2 := by unfold eps; norm_num

/-- The tangent of a convex function lies below it. -/
lemma tangent {f : ℝ → ℝ} (hc : ConvexOn ℝ (Icc 0 1) f) {b x d : ℝ} (hb : b ∈ Icc (0 : ℝ) 1) (hx : x ∈ Icc (0 : ℝ) 1)
    (hd : HasDerivAt f d b) : f b + d * (x - b) ≤ f x := by
  rcases lt_trichotomy x b with h | h | h
  · have := hc.slope_le_of_hasDerivAt hx hb h hd
    rw [slope_def_field, div_le_iff₀ (by linarith)] at this
    linarith
  · subst h; simp
  · have := hc.le_slope_of_hasDerivAt hb hx h hd
    rw [slope_def_field, le_div_iff₀ (by linarith)] at this
    linarith

lemma convex {t : ℝ} {q : ℝ → ℝ → ℝ} {h1 h2 : ℝ → ℝ}
    (d1 : ∀ x, HasDerivAt (fun x => x * (1 - x) * q x (1 - x)) (h1 x) x) (d2 : ∀ x, HasDerivAt h1 (h2 x) x)
    (hpos : ∀ x, 0 < x → x < 1 → 0 ≤ R * t + x * (1 - x) * h2 x) :
    ConvexOn ℝ (Icc 0 1) fun x => energy t q x (1 - x) := by
  refine convexOn_of_hasDerivWithinAt2_nonneg (convex_Icc 0 1)
    (f' := fun x => R * t * (Real.log x - Real.log (1 - x)) + h1 x)
    (f'' := fun x => R * t * (1 / x + 1 / (1 - x)) + h2 x) ?_ ?_ ?_ ?_
  · have c1 : Continuous fun x : ℝ => x * Real.log x := Real.continuous_mul_log
    have c2 : Continuous fun x : ℝ => (1 - x) * Real.log (1 - x) :=
      Real.continuous_mul_log.comp (continuous_const.sub continuous_id)
    have c3 : Continuous fun x => x * (1 - x) * q x (1 - x) :=
      continuous_iff_continuousAt.2 fun x => (d1 x).continuousAt
    exact ((continuous_const.mul (c1.add c2)).add c3).continuousOn
  · intro x hx
    rw [interior_Icc] at hx
    have n0 := hx.1.ne'
    have n1 : 1 - x ≠ 0 := by linarith [hx.2]
    have e1 := (hasDerivAt_id x).mul (Real.hasDerivAt_log n0)
    have e0 : HasDerivAt (fun x : ℝ => 1 - x) (-1) x := by simpa using (hasDerivAt_id x).const_sub 1
    have e2 := e0.mul (e0.log n1)
    refine (((e1.add e2).const_mul (R * t)).add (d1 x)).hasDerivWithinAt.congr_deriv ?_
    simp only [id]
    field_simp
    ring
  · intro x hx
    rw [interior_Icc] at hx
    have n0 := hx.1.ne'
    have n1 : 1 - x ≠ 0 := by linarith [hx.2]
    have e0 : HasDerivAt (fun x : ℝ => 1 - x) (-1) x := by simpa using (hasDerivAt_id x).const_sub 1
    refine ((((Real.hasDerivAt_log n0).sub (e0.log n1)).const_mul (R * t)).add (d2 x)).hasDerivWithinAt.congr_deriv ?_
    field_simp
    ring
  · intro x hx
    rw [interior_Icc] at hx
    have p0 := hx.1
    have p1 : 0 < 1 - x := by linarith [hx.2]
    have := hpos x p0 hx.2
    have e : R * t * (1 / x + 1 / (1 - x)) + h2 x = (R * t + x * (1 - x) * h2 x) / (x * (1 - x)) := by
      field_simp
      ring
    rw [e]
    positivity

lemma clamp_ge (x : ℝ) : eps ≤ clamp x := by
  unfold clamp
  split_ifs with h
  · exact h.le
  · exact le_rfl

lemma log_eps : -(361 / 10) * eps ≤ eps * Real.log eps := by
  have h : Real.log eps = -(52 * Real.log 2) := by
    unfold eps
    rw [one_div, Real.log_inv, Real.log_pow]
    norm_num
  have := Real.log_two_lt_d9
  rw [h]
  nlinarith [eps_pos]

/-- Clamping lowers the energy by next to nothing. -/
lemma clamp_energy {t Q x : ℝ} {q : ℝ → ℝ → ℝ} (ht : 0 < t)
    (hq : ∀ x y, 0 ≤ x → x ≤ 1 → 0 ≤ y → y ≤ 1 → |q x y| ≤ Q) (hQ : Q ≤ 31 * (R * t)) (h0 : 0 ≤ x) (h1 : x ≤ 1) :
    energy t q x (1 - x) - 99 * eps * (R * t) ≤ energy t q (clamp x) (clamp (1 - x)) := by
  have hR := R_pos
  have hRt : 0 < R * t := by positivity
  have he := eps_pos
  have he2 := eps_lt
  have hl := log_eps
  have hl' := mul_le_mul_of_nonneg_left hl hRt.le
  have hc : 0 ≤ 99 * eps * (R * t) := by positivity
  have hQ' := mul_le_mul_of_nonneg_left hQ he.le
  -- a product with a small factor
  have small : ∀ u v, 0 ≤ u → u ≤ eps → 0 ≤ v → v ≤ 1 → |u * v * q u v| ≤ eps * Q ∧ |u * v * q v u| ≤ eps * Q := by
    intro u v a b c d
    have Q0 : 0 ≤ Q := (abs_nonneg _).trans (hq u v a (by linarith) c d)
    have k1 : u * v ≤ eps := by nlinarith
    have k0 : 0 ≤ u * v := by positivity
    rw [abs_mul (u * v), abs_mul (u * v), abs_of_nonneg k0]
    exact ⟨mul_le_mul k1 (hq u v a (by linarith) c d) (abs_nonneg _) he.le,
      mul_le_mul k1 (hq v u c d a (by linarith)) (abs_nonneg _) he.le⟩
  unfold energy
  by_cases ha : x > eps
  · by_cases hb : 1 - x > eps
    · rw [clamp_of ha, clamp_of hb]; linarith
    · rw [clamp_of ha, show clamp (1 - x) = eps from if_neg hb]
      push Not at hb
      have i1 := (abs_le.1 (small (1 - x) x (by linarith) hb h0 h1).2).2
      have i2 := (abs_le.1 (small eps x he.le le_rfl h0 h1).2).1
      have i3 := mul_le_mul_of_nonneg_left (Real.mul_log_nonpos (x := 1 - x) (by linarith) (by linarith)) hRt.le
      rw [show (1 - x) * x = x * (1 - x) by ring] at i1
      rw [show eps * x = x * eps by ring] at i2
      linarith
  · rw [show clamp x = eps from if_neg ha]
    push Not at ha
    rw [clamp_of (show 1 - x > eps by linarith)]
    have i1 := (abs_le.1 (small x (1 - x) h0 ha (by linarith) (by linarith)).1).2
    have i2 := (abs_le.1 (small eps (1 - x) he.le le_rfl (by linarith) (by linarith)).1).1
    have i3 := mul_le_mul_of_nonneg_left (Real.mul_log_nonpos h0 h1) hRt.le
    linarith

lemma slice {M : Mix 1} {t p x : ℝ} (h : Grad (M.g t p) (fun _ => x) (M.gr t p fun _ => x)) :
    HasDerivAt (fun x => M.g t p fun _ => x) (M.gr t p (fun _ => x) 0) x := by
  have hc : HasDerivAt (fun x : ℝ => (fun _ : Fin 1 => x)) (fun _ => 1) x :=
    hasDerivAt_pi.2 fun _ => hasDerivAt_id x
  unfold Grad at h
  exact (HasFDerivAt.comp_hasDerivAt_of_eq x h hc rfl).congr_deriv (by simp)

/-- A convex energy of mixing: the phase is never reported to unmix. -/
theorem no_split {M : Mix 1} {dep : Fin 2} {t p Q : ℝ} {q : ℝ → ℝ → ℝ} {raw : (Fin 1 → ℝ) → Fin 2 → ℝ}
    (hraw : ∀ r, raw r = ![r 0, 1 - r 0]) (hM : M.Consistent (Interior raw)) (hf : Form M t p q) (ht : 0 < t)
    (hconv : ConvexOn ℝ (Icc 0 1) fun x => energy t q x (1 - x))
    (hq : ∀ x y, 0 ≤ x → x ≤ 1 → 0 ≤ y → y ≤ 1 → |q x y| ≤ Q) (hQ : Q ≤ 31 * (R * t))
    (hhalf : q (1 / 2) (1 / 2) ≤ 23 / 10 * (R * t)) (h0 : ℕ → ℝ) (N : ℕ) (m : ℕ → ℝ)
    (hm : 0 < m 0 + m 1) (m0 : (m 0 + m 1) / 100000 ≤ m 0) (m1 : (m 0 + m 1) / 100000 ≤ m 1) :
    Engine.Unmix.split (solution M dep t p) h0 N m = none := by
  cases h : Engine.Unmix.split (solution M dep t p) h0 N m with
  | none => rfl
  | some r =>
    exfalso
    obtain ⟨r', y, e1, e2, -⟩ := Engine.Unmix.C74_below_tangent h
    have hRt : 0 < R * t := mul_pos R_pos ht
    have hy : 0 ≤ y 0 ∧ y 0 ≤ 1 := by
      simp only [solution] at e1
      split_ifs at e1 with hc
      injection e1 with e1
      rw [← e1]; exact hc
    obtain ⟨b, hb⟩ : ∃ b, b = toR dep (fun k : Fin 2 => m k) 0 := ⟨_, rfl⟩
    have hb' : 1 / 100000 ≤ b ∧ b ≤ 1 - 1 / 100000 := by
      have ht' : total (fun k : Fin 2 => m k) = m 0 + m 1 := by simp [total, Fin.sum_univ_two]
      rw [hb, toR, ht', if_pos hm.ne', le_div_iff₀ hm, div_le_iff₀ hm]
      fin_cases dep
      · simp [Fin.succAbove]
        constructor <;> linarith
      · simp [Fin.succAbove]
        constructor <;> linarith
    obtain ⟨f, hfd⟩ : ∃ f : ℝ → ℝ, f = fun x => energy t q x (1 - x) := ⟨_, rfl⟩
    rw [← hfd] at hconv
    have he : eps < 1 / 100000 := by unfold eps; norm_num
    have hin : ∀ x, 1 / 100000 ≤ x → x ≤ 1 - 1 / 100000 → M.g t p (fun _ => x) = f x := fun x a b => by
      rw [hf, clamp_of (show x > eps by linarith), clamp_of (show 1 - x > eps by linarith), hfd]
    have hlow : ∀ x, 0 ≤ x → x ≤ 1 → f x - 99 * eps * (R * t) ≤ M.g t p fun _ => x := fun x a b => by
      rw [hf, hfd]; exact clamp_energy ht hq hQ a b
    have hder : HasDerivAt f (M.gr t p (fun _ => b) 0) b := by
      have hI : Interior raw fun _ => b := by
        intro k
        rw [hraw]
        fin_cases k
        · show b > eps; linarith
        · show 1 - b > eps; linarith
      refine (slice (hM.g_r t p _ hI)).congr_of_eventuallyEq ?_
      have : ∀ᶠ x in nhds b, eps < x ∧ x < 1 - eps :=
        isOpen_Ioo.mem_nhds (show b ∈ Ioo eps (1 - eps) from ⟨by linarith, by linarith⟩)
      filter_upwards [this] with x hx
      rw [hf, clamp_of (show x > eps from hx.1), clamp_of (show 1 - x > eps by linarith [hx.2]), hfd]
    have htan := tangent hconv (b := b) (x := y 0) ⟨by linarith, by linarith⟩ ⟨hy.1, hy.2⟩ hder
    -- the energy is well below zero at `b`
    have f0 : f 0 = 0 := by rw [hfd]; simp [energy]
    have f1 : f 1 = 0 := by rw [hfd]; simp [energy]
    have fh : f (1 / 2) ≤ -(R * t) / 10 := by
      have : f (1 / 2) = R * t * (-Real.log 2) + 1 / 4 * q (1 / 2) (1 / 2) := by
        rw [hfd]
        simp only [energy]
        rw [show (1 - 1 / 2 : ℝ) = 1 / 2 by norm_num, show Real.log (1 / 2) = -Real.log 2 by
          rw [one_div, Real.log_inv]]
        ring
      have l2 := mul_le_mul_of_nonneg_left Real.log_two_gt_d9.le hRt.le
      rw [this]
      linarith
    have fb : f b ≤ -(R * t) * (2 / 1000000) := by
      have i0 : (0 : ℝ) ∈ Icc (0 : ℝ) 1 := by simp
      have i1 : (1 : ℝ) ∈ Icc (0 : ℝ) 1 := by simp
      have ih : (1 / 2 : ℝ) ∈ Icc (0 : ℝ) 1 := by constructor <;> norm_num
      rcases le_total b (1 / 2) with hb2 | hb2
      · have := hconv.2 i0 ih (show 0 ≤ 1 - 2 * b by linarith) (show 0 ≤ 2 * b by linarith) (by ring)
        simp only [smul_eq_mul, f0] at this
        rw [show (1 - 2 * b) * 0 + 2 * b * (1 / 2) = b by ring] at this
        have k := mul_le_mul_of_nonneg_left fh (show 0 ≤ 2 * b by linarith)
        nlinarith
      · have := hconv.2 i1 ih (show 0 ≤ 2 * b - 1 by linarith) (show 0 ≤ 2 - 2 * b by linarith) (by ring)
        simp only [smul_eq_mul, f1] at this
        rw [show (2 * b - 1) * 1 + (2 - 2 * b) * (1 / 2) = b by ring] at this
        have k := mul_le_mul_of_nonneg_left fh (show 0 ≤ 2 - 2 * b by linarith)
        nlinarith
    have hsm : Engine.Saturation.small = 1 / 2 ^ 26 := by
      unfold Engine.Saturation.small Engine.Saturation.eps
      rw [show (1 : ℝ) / 2 ^ 52 = (1 / 2 ^ 26) ^ 2 by norm_num]
      exact Real.sqrt_sq (by positivity)
    have er : Engine.Unmix.ref (solution M dep t p) m 0 = b := by
      simp [Engine.Unmix.ref, solution, hb]
    have el := hlow (y 0) hy.1 hy.2
    simp only [show (solution M dep t p).na = 2 from rfl, Finset.sum_range_one, Nat.add_one_sub_one, er, hsm] at e2
    simp only [solution] at e2
    have er' : (if (0 : ℕ) = 0 then toR dep (fun k : Fin 2 => m k) 0 else 0) = b := by simp [hb]
    simp only [Engine.Unmix.ref, if_true, ← hb] at e2
    rw [hin b hb'.1 hb'.2, abs_of_neg (by nlinarith)] at e2
    have hes : eps = 1 / 2 ^ 52 := rfl
    rw [hes] at el
    nlinarith

/-- A phase is one solution, whatever its composition, as long as both end members make up at least a
hundred-thousandth of it: `checkForCoexistingSolids` finds nothing it could unmix into. -/
def Mixes (M : Mix 1) (dep : Fin 2) (t p : ℝ) : Prop :=
  ∀ (h0 : ℕ → ℝ) (N : ℕ) (m : ℕ → ℝ), 0 < m 0 + m 1 → (m 0 + m 1) / 100000 ≤ m 0 → (m 0 + m 1) / 100000 ≤ m 1 →
    Engine.Unmix.split (solution M dep t p) h0 N m = none

/-- At the composition `x` the phase loses energy by separating into two neighbouring compositions. -/
def Unstable (M : Mix 1) (t p x : ℝ) : Prop :=
  ∃ s, 0 < s ∧ 0 < x - s ∧ x + s < 1 ∧ ∀ h, 0 < h → h ≤ s →
    (M.g t p (fun _ => x - h) + M.g t p (fun _ => x + h)) / 2 < M.g t p fun _ => x

/-- A function with negative second derivative lies above the mean of its values on either side. -/
lemma dip {g g' : ℝ → ℝ} {x lo hi c : ℝ} (x0 : lo < x) (x1 : x < hi)
    (d1 : ∀ y, lo < y → y < hi → HasDerivAt g (g' y) y) (d2 : HasDerivAt g' c x) (hneg : c < 0) :
    ∃ s, 0 < s ∧ lo < x - s ∧ x + s < hi ∧ ∀ h, 0 < h → h ≤ s → (g (x - h) + g (x + h)) / 2 < g x := by
  obtain ⟨e, e0, he⟩ : ∃ e, 0 < e ∧ ∀ y, |y - x| < e → y ≠ x → slope g' x y < 0 := by
    have := (hasDerivAt_iff_tendsto_slope.1 d2).eventually (gt_mem_nhds hneg)
    rw [eventually_nhdsWithin_iff] at this
    obtain ⟨e, e0, he⟩ := Metric.eventually_nhds_iff.1 this
    exact ⟨e, e0, fun y a b => he (by rwa [Real.dist_eq]) b⟩
  have hsep : ∀ h, 0 < h → h < e → g' (x + h) < g' (x - h) := by
    intro h a b
    have k1 := he (x + h) (by rw [show x + h - x = h by ring, abs_of_pos a]; exact b) (by linarith)
    have k2 := he (x - h) (by rw [show x - h - x = -h by ring, abs_neg, abs_of_pos a]; exact b) (by linarith)
    rw [slope_def_field, show x + h - x = h by ring, div_lt_iff₀ a] at k1
    rw [slope_def_field, show x - h - x = -h by ring, div_lt_iff_of_neg (by linarith)] at k2
    linarith
  obtain ⟨s, hs⟩ : ∃ s, s = min (e / 2) (min ((x - lo) / 2) ((hi - x) / 2)) := ⟨_, rfl⟩
  have s0 : 0 < s := by rw [hs]; exact lt_min (by linarith) (lt_min (by linarith) (by linarith))
  have s1 : s ≤ e / 2 := by rw [hs]; exact min_le_left _ _
  have s2 : s ≤ (x - lo) / 2 := by rw [hs]; exact (min_le_right _ _).trans (min_le_left _ _)
  have s3 : s ≤ (hi - x) / 2 := by rw [hs]; exact (min_le_right _ _).trans (min_le_right _ _)
  refine ⟨s, s0, by linarith, by linarith, fun h a b => ?_⟩
  have dsum : ∀ u, 0 ≤ u → u ≤ s → HasDerivAt (fun u => g (x - u) + g (x + u))
      (g' (x - u) * -1 + g' (x + u) * 1) u := by
    intro u a b
    have c1 : HasDerivAt (fun u : ℝ => x - u) (-1) u := by simpa using (hasDerivAt_id u).const_sub x
    have c2 : HasDerivAt (fun u : ℝ => x + u) 1 u := by simpa using (hasDerivAt_id u).const_add x
    exact ((d1 (x - u) (by linarith) (by linarith)).comp u c1).add
      ((d1 (x + u) (by linarith) (by linarith)).comp u c2)
  have hanti : StrictAntiOn (fun u => g (x - u) + g (x + u)) (Icc 0 s) := by
    refine strictAntiOn_of_deriv_neg (convex_Icc 0 s)
      (fun u hu => (dsum u hu.1 hu.2).continuousAt.continuousWithinAt) fun u hu => ?_
    rw [interior_Icc] at hu
    rw [(dsum u hu.1.le hu.2.le).deriv]
    have := hsep u hu.1 (by linarith [hu.2])
    linarith
  have := hanti ⟨le_rfl, s0.le⟩ ⟨a.le, b⟩ a
  simp only [sub_zero, add_zero] at this
  linarith

/-- **C85.**  Wherever the second derivative a two-component phase reports is negative, it loses energy by separating
into equal parts of any two compositions close enough on either side. -/
theorem C85_spinodal {M : Mix 1} {raw : (Fin 1 → ℝ) → Fin 2 → ℝ} (hraw : ∀ r, raw r = ![r 0, 1 - r 0])
    (hM : M.Consistent (Interior raw)) {t p x : ℝ} (x0 : eps < x) (x1 : eps < 1 - x)
    (hneg : M.grr t p (fun _ => x) 0 0 < 0) : Unstable M t p x := by
  have hI : ∀ y, eps < y → eps < 1 - y → Interior raw fun _ => y := by
    intro y a b k
    rw [hraw]
    fin_cases k
    · show y > eps; linarith
    · show 1 - y > eps; linarith
  have d2 : HasDerivAt (fun x => M.gr t p (fun _ => x) 0) (M.grr t p (fun _ => x) 0 0) x := by
    have h := hM.g_rr t p _ (hI x x0 x1) 0
    have hc : HasDerivAt (fun x : ℝ => (fun _ : Fin 1 => x)) (fun _ => 1) x :=
      hasDerivAt_pi.2 fun _ => hasDerivAt_id x
    unfold Grad at h
    exact (HasFDerivAt.comp_hasDerivAt_of_eq x h hc rfl).congr_deriv (by simp)
  obtain ⟨s, s0, a, b, h⟩ := dip (lo := eps) (hi := 1 - eps) (g := fun x => M.g t p fun _ => x) x0 (by linarith)
    (fun y a b => slice (hM.g_r t p _ (hI y a (by linarith)))) d2 hneg
  exact ⟨s, s0, eps_pos.trans a, by linarith [eps_pos], h⟩

/-! ### The phases -/

lemma wg_mixes {M : Mix 1} {dep : Fin 2} {t p A B : ℝ} {raw : (Fin 1 → ℝ) → Fin 2 → ℝ}
    (hraw : ∀ r, raw r = ![r 0, 1 - r 0]) (hM : M.Consistent (Interior raw))
    (hf : Form M t p fun x y => A * x + B * y) (ht : 0 < t)
    (hpos : ∀ x, 0 < x → x < 1 → 0 ≤ R * t + x * (1 - x) * (A * (2 - 6 * x) + B * (6 * x - 4)))
    (hQ : |A| + |B| ≤ 31 * (R * t)) (hhalf : (A + B) / 2 ≤ 23 / 10 * (R * t)) : Mixes M dep t p := by
  intro h0 N m hm m0 m1
  refine no_split (Q := |A| + |B|) hraw hM hf ht ?_ ?_ hQ (by linarith) h0 N m hm m0 m1
  · refine convex (h1 := fun x => A * (2 * x - 3 * x ^ 2) + B * (1 - 4 * x + 3 * x ^ 2))
      (h2 := fun x => A * (2 - 6 * x) + B * (6 * x - 4)) (fun x => ?_) (fun x => ?_) hpos
    · have := (((hasDerivAt_pow 2 x).sub (hasDerivAt_pow 3 x)).const_mul A).add
        ((((hasDerivAt_id x).sub ((hasDerivAt_pow 2 x).const_mul 2)).add (hasDerivAt_pow 3 x)).const_mul B)
      refine (this.congr_deriv ?_).congr_of_eventuallyEq (Filter.Eventually.of_forall fun y => ?_)
      · push_cast; ring
      · simp; ring
    · have := ((((hasDerivAt_id x).const_mul 2).sub ((hasDerivAt_pow 2 x).const_mul 3)).const_mul A).add
        (((((hasDerivAt_id x).const_mul 4).const_sub 1).add ((hasDerivAt_pow 2 x).const_mul 3)).const_mul B)
      refine (this.congr_deriv ?_).congr_of_eventuallyEq (Filter.Eventually.of_forall fun y => ?_)
      · push_cast; ring
      · simp
  · intro x y a b c d
    refine (abs_add_le _ _).trans (add_le_add ?_ ?_)
    · rw [abs_mul, abs_of_nonneg a]; exact mul_le_of_le_one_right (abs_nonneg _) b
    · rw [abs_mul, abs_of_nonneg c]; exact mul_le_of_le_one_right (abs_nonneg _) d

lemma rk_mixes {M : Mix 1} {dep : Fin 2} {t p a b c : ℝ} {raw : (Fin 1 → ℝ) → Fin 2 → ℝ}
    (hraw : ∀ r, raw r = ![r 0, 1 - r 0]) (hM : M.Consistent (Interior raw))
    (hf : Form M t p fun x y => a + b * (x - y) + c * (x - y) * (x - y)) (ht : 0 < t)
    (hpos : ∀ x, 0 < x → x < 1 →
      0 ≤ R * t + x * (1 - x) * (-2 * a - 6 * b * (2 * x - 1) + c * (2 - 12 * (2 * x - 1) ^ 2)))
    (hQ : |a| + |b| + |c| ≤ 31 * (R * t)) (hhalf : a ≤ 23 / 10 * (R * t)) : Mixes M dep t p := by
  intro h0 N m hm m0 m1
  refine no_split (Q := |a| + |b| + |c|) hraw hM hf ht ?_ ?_ hQ (by norm_num; linarith) h0 N m hm m0 m1
  · refine convex
      (h1 := fun x => a * (1 - 2 * x) + b * (-1 + 6 * x - 6 * x ^ 2) + c * (1 - 10 * x + 24 * x ^ 2 - 16 * x ^ 3))
      (h2 := fun x => -2 * a - 6 * b * (2 * x - 1) + c * (2 - 12 * (2 * x - 1) ^ 2)) (fun x => ?_) (fun x => ?_) hpos
    · have := ((((hasDerivAt_id x).sub (hasDerivAt_pow 2 x)).const_mul a).add
        ((((hasDerivAt_pow 2 x).const_mul 3).sub ((hasDerivAt_id x).add ((hasDerivAt_pow 3 x).const_mul 2))).const_mul b)).add
        ((((hasDerivAt_id x).sub ((hasDerivAt_pow 2 x).const_mul 5)).add
          (((hasDerivAt_pow 3 x).const_mul 8).sub ((hasDerivAt_pow 4 x).const_mul 4))).const_mul c)
      refine (this.congr_deriv ?_).congr_of_eventuallyEq (Filter.Eventually.of_forall fun y => ?_)
      · push_cast; ring
      · simp; ring
    · have := (((((hasDerivAt_id x).const_mul 2).const_sub 1).const_mul a).add
        (((((hasDerivAt_id x).const_mul 6).sub ((hasDerivAt_pow 2 x).const_mul 6)).sub_const 1).const_mul b)).add
        (((((hasDerivAt_pow 2 x).const_mul 24).sub ((hasDerivAt_id x).const_mul 10)).sub
          (((hasDerivAt_pow 3 x).const_mul 16).sub_const 1)).const_mul c)
      refine (this.congr_deriv ?_).congr_of_eventuallyEq (Filter.Eventually.of_forall fun y => ?_)
      · push_cast; ring
      · simp; ring
  · intro x y a0 a1 b0 b1
    have hu : |x - y| ≤ 1 := abs_le.2 ⟨by linarith, by linarith⟩
    refine (abs_add_le _ _).trans (add_le_add ((abs_add_le _ _).trans (add_le_add le_rfl ?_)) ?_)
    · rw [abs_mul]; exact mul_le_of_le_one_right (abs_nonneg _) hu
    · rw [mul_assoc, abs_mul, abs_mul]
      exact mul_le_of_le_one_right (abs_nonneg _) (mul_le_one₀ hu (abs_nonneg _) hu)

/-- **C85.**  Biotite (annite, phlogopite) is one solution from 808 K up and unstable at equal parts to 807 K. -/
theorem C85_biotite {t p : ℝ} (ht : 0 < t) :
    (808 ≤ t → Mixes Biotite.mix Biotite.dep t p) ∧ (t ≤ 807 → Unstable Biotite.mix t p (1 / 2)) := by
  constructor
  · intro h
    refine rk_mixes (a := Biotite.WHANPH) (b := 0) (c := 0) (fun _ => rfl) Biotite.consistent (fun r => ?_) ht
      (fun x x0 x1 => ?_) ?_ ?_
    · show Biotite.G t p (r 0) (clamp (r 0)) (clamp (1 - r 0)) = _
      simp only [Biotite.G, Biotite.H, Biotite.S, Biotite.V, energy]
      ring
    · unfold Biotite.WHANPH R
      nlinarith [sq_nonneg (x - 1 / 2)]
    · unfold Biotite.WHANPH R
      norm_num
      linarith
    · unfold Biotite.WHANPH R
      linarith
  · intro h
    refine C85_spinodal (fun _ => rfl) Biotite.consistent (by unfold eps; norm_num) (by unfold eps; norm_num) ?_
    show Biotite.D2GDR0R0 t p (1 / 2) (clamp ((1 / 2))) (clamp (1 - (1 / 2))) < 0
    rw [clamp_of (by unfold eps; norm_num), clamp_of (by unfold eps; norm_num)]
    unfold Biotite.D2GDR0R0 Biotite.WHANPH R
    norm_num
    linarith

lemma two_abs {a b c : ℝ} (h1 : a + b ≤ c) (h2 : a - b ≤ c) (h3 : -a + b ≤ c) (h4 : -a - b ≤ c) : |a| + |b| ≤ c := by
  rcases abs_cases a with ⟨e, -⟩ | ⟨e, -⟩ <;> rcases abs_cases b with ⟨k, -⟩ | ⟨k, -⟩ <;> linarith

lemma three_abs {a b c d : ℝ} (ha : -d ≤ 3 * a) (ha' : 3 * a ≤ d) (hb : -d ≤ 3 * b) (hb' : 3 * b ≤ d)
    (hc : -d ≤ 3 * c) (hc' : 3 * c ≤ d) : |a| + |b| + |c| ≤ d := by
  have := abs_le.2 (⟨by linarith, by linarith⟩ : -(d / 3) ≤ a ∧ a ≤ d / 3)
  have := abs_le.2 (⟨by linarith, by linarith⟩ : -(d / 3) ≤ b ∧ b ≤ d / 3)
  have := abs_le.2 (⟨by linarith, by linarith⟩ : -(d / 3) ≤ c ∧ c ≤ d / 3)
  linarith

/-- **C85.**  Olivine (the two-component model of olivine-sx.c) is one solution from 271 K up and unstable at equal parts to 270 K. -/
theorem C85_olivineSx {t p : ℝ} (ht : 0 < t) :
    (271 ≤ t → Mixes OlivineSx.mix OlivineSx.dep t p) ∧ (t ≤ 270 → Unstable OlivineSx.mix t p (1 / 2)) := by
  constructor
  · intro h
    refine wg_mixes (A := OlivineSx.WH112 - t * OlivineSx.WS112 + p * OlivineSx.WV112)
      (B := OlivineSx.WH122 - t * OlivineSx.WS122 + p * OlivineSx.WV122) (fun _ => rfl) OlivineSx.consistent (fun r => ?_) ht
      (fun x x0 x1 => ?_) ?_ ?_
    · show OlivineSx.G t p (r 0) (clamp (r 0)) (clamp (1 - r 0)) = _
      simp only [OlivineSx.G, OlivineSx.H, OlivineSx.S, OlivineSx.V, energy]
      ring
    · unfold OlivineSx.WH112 OlivineSx.WS112 OlivineSx.WV112 OlivineSx.WH122 OlivineSx.WS122 OlivineSx.WV122 R
      nlinarith [sq_nonneg (x - 1 / 2)]
    · unfold OlivineSx.WH112 OlivineSx.WS112 OlivineSx.WV112 OlivineSx.WH122 OlivineSx.WS122 OlivineSx.WV122 R
      refine two_abs ?_ ?_ ?_ ?_ <;> linarith
    · unfold OlivineSx.WH112 OlivineSx.WS112 OlivineSx.WV112 OlivineSx.WH122 OlivineSx.WS122 OlivineSx.WV122 R
      linarith
  · intro h
    refine C85_spinodal (fun _ => rfl) OlivineSx.consistent (by unfold eps; norm_num) (by unfold eps; norm_num) ?_
    show OlivineSx.D2GDR0R0 t p (1 / 2) (clamp (1 / 2)) (clamp (1 - 1 / 2)) < 0
    rw [clamp_of (by unfold eps; norm_num), clamp_of (by unfold eps; norm_num)]
    unfold OlivineSx.D2GDR0R0 OlivineSx.WG112 OlivineSx.WG122
    unfold OlivineSx.WH112 OlivineSx.WS112 OlivineSx.WV112 OlivineSx.WH122 OlivineSx.WS122 OlivineSx.WV122 R
    norm_num
    linarith

/-- **C85.**  Wadsleyite is one solution from 107 K up and unstable, with one third of the first end member, to 106 K. -/
theorem C85_wadsleyite {t p : ℝ} (ht : 0 < t) :
    (107 ≤ t → Mixes Wadsleyite.mix Wadsleyite.dep t p) ∧ (t ≤ 106 → Unstable Wadsleyite.mix t p (1 / 3)) := by
  constructor
  · intro h
    refine wg_mixes (A := Wadsleyite.WH112 - t * Wadsleyite.WS112 + p * Wadsleyite.WV112)
      (B := Wadsleyite.WH122 - t * Wadsleyite.WS122 + p * Wadsleyite.WV122) (fun _ => rfl) Wadsleyite.consistent (fun r => ?_) ht
      (fun x x0 x1 => ?_) ?_ ?_
    · show Wadsleyite.G t p (r 0) (clamp (r 0)) (clamp (1 - r 0)) = _
      simp only [Wadsleyite.G, Wadsleyite.H, Wadsleyite.S, Wadsleyite.V, energy]
      ring
    · unfold Wadsleyite.WH112 Wadsleyite.WS112 Wadsleyite.WV112 Wadsleyite.WH122 Wadsleyite.WS122 Wadsleyite.WV122 R
      nlinarith [mul_nonneg (show 0 ≤ 4 - 3 * x by linarith) (sq_nonneg (3 * x - 1))]
    · unfold Wadsleyite.WH112 Wadsleyite.WS112 Wadsleyite.WV112 Wadsleyite.WH122 Wadsleyite.WS122 Wadsleyite.WV122 R
      refine two_abs ?_ ?_ ?_ ?_ <;> linarith
    · unfold Wadsleyite.WH112 Wadsleyite.WS112 Wadsleyite.WV112 Wadsleyite.WH122 Wadsleyite.WS122 Wadsleyite.WV122 R
      linarith
  · intro h
    refine C85_spinodal (fun _ => rfl) Wadsleyite.consistent (by unfold eps; norm_num) (by unfold eps; norm_num) ?_
    show Wadsleyite.D2GDR0R0 t p (1 / 3) (clamp (1 / 3)) (clamp (1 - 1 / 3)) < 0
    rw [clamp_of (by unfold eps; norm_num), clamp_of (by unfold eps; norm_num)]
    unfold Wadsleyite.D2GDR0R0 Wadsleyite.WG112 Wadsleyite.WG122
    unfold Wadsleyite.WH112 Wadsleyite.WS112 Wadsleyite.WV112 Wadsleyite.WH122 Wadsleyite.WS122 Wadsleyite.WV122 R
    norm_num
    linarith

/-- **C85.**  Ringwoodite is one solution from 228 K up and unstable, with 19 fortieths of the first end member, to 227 K. -/
theorem C85_ringwoodite {t p : ℝ} (ht : 0 < t) :
    (228 ≤ t → Mixes Ringwoodite.mix Ringwoodite.dep t p) ∧ (t ≤ 227 → Unstable Ringwoodite.mix t p (19 / 40)) := by
  constructor
  · intro h
    refine wg_mixes (A := Ringwoodite.WH112 - t * Ringwoodite.WS112 + p * Ringwoodite.WV112)
      (B := Ringwoodite.WH122 - t * Ringwoodite.WS122 + p * Ringwoodite.WV122) (fun _ => rfl) Ringwoodite.consistent (fun r => ?_) ht
      (fun x x0 x1 => ?_) ?_ ?_
    · show Ringwoodite.G t p (r 0) (clamp (r 0)) (clamp (1 - r 0)) = _
      simp only [Ringwoodite.G, Ringwoodite.H, Ringwoodite.S, Ringwoodite.V, energy]
      ring
    · unfold Ringwoodite.WH112 Ringwoodite.WS112 Ringwoodite.WV112 Ringwoodite.WH122 Ringwoodite.WS122 Ringwoodite.WV122 R
      have k1 : 0 ≤ (t - 228) * (83143 / 10000 - 11 / 10 * (x * (1 - x) * (2 - 6 * x))) :=
        mul_nonneg (by linarith) (by nlinarith [mul_pos x0 (sub_pos.2 x1), mul_pos x0 x0])
      have k2 := mul_nonneg x0.le (sq_nonneg (x - 47531 / 100000))
      have k3 := mul_nonneg (sub_pos.2 x1).le (sq_nonneg (x - 47531 / 100000))
      nlinarith
    · unfold Ringwoodite.WH112 Ringwoodite.WS112 Ringwoodite.WV112 Ringwoodite.WH122 Ringwoodite.WS122 Ringwoodite.WV122 R
      refine two_abs ?_ ?_ ?_ ?_ <;> linarith
    · unfold Ringwoodite.WH112 Ringwoodite.WS112 Ringwoodite.WV112 Ringwoodite.WH122 Ringwoodite.WS122 Ringwoodite.WV122 R
      linarith
  · intro h
    refine C85_spinodal (fun _ => rfl) Ringwoodite.consistent (by unfold eps; norm_num) (by unfold eps; norm_num) ?_
    show Ringwoodite.D2GDR0R0 t p (19 / 40) (clamp (19 / 40)) (clamp (1 - 19 / 40)) < 0
    rw [clamp_of (by unfold eps; norm_num), clamp_of (by unfold eps; norm_num)]
    unfold Ringwoodite.D2GDR0R0 Ringwoodite.WG112 Ringwoodite.WG122
    unfold Ringwoodite.WH112 Ringwoodite.WS112 Ringwoodite.WV112 Ringwoodite.WH122 Ringwoodite.WS122 Ringwoodite.WV122 R
    norm_num
    linarith

/-- **C85.**  Wustite (periclase, wustite) is one solution from 1117 K up and unstable, with 423 thousandths of the first end member, to 1116 K. -/
theorem C85_wustite {t p : ℝ} (ht : 0 < t) :
    (1117 ≤ t → Mixes Wustite.mix Wustite.dep t p) ∧ (t ≤ 1116 → Unstable Wustite.mix t p (423 / 1000)) := by
  constructor
  · intro h
    refine wg_mixes (A := Wustite.WH112 - t * Wustite.WS112 + p * Wustite.WV112)
      (B := Wustite.WH122 - t * Wustite.WS122 + p * Wustite.WV122) (fun _ => rfl) Wustite.consistent (fun r => ?_) ht
      (fun x x0 x1 => ?_) ?_ ?_
    · show Wustite.G t p (r 0) (clamp (r 0)) (clamp (1 - r 0)) = _
      simp only [Wustite.G, Wustite.H, Wustite.S, Wustite.V, energy]
      ring
    · unfold Wustite.WH112 Wustite.WS112 Wustite.WV112 Wustite.WH122 Wustite.WS122 Wustite.WV122 R
      have k1 : 0 ≤ (t - 1117) * (83143 / 10000 + 139 / 25 * (x * (1 - x) * (4 - 6 * x))) :=
        mul_nonneg (by linarith) (by nlinarith [mul_pos x0 (sub_pos.2 x1), mul_pos x0 x0])
      have k2 := mul_nonneg x0.le (sq_nonneg (x - 42314 / 100000))
      have k3 := mul_nonneg (sub_pos.2 x1).le (sq_nonneg (x - 42314 / 100000))
      nlinarith
    · unfold Wustite.WH112 Wustite.WS112 Wustite.WV112 Wustite.WH122 Wustite.WS122 Wustite.WV122 R
      refine two_abs ?_ ?_ ?_ ?_ <;> linarith
    · unfold Wustite.WH112 Wustite.WS112 Wustite.WV112 Wustite.WH122 Wustite.WS122 Wustite.WV122 R
      linarith
  · intro h
    refine C85_spinodal (fun _ => rfl) Wustite.consistent (by unfold eps; norm_num) (by unfold eps; norm_num) ?_
    show Wustite.D2GDR0R0 t p (423 / 1000) (clamp (423 / 1000)) (clamp (1 - 423 / 1000)) < 0
    rw [clamp_of (by unfold eps; norm_num), clamp_of (by unfold eps; norm_num)]
    unfold Wustite.D2GDR0R0 Wustite.WG112 Wustite.WG122
    unfold Wustite.WH112 Wustite.WS112 Wustite.WV112 Wustite.WH122 Wustite.WS122 Wustite.WV122 R
    norm_num
    linarith

/-- **C85.**  Perovskite is one solution from 280 K up, one kelvin more per kilobar, and unstable, with a fifth of the first end member, to 271 K at any pressure. -/
theorem C85_perovskite {t p : ℝ} (ht : 0 < t) (hp : 0 ≤ p) :
    (280 + p / 1000 ≤ t → Mixes Perovskite.mix Perovskite.dep t p) ∧ (t ≤ 271 → Unstable Perovskite.mix t p (1 / 5)) := by
  constructor
  · intro h
    refine wg_mixes (A := Perovskite.WH112 - t * Perovskite.WS112 + p * Perovskite.WV112)
      (B := Perovskite.WH122 - t * Perovskite.WS122 + p * Perovskite.WV122) (fun _ => rfl) Perovskite.consistent (fun r => ?_) ht
      (fun x x0 x1 => ?_) ?_ ?_
    · show Perovskite.G t p (r 0) (clamp (r 0)) (clamp (1 - r 0)) = _
      simp only [Perovskite.G, Perovskite.H, Perovskite.S, Perovskite.V, energy]
      ring
    · unfold Perovskite.WH112 Perovskite.WS112 Perovskite.WV112 Perovskite.WH122 Perovskite.WS122 Perovskite.WV122 R
      have k1 : 0 ≤ (t - 280 - p / 1000) * (83143 / 10000 + x * (1 - x) * (109 / 50 + 27 / 25 * x)) :=
        mul_nonneg (by linarith) (by nlinarith [mul_pos x0 (sub_pos.2 x1), mul_pos (mul_pos x0 (sub_pos.2 x1)) x0])
      have k2 := mul_nonneg x0.le (sq_nonneg (x - 207 / 1000))
      have k3 := mul_nonneg (sub_pos.2 x1).le (sq_nonneg (x - 207 / 1000))
      have k4 : 0 ≤ p * (83143 / 10000000 + x * (1 - x) * (109 / 50 + 27 / 25 * x) / 1000
          - x * (1 - x) * (7 / 500 + 3 / 125 * x)) :=
        mul_nonneg hp (by nlinarith [mul_pos x0 (sub_pos.2 x1), mul_pos (mul_pos x0 (sub_pos.2 x1)) x0])
      nlinarith
    · unfold Perovskite.WH112 Perovskite.WS112 Perovskite.WV112 Perovskite.WH122 Perovskite.WS122 Perovskite.WV122 R
      refine two_abs ?_ ?_ ?_ ?_ <;> linarith
    · unfold Perovskite.WH112 Perovskite.WS112 Perovskite.WV112 Perovskite.WH122 Perovskite.WS122 Perovskite.WV122 R
      linarith
  · intro h
    refine C85_spinodal (fun _ => rfl) Perovskite.consistent (by unfold eps; norm_num) (by unfold eps; norm_num) ?_
    show Perovskite.D2GDR0R0 t p (1 / 5) (clamp (1 / 5)) (clamp (1 - 1 / 5)) < 0
    rw [clamp_of (by unfold eps; norm_num), clamp_of (by unfold eps; norm_num)]
    unfold Perovskite.D2GDR0R0 Perovskite.WG112 Perovskite.WG122
    unfold Perovskite.WH112 Perovskite.WS112 Perovskite.WV112 Perovskite.WH122 Perovskite.WS122 Perovskite.WV122 R
    norm_num
    linarith

/-- **C85.**  The two-component model of ilmenite.c is one solution at every temperature. -/
theorem C85_ilmenite {t p : ℝ} (ht : 0 < t) :
    Mixes Ilmenite.mix Ilmenite.dep t p := by
  · refine wg_mixes (A := Ilmenite.WH112 - t * Ilmenite.WS112 + p * Ilmenite.WV112)
      (B := Ilmenite.WH122 - t * Ilmenite.WS122 + p * Ilmenite.WV122) (fun _ => rfl) Ilmenite.consistent (fun r => ?_) ht
      (fun x x0 x1 => ?_) ?_ ?_
    · show Ilmenite.G t p (r 0) (clamp (r 0)) (clamp (1 - r 0)) = _
      simp only [Ilmenite.G, Ilmenite.H, Ilmenite.S, Ilmenite.V, energy]
      ring
    · unfold Ilmenite.WH112 Ilmenite.WS112 Ilmenite.WV112 Ilmenite.WH122 Ilmenite.WS122 Ilmenite.WV122 R
      nlinarith
    · unfold Ilmenite.WH112 Ilmenite.WS112 Ilmenite.WV112 Ilmenite.WH122 Ilmenite.WS122 Ilmenite.WV122 R
      refine two_abs ?_ ?_ ?_ ?_ <;> linarith
    · unfold Ilmenite.WH112 Ilmenite.WS112 Ilmenite.WV112 Ilmenite.WH122 Ilmenite.WS122 Ilmenite.WV122 R
      linarith

/-- **C85.**  Solid iron-nickel alloy is one solution from 120 K up. -/
theorem C85_alloySolid {t p : ℝ} (h : 120 ≤ t) : Mixes AlloySolid.mix AlloySolid.dep t p := by
  refine rk_mixes (a := AlloySolid.BH1 - t * AlloySolid.BS1) (b := AlloySolid.BH2 - t * AlloySolid.BS2)
    (c := AlloySolid.BH3 - t * AlloySolid.BS3) (fun _ => rfl) AlloySolid.consistent (fun r => ?_) (by linarith)
    (fun x x0 x1 => ?_) ?_ ?_
  · show AlloySolid.G t p (r 0) (clamp (r 0)) (clamp (1 - r 0)) = _
    simp only [AlloySolid.G, AlloySolid.H, AlloySolid.S, AlloySolid.V, energy]
    ring
  · unfold AlloySolid.BH1 AlloySolid.BH2 AlloySolid.BH3 AlloySolid.BS1 AlloySolid.BS2 AlloySolid.BS3 R
    have x2 := sub_pos.2 x1
    have k0 := mul_pos x0 x2
    have k1 : 0 ≤ (t - 120) * (83143 / 10000 + x * (1 - x) * (2 * AlloySolid.BS1 + 6 * AlloySolid.BS2 * (2 * x - 1)
        - AlloySolid.BS3 * (2 - 12 * (2 * x - 1) ^ 2))) := by
      unfold AlloySolid.BS1 AlloySolid.BS2 AlloySolid.BS3
      exact mul_nonneg (by linarith) (by nlinarith [mul_nonneg x0.le (sq_nonneg (x - 7 / 10)), mul_pos k0 k0])
    unfold AlloySolid.BS1 AlloySolid.BS2 AlloySolid.BS3 at k1
    nlinarith [mul_nonneg x2.le (sq_nonneg (x - 27 / 200)), mul_pos k0 (mul_pos x0 x0)]
  · unfold AlloySolid.BH1 AlloySolid.BH2 AlloySolid.BH3 AlloySolid.BS1 AlloySolid.BS2 AlloySolid.BS3 R
    refine (add_le_add (add_le_add (abs_le.2 ⟨?_, ?_⟩ : _ ≤ 14441 + 4 * t) (abs_le.2 ⟨?_, ?_⟩ : _ ≤ 9182 + 4 * t))
      (abs_le.2 ⟨?_, ?_⟩ : _ ≤ 1520 + 4 * t)).trans ?_ <;> linarith
  · unfold AlloySolid.BH1 AlloySolid.BS1 R
    linarith

/-- **C85.**  Liquid iron-nickel alloy is one solution from 120 K up. -/
theorem C85_alloyLiquid {t p : ℝ} (h : 120 ≤ t) : Mixes AlloyLiquid.mix AlloyLiquid.dep t p := by
  refine rk_mixes (a := AlloyLiquid.BH1 - t * AlloyLiquid.BS1) (b := AlloyLiquid.BH2 - t * AlloyLiquid.BS2)
    (c := AlloyLiquid.BH3 - t * AlloyLiquid.BS3) (fun _ => rfl) AlloyLiquid.consistent (fun r => ?_) (by linarith)
    (fun x x0 x1 => ?_) ?_ ?_
  · show AlloyLiquid.G t p (r 0) (clamp (r 0)) (clamp (1 - r 0)) = _
    simp only [AlloyLiquid.G, AlloyLiquid.H, AlloyLiquid.S, AlloyLiquid.V, energy]
    ring
  · unfold AlloyLiquid.BH1 AlloyLiquid.BH2 AlloyLiquid.BH3 AlloyLiquid.BS1 AlloyLiquid.BS2 AlloyLiquid.BS3 R
    have x2 := sub_pos.2 x1
    have k0 := mul_pos x0 x2
    have k1 : 0 ≤ (t - 120) * (83143 / 10000 + x * (1 - x) * (2 * AlloyLiquid.BS1 + 6 * AlloyLiquid.BS2 * (2 * x - 1)
        - AlloyLiquid.BS3 * (2 - 12 * (2 * x - 1) ^ 2))) := by
      unfold AlloyLiquid.BS1 AlloyLiquid.BS2 AlloyLiquid.BS3
      exact mul_nonneg (by linarith) (by nlinarith [mul_nonneg x0.le (sq_nonneg (x - 7 / 10)), mul_pos k0 k0])
    unfold AlloyLiquid.BS1 AlloyLiquid.BS2 AlloyLiquid.BS3 at k1
    nlinarith [mul_nonneg x2.le (sq_nonneg (x - 27 / 200)), mul_pos k0 (mul_pos x0 x0)]
  · unfold AlloyLiquid.BH1 AlloyLiquid.BH2 AlloyLiquid.BH3 AlloyLiquid.BS1 AlloyLiquid.BS2 AlloyLiquid.BS3 R
    refine (add_le_add (add_le_add (abs_le.2 ⟨?_, ?_⟩ : _ ≤ 17769 + 5 * t) (abs_le.2 ⟨?_, ?_⟩ : _ ≤ 9182 + 4 * t))
      (abs_le.2 ⟨?_, ?_⟩ : _ ≤ 1520 + 4 * t)).trans ?_ <;> linarith
  · unfold AlloyLiquid.BH1 AlloyLiquid.BS1 R
    linarith

/-- **C85.**  Where a phase is unstable there is a composition below its tangent plane: the function that
`checkForCoexistingSolids` minimises is negative there. -/
theorem C85_target {M : Mix 1} {dep : Fin 2} {t p x : ℝ} (h : Unstable M t p x) :
    ∃ y : ℕ → ℝ, (solution M dep t p).eval y = some y ∧ Engine.Unmix.height (solution M dep t p) (fun _ => x) y < 0 := by
  obtain ⟨s, s0, a, b, hs⟩ := h
  have k := hs s s0 le_rfl
  have e : ∀ c, 0 ≤ c → c ≤ 1 → (solution M dep t p).eval (fun _ => c) = some fun _ => c := fun c c0 c1 => by
    simp only [solution]
    rw [if_pos ⟨c0, c1⟩]
  have hh : ∀ c, Engine.Unmix.height (solution M dep t p) (fun _ => x) (fun _ => c) =
      M.g t p (fun _ => c) - M.g t p (fun _ => x) - M.gr t p (fun _ => x) 0 * (c - x) := fun c => by
    simp [Engine.Unmix.height, solution]
  by_cases k1 : M.g t p (fun _ => x - s) - M.g t p (fun _ => x) - M.gr t p (fun _ => x) 0 * (x - s - x) < 0
  · exact ⟨fun _ => x - s, e _ a.le (by linarith), by rw [hh]; exact k1⟩
  · refine ⟨fun _ => x + s, e _ (by linarith) b.le, ?_⟩
    rw [hh]
    push Not at k1
    nlinarith

/-- Biotite with equal parts of its end members at 1200 K and 1 kbar. -/
example (h0 : ℕ → ℝ) (N : ℕ) :
    Engine.Unmix.split (solution Biotite.mix Biotite.dep 1200 1000) h0 N (fun _ => 1) = none :=
  (C85_biotite (by norm_num)).1 (by norm_num) h0 N _ (by norm_num) (by norm_num) (by norm_num)

/-- Wustite at 1000 K and 1 bar. -/
example : Unstable Wustite.mix 1000 1 (423 / 1000) := (C85_wustite (by norm_num)).2 (by norm_num)

end

end Magma.Thermo.Mixing
