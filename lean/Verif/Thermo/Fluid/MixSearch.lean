import Verif.Thermo.Fluid.Gas
import Verif.Thermo.Fluid.MixTStates

/-!
# C84: the volume search of the H2O-CO2 mixture

The loops of `sources/fluidPhase.c` 1405-1434 are those of the pure species (`Search.lean`), on the mixture's
compressibility factor.
-/

open Filter Topology

namespace Verif.Thermo.Fluid

open Verif.Thermo.Water

/-- The volume the driver of the mixture finds (`fluidPhase.c` 1405-1434), without a message; simplifications as
in `search`. -/
noncomputable def mixSearch (low : Bool) (t p r : ℝ) : Option ℝ :=
  search (fun v => ((mixQ low t).at (1 - r) r).z v * Rv * t / p) (Rv * t / p)

lemma mix_h_D (low : Bool) (t p r : ℝ) {x : ℝ} (hx : x ≠ 0) :
    HasDerivAt (fun v => ((mixQ low t).at (1 - r) r).z v * Rv * t / p)
      (((mixQ low t).at (1 - r) r).zv x * (Rv * t / p)) x := by
  have h := (mix_z_D (mixQ low t) (r := r) hx).right
  refine ((h.mul_const (Rv * t / p)).congr_of_eventuallyEq (Eventually.of_forall fun v => ?_))
  simp only
  ring

/-- **C84.**  A volume the search of the mixture returns without a message solves the equation of state: either the
equation holds at it to a relative error of 100 machine epsilons, or an exact solution, a positive volume, lies
within 100 machine epsilons of it.  The hypothesis asks that the first loop end at positive volumes. -/
theorem C84_search {low : Bool} {t p r v : ℝ} (hp : p ≠ 0)
    (hin : ∀ a b d, avg (fun v => ((mixQ low t).at (1 - r) r).z v * Rv * t / p) 200 0 (Rv * t / p) 1 1
      = some (a, b, d) → 0 < a ∧ 0 < b) (hv : mixSearch low t p r = some v) :
    |((mixQ low t).at (1 - r) r).z v * Rv * t / p - v| ≤ v * 100 * eps
      ∨ ∃ x, 0 < x ∧ ((mixQ low t).at (1 - r) r).z x * Rv * t = p * x ∧ |v - x| < 100 * eps := by
  have hc : ContinuousOn (fun v => ((mixQ low t).at (1 - r) r).z v * Rv * t / p) (Set.Ioi 0) := fun x hx =>
    (mix_h_D low t p r (ne_of_gt hx)).continuousAt.continuousWithinAt
  rcases C80_search (S := Set.Ioi 0) Set.ordConnected_Ioi hc hin hv with h | ⟨x, hx, e, hd⟩
  · exact Or.inl h
  · refine Or.inr ⟨x, hx, ?_, hd⟩
    rw [div_eq_iff hp] at e
    rw [e, mul_comm]

/-- **C84.**  At every temperature and composition, with both sets of coefficients, there is a pressure below which
the search of the mixture starts at the volume of the ideal gas and stops by its tolerance without a message; the
volume it returns lies within 4 per cent of the start and satisfies the equation of state to 100 machine epsilons.
There is exactly one volume of at least half the start that solves the equation of state, and the volume returned
differs from it by less than 115 machine epsilons of itself; there the pressure falls with volume. -/
theorem C84_search_dilute (low : Bool) {t : ℝ} (ht : 0 < t) (r : ℝ) : ∃ p0, 0 < p0 ∧ ∀ p, 0 < p → p < p0 →
    ∃ v, mixSearch low t p r = some v
      ∧ |((mixQ low t).at (1 - r) r).z v * Rv * t / p - v| ≤ v * 100 * eps
      ∧ |v - Rv * t / p| ≤ Rv * t / p / 25
      ∧ ∃! x, Rv * t / p / 2 ≤ x ∧ ((mixQ low t).at (1 - r) r).z x * Rv * t = p * x
        ∧ |v - x| ≤ 115 * eps * v ∧ 0 < ((mixQ low t).at (1 - r) r).z x
        ∧ ((mixQ low t).at (1 - r) r).zv x / ((mixQ low t).at (1 - r) r).z x < 1 / x := by
  have hR : (0 : ℝ) < Rv := by norm_num [Rv]
  set l := (mixQ low t).at (1 - r) r with hl
  have hpw : ∀ n : ℕ, n ≠ 0 → ∀ c : ℝ, Tendsto (fun v : ℝ => c / v ^ n) atTop (𝓝 0) := fun n hn c =>
    tendsto_const_nhds.div_atTop (tendsto_pow_atTop hn)
  have h1 : ∀ c : ℝ, Tendsto (fun v : ℝ => c / v) atTop (𝓝 0) := fun c => by simpa using hpw 1 one_ne_zero c
  have hx : Tendsto (fun v => xp l.g v) atTop (𝓝 1) := by
    have := (Real.continuous_exp.tendsto 0).comp (hpw 2 two_ne_zero (-l.g))
    simpa [xp, Function.comp_def] using this
  have hz : Tendsto (fun v => l.z v) atTop (𝓝 1) := by
    have := (((((h1 l.b).const_add 1).add (hpw 2 two_ne_zero l.c)).add (hpw 4 (by norm_num) l.d)).add
      (hpw 5 (by norm_num) l.e)).add (((hpw 2 two_ne_zero l.f).mul ((hpw 2 two_ne_zero l.g).const_add l.be)).mul hx)
    simpa [Loc.z] using this
  have hzv : Tendsto (fun v => l.zv v * v) atTop (𝓝 0) := by
    have := ((((((h1 l.b).neg.sub ((hpw 2 two_ne_zero l.c).const_mul 2)).sub ((hpw 4 (by norm_num) l.d).const_mul 4)).sub
      ((hpw 5 (by norm_num) l.e).const_mul 5)).sub ((((hpw 2 two_ne_zero l.f).const_mul 2).mul
        ((hpw 2 two_ne_zero l.g).const_add l.be)).mul hx)).sub
        ((((hpw 2 two_ne_zero l.f).const_mul 2).mul (hpw 2 two_ne_zero l.g)).mul hx)).add
        (((((hpw 2 two_ne_zero l.f).const_mul 2).mul ((hpw 2 two_ne_zero l.g).const_add l.be)).mul
          (hpw 2 two_ne_zero l.g)).mul hx)
    simp only [zero_add, mul_zero, zero_mul, sub_zero, neg_zero, add_zero] at this
    refine this.congr' ?_
    filter_upwards [eventually_ne_atTop 0] with v hv
    simp only [Loc.zv]
    field_simp
  obtain ⟨N, hN⟩ := eventually_atTop.1 (((hz.eventually (Metric.closedBall_mem_nhds 1
    (show (0 : ℝ) < 1 / 50 by norm_num))).and (hzv.eventually (Metric.closedBall_mem_nhds 0
    (show (0 : ℝ) < 3 / 50 by norm_num)))).and (eventually_gt_atTop 0))
  have N0 : 0 < N := (hN N le_rfl).2
  refine ⟨Rv * t / (2 * N), by positivity, fun p hp hp1 => ?_⟩
  obtain ⟨v0, hv0⟩ : ∃ v0, v0 = Rv * t / p := ⟨_, rfl⟩
  have v0p : 0 < v0 := by rw [hv0]; positivity
  have hvN : N ≤ v0 / 2 := by
    rw [lt_div_iff₀ (by positivity)] at hp1
    rw [hv0, div_div, le_div_iff₀ (by positivity)]
    linarith
  unfold mixSearch
  rw [← hl, ← hv0]
  set h : ℝ → ℝ := fun v => l.z v * Rv * t / p with hh
  have hv : ∀ v, h v = l.z v * v0 := fun v => by simp only [hh, hv0]; ring
  have hder : ∀ x, v0 / 2 ≤ x → HasDerivAt h (l.zv x * v0) x := fun x hx => by
    have hx0 : x ≠ 0 := by linarith
    rw [hv0]
    exact mix_h_D low t p r hx0
  have hslope : ∀ x, v0 / 2 ≤ x → |l.zv x * v0| ≤ 3 / 25 := fun x hx => by
    have hx0 : 0 < x := by linarith
    have h1 := (hN x (hvN.trans hx)).1.2
    rw [Real.dist_eq, sub_zero, abs_mul, abs_of_pos hx0] at h1
    rw [abs_mul, abs_of_pos v0p]
    have := mul_le_mul_of_nonneg_left (show v0 ≤ 2 * x by linarith) (abs_nonneg (l.zv x))
    linarith
  have hlip : ∀ x y, v0 / 2 ≤ x → v0 / 2 ≤ y → |h x - h y| ≤ 3 / 25 * |x - y| := by
    intro x y hx hy
    have := (convex_Ici (v0 / 2)).norm_image_sub_le_of_norm_hasDerivWithin_le (f := h)
      (f' := fun x => l.zv x * v0) (C := 3 / 25) (fun z hz => (hder z hz).hasDerivWithinAt)
      (fun z hz => by rw [Real.norm_eq_abs]; exact hslope z hz) (Set.mem_Ici.2 hy) (Set.mem_Ici.2 hx)
    simpa [Real.norm_eq_abs] using this
  have h0 : |h v0 - v0| ≤ v0 / 50 := by
    have h1 := (hN v0 (by linarith)).1.1
    rw [Real.dist_eq] at h1
    rw [hv, show l.z v0 * v0 - v0 = (l.z v0 - 1) * v0 by ring, abs_mul, abs_of_pos v0p]
    linarith [mul_le_mul_of_nonneg_right h1 v0p.le]
  obtain ⟨a, b, d, hav, hda, hde, ha⟩ := avg_contract v0p h0 hlip
  have ha' := abs_le.1 ha
  have hsearch : search h v0 = some a := by
    unfold search
    rw [hav]
    simp only
    rw [if_neg (not_lt.2 hda.le)]
  -- the fixed point
  have hfix : ∃ x, v0 / 2 ≤ x ∧ h x = x := by
    have hcont : ContinuousOn (fun x => h x - x) (Set.Icc (v0 / 2) (2 * v0)) := fun x hx =>
      ((hder x hx.1).continuousAt.sub continuousAt_id).continuousWithinAt
    have hlow := hlip (v0 / 2) v0 le_rfl (by linarith)
    have hup := hlip (2 * v0) v0 (by linarith) (by linarith)
    rw [show v0 / 2 - v0 = -(v0 / 2) by ring, abs_neg, abs_of_pos (by positivity : 0 < v0 / 2)] at hlow
    rw [show 2 * v0 - v0 = v0 by ring, abs_of_pos v0p] at hup
    have i0 := abs_le.1 h0
    have i1 := abs_le.1 hlow
    have i2 := abs_le.1 hup
    have := intermediate_value_Icc' (by linarith : v0 / 2 ≤ 2 * v0) hcont
    obtain ⟨x, hx, hx0⟩ := this (show (0 : ℝ) ∈ _ from ⟨by linarith, by linarith⟩)
    exact ⟨x, hx.1, by simpa [sub_eq_zero] using hx0⟩
  obtain ⟨x, hx, hxe⟩ := hfix
  have hx0 : 0 < x := by linarith
  have heq : ∀ y, l.z y * Rv * t = p * y ↔ h y = y := fun y => by
    simp only [hh]
    rw [div_eq_iff hp.ne', mul_comm p y]
  refine ⟨a, hsearch, ?_, ha, x, ⟨hx, (heq x).2 hxe, ?_, ?_, ?_⟩, ?_⟩
  · rw [← hde]; exact hda.le
  · have h1 := hlip a x (by linarith [ha'.1]) hx
    rw [hxe] at h1
    have h2 : |a - x| ≤ |d| + 3 / 25 * |a - x| := by
      have : a - x = -(h a - a) + (h a - x) := by ring
      calc |a - x| = |-(h a - a) + (h a - x)| := by rw [← this]
        _ ≤ |h a - a| + |h a - x| := by rw [← abs_neg (h a - a)]; exact abs_add_le _ _
        _ ≤ _ := by rw [← hde]; linarith
    have e0 := eps_pos
    have apos : 0 < a := by linarith [ha'.1]
    have : 0 < a * eps := by positivity
    nlinarith
  · have : 0 < l.z x * v0 := by rw [← hv, hxe]; exact hx0
    exact pos_of_mul_pos_left this v0p.le
  · have hz : 0 < l.z x := pos_of_mul_pos_left (by rw [← hv, hxe]; exact hx0 : 0 < l.z x * v0) v0p.le
    rw [div_lt_div_iff₀ hz hx0]
    have h1 := (abs_le.1 (hslope x hx)).2
    have h2 : l.z x * v0 = x := by rw [← hv, hxe]
    have : l.zv x * x * v0 < 1 * l.z x * v0 := by nlinarith
    exact lt_of_mul_lt_mul_right this v0p.le
  · rintro y ⟨hy, hye, -⟩
    have hy' := (heq y).1 hye
    have h1 := hlip y x hy hx
    rw [hy', hxe] at h1
    have : |y - x| ≤ 0 := by linarith [abs_nonneg (y - x)]
    have := abs_nonpos_iff.1 this
    linarith

/-- **C84.**  At the ends of the composition range the search of the mixture is that of the pure species. -/
theorem C84_pure (low : Bool) (t p : ℝ) (s : Species) :
    mixSearch low t p s.x.2 = search (fun v => (coef s low).z t v * Rv * t / p) (Rv * t / p) := by
  have e1 : (1 - s.x.2, s.x.2) = s.x := by cases s <;> simp [Species.x]
  have e2 : 1 - s.x.2 = s.x.1 := (Prod.ext_iff.1 e1).1
  unfold mixSearch
  rw [e2]
  simp only [pure_z]

/-- **C84.**  The hypotheses of the theorems on the temperature derivatives of the mixture are met along the volume
the search of the mixture returns, to within 115 machine epsilons, at every composition and low pressure. -/
theorem C84_states {t : ℝ} (ht : 0 < t) (hreg : Regular true t) (r : ℝ) : ∃ p0, 0 < p0 ∧ p0 ≤ 2000 ∧
    ∀ p, 0 < p → p < p0 → ∃ (W : Bool → ℝ × ℝ → ℝ) (v : ℝ), TFound W r t p ∧ mixSearch (isLow p) t p r = some v
      ∧ |v - W (isLow p) (t, p)| ≤ 115 * eps * v := by
  obtain ⟨q, q0, hq⟩ := C84_search_dilute true ht r
  refine ⟨min q 2000, lt_min q0 (by norm_num), min_le_right _ _, fun p b0 b1 => ?_⟩
  have hl : isLow p = true := decide_eq_true (b1.trans_le (min_le_right _ _)).le
  obtain ⟨v, h1, -, -, x, ⟨hx, hxe, hvx, hz, hst⟩, -⟩ := hq p b0 (b1.trans_le (min_le_left _ _))
  have hR : (0 : ℝ) < Rv := by norm_num [Rv]
  have hx0 : 0 < x := lt_of_lt_of_le (by positivity) hx
  obtain ⟨vol, e1, -, hsol⟩ := C82_volume_exists true ht hreg hx0 hz hst.ne
  have e2 : mixPress true t r x = p := by
    unfold mixPress
    rw [hxe]
    field_simp
  rw [e2] at e1 hsol
  rw [hl]
  exact ⟨fun _ => vol, v, ⟨by rw [hl]; exact ⟨hsol, hreg⟩, fun h => by simp [hl] at h⟩, h1, by
    show |v - vol (t, p)| ≤ _
    rw [e1]; exact hvx⟩

end Verif.Thermo.Fluid
