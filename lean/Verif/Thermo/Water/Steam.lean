import Verif.Thermo.Water.Props
import Verif.Thermo.LiquidStd

/-!
# Water at one bar, the reference of the water dissolved in the melt
-/

open Filter Topology Real

namespace Verif.Thermo.Water

open StdState (Std Consistent Thermal Liq h2oMelts h2oMixed)

lemma abs_sum_le {ι : Type} (l : List ι) (f g : ι → ℝ) (h : ∀ i ∈ l, |f i| ≤ g i) :
    |(l.map f).sum| ≤ (l.map g).sum := by
  induction l with
  | nil => simp
  | cons a l ih =>
    simp only [List.map_cons, List.sum_cons]
    exact (abs_add_le _ _).trans (add_le_add (h a (by simp)) (ih fun i hi => h i (by simp [hi])))

lemma spots_r {t : ℝ} (h1 : 810 < t) (rh : ℝ) : (spots.map fun s => (spotJ s t rh).r).sum = 0
    ∧ (spots.map fun s => (spotJ s t rh).rr).sum = 0 := by
  constructor
  · rw [List.map_congr_left (g := fun _ => (0 : ℝ))]
    · simp
    · intro s hs
      have hc : cut (s.Q t rh).v = 0 := if_neg (not_lt.2 (spot_cold h1 s hs).le)
      simp [spotJ, hc]
  · rw [List.map_congr_left (g := fun _ => (0 : ℝ))]
    · simp
    · intro s hs
      have hc : cut (s.Q t rh).v = 0 := if_neg (not_lt.2 (spot_cold h1 s hs).le)
      simp [spotJ, hc]

lemma row_small {t r : ℝ} (h1 : 810 < t) (h3 : 0 < r) (h4 : r ≤ 0.001) (w : Row) (hk : 0 < w.k) :
    |(rowJ w t r).r| ≤ |w.g| * 0.001 ^ (w.k - 1)
    ∧ |(rowJ w t r).rr| ≤ |w.g| * ((w.k - 1 : ℕ) * 0.001 ^ (w.k - 2) + 0.001 ^ (w.k - 1)) := by
  have hτ : 1 ≤ tau t := by rw [tau, t0, le_div_iff₀ (by norm_num)]; linarith
  have hg : |w.g / tau t ^ w.l| ≤ |w.g| := by
    rw [abs_div, abs_of_pos (by positivity : 0 < tau t ^ w.l)]
    exact div_le_self (abs_nonneg _) (one_le_pow₀ hτ)
  have e0 : 0 < exp (-r) := exp_pos _
  have e1 : exp (-r) ≤ 1 := Real.exp_le_one_iff.2 (by linarith)
  have u0 : 0 ≤ erm r := by simp only [erm]; linarith
  have u1 : erm r ≤ 0.001 := by
    have := Real.add_one_le_exp (-r)
    simp only [erm]; linarith
  have up : ∀ n : ℕ, |erm r ^ n| ≤ 0.001 ^ n := fun n => by
    rw [abs_pow, abs_of_nonneg u0]; exact pow_le_pow_left₀ u0 u1 n
  have ab : |exp (-r)| ≤ 1 := by rw [abs_of_pos e0]; exact e1
  constructor
  · simp only [rowJ, abs_mul]
    calc _ ≤ |w.g| * 0.001 ^ (w.k - 1) * 1 := by
          refine mul_le_mul (mul_le_mul hg (up _) (abs_nonneg _) (abs_nonneg _)) ab (abs_nonneg _) (by positivity)
      _ = _ := mul_one _
  · simp only [rowJ]
    split_ifs with h
    · simp only [abs_mul]
      have hc : ((w.k : ℝ) - 1) = ((w.k - 1 : ℕ) : ℝ) := by push_cast [Nat.cast_sub hk]; ring
      calc _ ≤ |w.g| * ((w.k - 1 : ℕ) * 0.001 ^ (w.k - 2) + 0.001 ^ (w.k - 1)) * 1 := by
            refine mul_le_mul (mul_le_mul hg ?_ (abs_nonneg _) (abs_nonneg _)) ab (abs_nonneg _)
              (by positivity)
            refine (abs_sub _ _).trans (add_le_add ?_ (up _))
            rw [abs_mul, abs_mul, hc, abs_of_nonneg (Nat.cast_nonneg _)]
            calc _ ≤ ((w.k - 1 : ℕ) : ℝ) * 0.001 ^ (w.k - 2) * 1 :=
                  mul_le_mul (mul_le_mul_of_nonneg_left (up _) (Nat.cast_nonneg _)) ab (abs_nonneg _)
                    (by positivity)
              _ = _ := mul_one _
        _ = _ := mul_one _
    · have hk1 : w.k = 1 := by omega
      rw [abs_mul, neg_div, abs_neg, hk1]
      calc _ ≤ |w.g| * 1 := mul_le_mul hg ab (abs_nonneg _) (abs_nonneg _)
        _ = _ := by norm_num

lemma res_small {t r : ℝ} (h1 : 810 < t) (h3 : 0 < r) (h4 : r ≤ 0.001) :
    |(resJ t r).r| ≤ 70000 ∧ |(resJ t r).rr| ≤ 2000000 := by
  simp only [resJ, add_r, add_rr, sum_r, sum_rr, spots_r h1, add_zero]
  constructor
  · refine (abs_sum_le _ _ _ fun w hw => (row_small h1 h3 h4 w (rows_k w hw)).1).trans ?_
    simp only [rows, List.map_cons, List.map_nil, List.sum_cons, List.sum_nil]
    norm_num [abs_of_pos, abs_of_neg]
  · refine (abs_sum_le _ _ _ fun w hw => (row_small h1 h3 h4 w (rows_k w hw)).2).trans ?_
    simp only [rows, List.map_cons, List.map_nil, List.sum_cons, List.sum_nil]
    norm_num [abs_of_pos, abs_of_neg]

/-- At densities up to a milligram per cm³ the pressure rises with density by 3000 bar per g/cm³ at
least. -/
lemma slope {t r : ℝ} (h1 : 810 < t) (h2 : t ≤ 5000) (h3 : 0 < r) (h4 : r ≤ 0.001) :
    3000 ≤ deriv (press t) r := by
  have hs := sound h1 h2 h3 (by linarith)
  have e1 : r * (yJ t r).r = (yJ t r).v := by simp only [yJ]; ring
  have g1 : (gasJ t).r = 0 := rfl
  have g2 : (gasJ t).rr = 0 := rfl
  rw [← dpdrh_eq h1 h2 h3 (by linarith)]
  have hb := base_rr (t := t) (B := bJ t) (C := bbJ t) h3.ne' (sub_pos.2 hs.hy).ne' e1 rfl
  have hbr := b_range (by linarith : 647.073 ≤ t) h2
  obtain ⟨r1, r2⟩ := res_small h1 h3 h4
  rw [abs_le] at r1 r2
  have hbase : 3200 ≤ 2 * r * (baseJ t r).r + r * r * (baseJ t r).rr := by
    rw [show baseJ t r = timesRT t (baseZ t r (bJ t) (bbJ t) (yJ t r)) from rfl, hb]
    have y0 : 0 ≤ (yJ t r).v := by
      show 0 ≤ r * (bJ t).v / 4
      have := mul_pos h3 hbr.1
      linarith
    have hy1 : (yJ t r).v < 1 := hs.hy
    have q1 : (1 : ℝ) ≤ (1 + 2 * al * (yJ t r).v + 3 * be * (yJ t r).v * (yJ t r).v)
        / (1 - (yJ t r).v) ^ 3 := by
      rw [le_div_iff₀ (pow_pos (sub_pos.2 hy1) 3)]
      have : (1 - (yJ t r).v) ^ 3 ≤ 1 := pow_le_one₀ (by linarith) (by linarith)
      have : 0 ≤ 2 * al * (yJ t r).v + 3 * be * (yJ t r).v * (yJ t r).v := by
        simp only [al, be]; positivity
      linarith
    have q2 : 0 ≤ 3 * (yJ t r).v * (1 + al * (yJ t r).v + be * (yJ t r).v * (yJ t r).v)
        / (1 - (yJ t r).v) ^ 4 := by
      have := sub_pos.2 hy1
      simp only [al, be]; positivity
    have q3 : -0.02 ≤ 2 * 4 * (yJ t r).v * ((bbJ t).v / (bJ t).v - ga) := by
      have e : 2 * 4 * (yJ t r).v * ((bbJ t).v / (bJ t).v - ga)
          = 2 * r * (bbJ t).v - 7 * r * (bJ t).v := by
        show 2 * 4 * (r * (bJ t).v / 4) * ((bbJ t).v / (bJ t).v - 7 / 2) = _
        have := hbr.1.ne'
        field_simp
      rw [e]
      have hτ : 1 ≤ tau t := by rw [tau, t0, le_div_iff₀ (by norm_num)]; linarith
      have hbb : -6 ≤ (bbJ t).v := by
        simp only [bbJ, ofT, neg_div]
        have a1 : 0.5944001 / tau t ≤ 0.5944001 := div_le_self (by norm_num) hτ
        have a2 : 5.010996 / tau t ^ 2 ≤ 5.010996 := div_le_self (by norm_num) (one_le_pow₀ hτ)
        have a3 : 0 ≤ 0.63684256 / tau t ^ 4 := by positivity
        linarith
      nlinarith [hbr.2, mul_pos h3 hbr.1]
    have ht : 3700 ≤ rg * t := by simp only [rg]; linarith
    nlinarith
  simp only [dpdrh, helm, add_r, add_rr, g1, g2]
  have : r * r ≤ 0.000001 := by nlinarith
  have : 0 ≤ r * r := by positivity
  nlinarith

lemma press_cont {t r : ℝ} (h1 : 810 < t) (h2 : t ≤ 5000) (h3 : 0 < r) (h4 : r < 4) :
    DifferentiableAt ℝ (press t) r := (C79_newton h1 h2 h3 h4).differentiableAt

lemma press_mono {t : ℝ} (h1 : 810 < t) (h2 : t ≤ 5000) : StrictMonoOn (press t) (Set.Ioc 0 0.001) := by
  refine strictMonoOn_of_deriv_pos (convex_Ioc _ _) (fun x hx => ?_) fun x hx => ?_
  · exact (press_cont h1 h2 hx.1 (by linarith [hx.2])).continuousAt.continuousWithinAt
  · rw [interior_Ioc] at hx
    linarith [slope h1 h2 hx.1 hx.2.le]

lemma press_ends {t : ℝ} (h1 : 810 < t) (h2 : t < 5000) : 1 < press t 0.001
    ∧ ∃ a, 0 < a ∧ a < 0.0001 ∧ press t a < 1 := by
  have hsm : ∀ᶠ r in 𝓝[>] (0 : ℝ), r < 0.0001 := nhdsWithin_le_nhds (gt_mem_nhds (by norm_num))
  obtain ⟨a, ⟨-, ha⟩, ha2, ha1⟩ := ((C79_gas h1 h2).and (hsm.and self_mem_nhdsWithin)).exists
  have ha1 : 0 < a := ha1
  rw [abs_lt] at ha
  have hcont : ContinuousOn (press t) (Set.Icc a 0.001) := fun x hx =>
    (press_cont h1 h2.le (ha1.trans_le hx.1) (by linarith [hx.2])).continuousAt.continuousWithinAt
  have hdiff : DifferentiableOn ℝ (press t) (Set.Ioo a 0.001) := fun x hx =>
    (press_cont h1 h2.le (ha1.trans hx.1) (by linarith [hx.2])).differentiableWithinAt
  obtain ⟨c, hc, hce⟩ := exists_deriv_eq_slope (press t) (by linarith : a < 0.001) hcont hdiff
  have hsl := slope h1 h2.le (ha1.trans hc.1) hc.2.le
  rw [hce, le_div_iff₀ (by linarith)] at hsl
  exact ⟨by linarith, a, ha1, ha2, ha.2⟩

/-- **Steam at one bar**: at every temperature between 810 and 5000 K there is exactly one density of
at most a milligram per cm³ at which the pressure of the density loop is one bar. -/
theorem C79_steam {t : ℝ} (h1 : 810 < t) (h2 : t < 5000) : ∃! r, 0 < r ∧ r ≤ 0.001 ∧ loopP t r = 1 := by
  obtain ⟨hhi, a, ha1, ha2, ha⟩ := press_ends h1 h2
  have hcont : ContinuousOn (press t) (Set.Icc a 0.001) := fun x hx =>
    (press_cont h1 h2.le (ha1.trans_le hx.1) (by linarith [hx.2])).continuousAt.continuousWithinAt
  obtain ⟨r, hr, hre⟩ := intermediate_value_Icc (by linarith : a ≤ 0.001) hcont ⟨ha.le, hhi.le⟩
  refine ⟨r, ⟨ha1.trans_le hr.1, hr.2, ?_⟩, ?_⟩
  · rw [C79_loop_hot h1 h2.le (ha1.trans_le hr.1) (by linarith [hr.2])]; exact hre
  · rintro x ⟨x1, x2, x3⟩
    rw [C79_loop_hot h1 h2.le x1 (by linarith)] at x3
    exact (press_mono h1 h2.le).injOn ⟨x1, x2⟩ ⟨ha1.trans_le hr.1, hr.2⟩ (x3.trans hre.symm)

/-- A density of steam: what the density loop solves for at one bar, at all temperatures near `t`. -/
def Steam (ρ : ℝ → ℝ) (t : ℝ) : Prop :=
  ∀ᶠ t' in 𝓝 t, 0 < ρ t' ∧ ρ t' ≤ 0.001 ∧ loopP t' (ρ t') = 1

/-- **Water at one bar is a consistent table**, once its enthalpy is taken as `G + TS`: the hypothesis of
the theorems on the dissolved water of the melt. -/
theorem C79_one_bar {ρ : ℝ → ℝ} {t : ℝ} (h1 : 810 < t) (h2 : t < 5000) (h : Steam ρ t) :
    Thermal (fun t => (atDensity true t (ρ t)).withH t) t := by
  obtain ⟨r0, r1, r2⟩ := h.self_of_nhds
  have r2' : press t (ρ t) = 1 := by rw [← C79_loop_hot h1 h2.le r0 (by linarith)]; exact r2
  have hd := slope h1 h2.le r0 r1
  obtain ⟨σ, e, hs⟩ := C79_density_exists h1 h2 r0 (by linarith) (by linarith : deriv (press t) (ρ t) ≠ 0)
  rw [r2'] at e hs
  have hd' : deriv (press t) (σ (t, 1)) ≠ 0 := by rw [e]; linarith
  have hc := ((gram_consistent h1 h2 hs hd').scale 1.80152).add (const_consistent (refer true).1 t 1)
  have r3 : ρ t < 0.001 := by
    refine lt_of_le_of_ne r1 fun h0 => ?_
    rw [h0] at r2'
    exact absurd (press_ends h1 h2).1 (by rw [r2']; exact lt_irrefl _)
  have cσ : ContinuousAt (fun t' => σ (t', 1)) t :=
    ContinuousAt.comp (g := σ) (f := fun t' : ℝ => (t', (1 : ℝ))) hs.cont (by fun_prop)
  have hsol : ∀ᶠ t' in 𝓝 t, loopP t' (σ (t', 1)) = 1 := by
    have : Tendsto (fun t' : ℝ => (t', (1 : ℝ))) (𝓝 t) (𝓝 (t, 1)) :=
      (by fun_prop : Continuous fun t' : ℝ => (t', (1 : ℝ))).tendsto t
    exact this.eventually hs.solves
  have same : ∀ᶠ t' in 𝓝 t, σ (t', 1) = ρ t' := by
    filter_upwards [lt_mem_nhds h1, gt_mem_nhds h2, h, hsol, cσ.eventually_const_lt (u := 0) (r0.trans_eq e.symm),
      cσ.eventually_lt_const (u := 0.001) (e.trans_lt r3)] with t' a1 a2 a3 a4 a5 a6
    exact (C79_steam a1 a2).unique ⟨a5, a6.le, a4⟩ a3
  have recs : ∀ t', σ (t', 1) = ρ t' → ∀ f : Std → ℝ, f (joules ((atDensity true t' (ρ t')).withH t'))
      = f ((perGram t' (σ (t', 1)) (helm t' (σ (t', 1)))).scale 1.80152
        + ⟨(refer true).1, (refer true).1, 0, 0, 0, 0, 0, 0, 0, 0, 0⟩) := by
    intro t' ht' f
    rw [ht', ← joules_at]
    rfl
  have at_t := recs t e
  exact {
    gibbs := Eventually.of_forall fun x => by simp only [Std.withH]; ring
    heat := by
      have := hc.heat
      rw [← at_t Std.cp] at this
      exact this.congr_of_eventuallyEq (same.mono fun x hx => recs x hx Std.h)
    heatS := by
      have := hc.heatS
      rw [← at_t Std.cp] at this
      exact this.congr_of_eventuallyEq (same.mono fun x hx => recs x hx Std.s)
    dcpdt := by
      have := hc.dcpdt
      rw [← at_t Std.dcpdt] at this
      exact this.congr_of_eventuallyEq (same.mono fun x hx => recs x hx Std.cp) }

/-- **Dissolved water in the melt, with the program's own table of water**: in MELTS 1.0, 1.1 and 1.2 the
component reports properties that agree with each other, at every pressure. -/
theorem C79_dissolved {ρ : ℝ → ℝ} {t : ℝ} (l : Liq) (p : ℝ) (h1 : 810 < t) (h2 : t < 5000) (h : Steam ρ t) :
    Consistent (h2oMelts (fun t => atDensity true t (ρ t)) l) t p
    ∧ Consistent (h2oMixed (fun t => atDensity true t (ρ t)) l) t p :=
  ⟨StdState.h2oMelts_consistent l p (by linarith) (C79_one_bar h1 h2 h),
    StdState.h2oMixed_consistent l p (by linarith) (C79_one_bar h1 h2 h)⟩

/-- There is such a density, at all temperatures of the range at once. -/
example : ∃ ρ, ∀ t, 810 < t → t < 5000 → Steam ρ t := by
  classical
  refine ⟨fun t => if h : 810 < t ∧ t < 5000 then (C79_steam h.1 h.2).choose else 0, fun t h1 h2 => ?_⟩
  filter_upwards [lt_mem_nhds h1, gt_mem_nhds h2] with t' a1 a2
  rw [dif_pos ⟨a1, a2⟩]
  exact (C79_steam a1 a2).choose_spec.1

end Verif.Thermo.Water
