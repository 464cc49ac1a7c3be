import Verif.Thermo.Fluid.MixEnds

/-!
# C81: states above 2000 bar with both pure species, and at 2000 bar
-/

open Filter Topology

namespace Verif.Thermo.Fluid

open Verif.Thermo.Water

/-- A sufficient condition for the pressure to rise with the density up to `R`. -/
lemma dr_pos_of {k : Coef} {t r R : ℝ} (hr : 0 < r) (hR : r ≤ R) (hc : 0 ≤ k.c)
    (hB : 0 ≤ (inv k.a1 k.a2 k.a3 k.tc t).x) (hC : 0 ≤ (inv k.a4 k.a5 k.a6 k.tc t).x)
    (hD : 0 ≤ (inv k.a7 k.a8 k.a9 k.tc t).x)
    (hE : 0 ≤ 5 * (inv k.a7 k.a8 k.a9 k.tc t).x + 6 * (inv k.a10 k.a11 k.a12 k.tc t).x * R)
    (hF : |(inv 0 0 k.a k.tc t).x| * R ^ 2 * (3 * (|k.b| + k.c * R ^ 2) + 2 * (k.c * R ^ 2)
      + 2 * (k.c * R ^ 2) * (|k.b| + k.c * R ^ 2)) ≤ 1 / 2) : 0 < dr k t r := by
  have e0 : 0 < ee k r := Real.exp_pos _
  have e1 : ee k r ≤ 1 := Real.exp_le_one_iff.2 (by have := mul_nonneg hc (sq_nonneg r); linarith)
  unfold dr
  generalize (inv k.a1 k.a2 k.a3 k.tc t).x = B at *
  generalize (inv k.a4 k.a5 k.a6 k.tc t).x = C at *
  generalize (inv k.a7 k.a8 k.a9 k.tc t).x = d at *
  generalize (inv k.a10 k.a11 k.a12 k.tc t).x = E at *
  generalize (inv 0 0 k.a k.tc t).x = F at *
  generalize ee k r = e at *
  obtain ⟨q, hq⟩ : ∃ q, q = r ^ 2 := ⟨_, rfl⟩
  have q0 : 0 < q := by rw [hq]; positivity
  have hX : q ≤ R ^ 2 := by rw [hq]; exact pow_le_pow_left₀ hr.le hR 2
  have hq4 : r ^ 4 = q ^ 2 := by rw [hq]; ring
  have hq5 : r ^ 5 = q ^ 2 * r := by rw [hq]; ring
  rw [hq4, hq5, ← hq]
  have h5 : -(1 / 2) ≤ F * q * (3 * (k.b + k.c * q) + 2 * (k.c * q) - 2 * (k.c * q) * (k.b + k.c * q)) * e := by
    have aq : |q| ≤ R ^ 2 := by rw [abs_of_pos q0]; exact hX
    have aγ : |k.c| ≤ k.c := (abs_of_nonneg hc).le
    have ae : |e| ≤ 1 := by rw [abs_of_pos e0]; exact e1
    have b1 : |k.c * q| ≤ k.c * R ^ 2 := mulb aγ aq
    have b2 : |k.b + k.c * q| ≤ |k.b| + k.c * R ^ 2 := addb le_rfl b1
    have b3 : |3 * (k.b + k.c * q) + 2 * (k.c * q) + -(2 * (k.c * q) * (k.b + k.c * q))|
        ≤ 3 * (|k.b| + k.c * R ^ 2) + 2 * (k.c * R ^ 2) + 2 * (k.c * R ^ 2) * (|k.b| + k.c * R ^ 2) :=
      addb (addb (mulb (by norm_num) b2) (mulb (by norm_num) b1))
        (by rw [abs_neg]; exact mulb (mulb (by norm_num) b1) b2)
    have b4 := mulb (mulb (mulb (le_refl |F|) aq) b3) ae
    have := (abs_le.1 b4).1
    rw [← sub_eq_add_neg] at this
    linarith
  have h4 : 0 ≤ 5 * d * q ^ 2 + 6 * E * (q ^ 2 * r) := by
    have : 0 ≤ 5 * d + 6 * E * r := by
      rcases le_total 0 E with h' | h'
      · positivity
      · nlinarith
    have := mul_nonneg (sq_nonneg q) this
    linarith
  have : 0 ≤ 2 * B * r + 3 * C * q := by positivity
  linarith

/-- The CO2 coefficients at 2589 K. -/
lemma hot_inv (x y w : ℝ) (low : Bool) : (inv x y w (coef .co2 low).tc 2589).x
    = x + y * (304.1282 / 2589) ^ 2 + w * (304.1282 / 2589) ^ 3 := by
  have : (coef .co2 low).tc = 304.1282 := by cases low <;> rfl
  rw [this]
  simp only [inv]
  norm_num
  ring

lemma hot_key (low : Bool) {q : ℝ} (h1 : 2000 ≤ q) (h2 : q ≤ 2200) : ∃ v, 0 < v
    ∧ 0 < (coef .co2 low).z 2589 v
    ∧ (coef .co2 low).zv 2589 v / (coef .co2 low).z 2589 v ≠ 1 / v
    ∧ (coef .co2 low).press 2589 v = q := by
  have hd : ∀ r, 1 ≤ r → r ≤ 3 → 0 < dr (coef .co2 low) 2589 r := by
    intro r a b
    refine dr_pos_of (by linarith) b ?_ ?_ ?_ ?_ ?_ ?_ <;> (try simp only [hot_inv]) <;> cases low <;>
      simp only [coef] <;> norm_num [abs_of_pos, abs_of_neg]
  have e : ∀ r, 0 < ee (coef .co2 low) r ∧ ee (coef .co2 low) r ≤ 1 := ee_mem .co2 low
  have hend : (coef .co2 low).pc * 2589 / (coef .co2 low).tc * (1 * zr (coef .co2 low) 2589 1) < 2000
      ∧ 2200 < (coef .co2 low).pc * 2589 / (coef .co2 low).tc * (3 * zr (coef .co2 low) 2589 3) := by
    obtain ⟨a0, a1⟩ := e 1
    obtain ⟨b0, b1⟩ := e 3
    simp only [zr, hot_inv]
    generalize ee (coef .co2 low) 1 = x at *
    generalize ee (coef .co2 low) 3 = y at *
    cases low <;> simp only [coef] <;> norm_num <;> constructor <;> linarith
  have htc : 0 < (coef .co2 low).tc := by cases low <;> simp only [coef] <;> norm_num
  have hpc : 0 < (coef .co2 low).pc := by cases low <;> simp only [coef] <;> norm_num
  generalize coef .co2 low = k at *
  have hR : (0 : ℝ) < Rv := by norm_num [Rv]
  have hvc : 0 < k.vc := by unfold Coef.vc; positivity
  have hc : Continuous fun r => k.pc * 2589 / k.tc * (r * zr k 2589 r) := by
    unfold zr ee
    fun_prop
  obtain ⟨r, ⟨r1, r2⟩, hr⟩ := intermediate_value_Icc (by norm_num : (1 : ℝ) ≤ 3) hc.continuousOn
    (show q ∈ _ from ⟨hend.1.le.trans h1, h2.trans hend.2.le⟩)
  have r0 : 0 < r := by linarith
  obtain ⟨ez, ed⟩ := reduced (k := k) (t := 2589) hvc.ne' r0.ne'
  have hz : 0 < k.z 2589 (k.vc / r) := by
    rw [ez]
    have h3 : 0 < k.pc * 2589 / k.tc * (r * zr k 2589 r) := by
      simp only at hr
      rw [hr]; linarith
    exact pos_of_mul_pos_right (pos_of_mul_pos_right h3 (by positivity)) r0.le
  have hv : 0 < k.vc / r := by positivity
  refine ⟨k.vc / r, hv, hz, ?_, ?_⟩
  · intro h
    rw [div_eq_div_iff hz.ne' hv.ne', one_mul] at h
    have := hd r r1 r2
    rw [← ed] at this
    linarith
  · rw [Coef.press, ez, ← hr, Coef.vc]
    field_simp

lemma both_key (s : Species) (low : Bool) {q : ℝ} (h1 : 2000 ≤ q) (h2 : q ≤ 2200) : ∃ v, 0 < v
    ∧ 0 < (coef s low).z 2589 v
    ∧ (coef s low).zv 2589 v / (coef s low).z 2589 v ≠ 1 / v
    ∧ (coef s low).press 2589 v = q := by
  cases s
  · have e : 4 * (coef .h2o low).tc = 2589 := by cases low <;> norm_num [coef]
    have := above_key .h2o low q h1 h2
    rwa [e] at this
  · exact hot_key low h1 h2

lemma mix_key (s : Species) (low : Bool) {q : ℝ} (h1 : 2000 ≤ q) (h2 : q ≤ 2200) :
    CanSolve low 2589 s.x.2 q := by
  obtain ⟨v, a1, a2, a3, a4⟩ := both_key s low h1 h2
  have e : 1 - s.x.2 = s.x.1 := by cases s <;> simp [Species.x]
  refine ⟨v, a1, ?_, ?_, ?_⟩
  · rw [e, pure_z]; exact a2
  · rw [e, pure_z, pure_zv]; exact a3
  · rw [mixPress, e, pure_z]; exact a4

/-- **C81.**  At 2589 K and every pressure above 2000 and up to 2200 bar the hypotheses on the mixture and on both
pure species are met at every composition near enough to one or the other end. -/
theorem C81_states_hot (s : Species) {p : ℝ} (hp : 2000 < p) (hp' : p ≤ 2200) :
    ∀ᶠ r in 𝓝 s.x.2, ∃ V, MixFound V 2589 r p ∧ PureFound V 2589 p := by
  have hl : isLow p = false := decide_eq_false (not_le.2 hp)
  have hpure : ∀ s : Species, ∃ vol, Found s vol false 2589 p := fun s => by
    obtain ⟨v, c0, c1, c2, c3⟩ := both_key s false hp.le hp'
    obtain ⟨v1, a0, a1, a2, a3⟩ := both_key s true le_rfl (by norm_num)
    obtain ⟨v2, b0, b1, b2, b3⟩ := both_key s false le_rfl (by norm_num)
    obtain ⟨vol, h, -⟩ := found_above s (by norm_num) c0 a0 b0 c1 c2 c3 hp a1 a2 a3 b1 b2 b3
    exact ⟨vol, h⟩
  choose pure hpure using hpure
  have key : ∀ low q, 2000 ≤ q → q ≤ 2200 → ∀ᶠ r in 𝓝 s.x.2, CanSolve low 2589 r q := fun low q h1 h2 =>
    can_near (by norm_num) (mix_key s low h1 h2)
  filter_upwards [key false p hp.le hp', key true 2000 le_rfl (by norm_num), key false 2000 le_rfl (by norm_num)]
    with r b1 b2 b3
  obtain ⟨mix, hm⟩ := can_high (by norm_num) hp b1 b2 b3
  exact ⟨⟨mix, pure⟩, hm _, fun s => by rw [hl]; exact hpure s⟩

/-- The volume of mixing above 2000 bar. -/
example : ∃ V r, 0 < r ∧ r < 1 ∧ HasDerivAt (fun p => gmix V 2589 p r) (Rg / Rv * vmix V 2589 2100 r) 2100 := by
  have h := C81_states_hot .h2o (p := 2100) (by norm_num) (by norm_num)
  obtain ⟨δ, d0, hδ⟩ := Metric.eventually_nhds_iff.1 h
  have m0 : 0 < min (δ / 2) (1 / 2) := lt_min (by linarith) (by norm_num)
  have m1 := min_le_left (δ / 2) (1 / 2)
  have m2 := min_le_right (δ / 2) (1 / 2)
  obtain ⟨V, hV, hW⟩ := hδ (y := min (δ / 2) (1 / 2)) (by
    rw [Real.dist_eq, show Species.h2o.x.2 = 0 from rfl, sub_zero, abs_of_pos m0]; linarith)
  exact ⟨V, _, m0, by linarith, C81_volume (by norm_num) (by norm_num) (by norm_num) m0 (by linarith) hV hW⟩

/-- Continuity at 2000 bar is not vacuous: near the ends of the composition range. -/
example (s : Species) : ∀ᶠ r in 𝓝[Set.Ioo 0 1] s.x.2, ∃ V : Vols,
    ContinuousAt (fun p => gmix V 2589 p r) 2000 := by
  have key : ∀ low, ∀ᶠ r in 𝓝 s.x.2, CanSolve low 2589 r 2000 := fun low =>
    can_near (by norm_num) (mix_key s low le_rfl (by norm_num))
  have hpure : ∀ (s : Species) (low : Bool), ∃ vol, Solves (coef s low) vol 2589 2000 := fun s low => by
    obtain ⟨v, a0, a1, a2, a3⟩ := both_key s low le_rfl (by norm_num)
    obtain ⟨vol, -, -, h⟩ := C80_volume_exists (coef_good s low) (by norm_num) a0 a1 a2
    exact ⟨vol, by rw [a3] at h; exact h⟩
  choose pure hpure using hpure
  filter_upwards [nhdsWithin_le_nhds (key true), nhdsWithin_le_nhds (key false), self_mem_nhdsWithin]
    with r a b hr
  obtain ⟨f, hf⟩ := can_solves (by norm_num) a
  obtain ⟨g, hg⟩ := can_solves (by norm_num) b
  refine ⟨⟨fun low => if low then f else g, pure⟩, (C81_joint (by norm_num) hr.1 hr.2 (fun low => ?_)
    fun s low => hpure s low).1⟩
  cases low
  · exact hg
  · exact hf

/-- The ends: a state of the mixture whose volume at pure CO2 is that of pure CO2. -/
example : ∃ V : Vols, Tendsto (gmix V 1200 1) (𝓝[Set.Ioo 0 1] (1 : ℝ)) (𝓝 0) := by
  have hl : isLow 1 = true := decide_eq_true (by norm_num)
  have htc : (coef .co2 true).tc ≤ 1200 := by simp only [coef]; norm_num
  have hd : 100 * ((1 : ℝ) * (coef .co2 true).tc) ≤ (coef .co2 true).pc * 1200 := by simp only [coef]; norm_num
  obtain ⟨v, -, -, -, x, ⟨hx, hxe, -, hz, hst⟩, -⟩ := C80_search_dilute .co2 htc one_pos hd
  have hR : (0 : ℝ) < Rv := by norm_num [Rv]
  have hx0 : 0 < x := lt_of_lt_of_le (by positivity) hx
  have h1 : (1 : ℝ) - 1 = 0 := sub_self _
  have z := pure_z true 1200 x .co2
  have zv := pure_zv true 1200 x .co2
  simp only [Species.x] at z zv
  obtain ⟨vol, e, -, h⟩ := C81_volume_exists true (t := 1200) (r := 1) (by norm_num) hx0
    (by rw [h1, z]; exact hz) (by rw [h1, z, zv]; exact hst.ne)
  have e1 : mixPress true 1200 1 x = 1 := by
    rw [mixPress, h1, z, hxe, one_mul, div_self hx0.ne']
  rw [e1] at e h
  refine ⟨⟨fun _ => vol, fun _ _ _ => x⟩, (C81_ends (s := .co2) (by norm_num) one_pos ⟨?_, fun h' => ?_⟩
    ⟨e, fun h' => ?_⟩).1⟩
  · rw [hl]; exact h
  · simp [hl] at h'
  · simp [hl] at h'

end Verif.Thermo.Fluid
