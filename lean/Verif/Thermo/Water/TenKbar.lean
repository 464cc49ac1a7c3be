import Verif.Thermo.Water.Steam

/-!
# A state of water at 10 kbar

The theorem on water above 10 kbar supposes a density at 10 kbar with a slope that is not zero.  Here
such a state is exhibited, at twice the reference temperature of the equation of state (1021 °C).
-/

open Filter Topology Real

namespace Verif.Thermo.Water

open StdState (Std Consistent)

/-- The temperature, twice `t0`. -/
noncomputable def tt : ℝ := 1294.146

lemma tau_tt : tau tt = 2 := by norm_num [tau, tt, t0]

/-- The sum over the first thirty-six rows at that temperature, a polynomial. -/
noncomputable def Qp (u : ℝ) : ℝ := (595339639700963 / 3200000000000) * u ^ 0 + (12153486784081 / 1280000000) * u ^ 1 + (-350145580876201 / 2000000000) * u ^ 2 + (705365240887311 / 640000000) * u ^ 3 + (-11043897990012701 / 3200000000) * u ^ 4 + (891650299992989 / 160000000) * u ^ 5 + (-150096278669139 / 40000000) * u ^ 6 + (110474307141909 / 160000000) * u ^ 8
/-- Its derivative. -/
noncomputable def Qd (u : ℝ) : ℝ := (12153486784081 / 1280000000) * u ^ 0 + (-350145580876201 / 1000000000) * u ^ 1 + (2116095722661933 / 640000000) * u ^ 2 + (-11043897990012701 / 800000000) * u ^ 3 + (891650299992989 / 32000000) * u ^ 4 + (-450288836007417 / 20000000) * u ^ 5 + (110474307141909 / 20000000) * u ^ 7

lemma rows_Q (E u : ℝ) (r : ℝ) (hE : exp (-r) = E) (hu : erm r = u) :
    (rows.map fun w => (rowJ w tt r).r).sum = Qp u * E
    ∧ (rows.map fun w => (rowJ w tt r).rr).sum = (Qd u * E - Qp u) * E := by
  constructor
  · simp only [rows, List.map_cons, List.map_nil, List.sum_cons, List.sum_nil, rowJ, tau_tt, hE, hu, Qp]
    norm_num
    ring
  · simp only [rows, List.map_cons, List.map_nil, List.sum_cons, List.sum_nil, rowJ, tau_tt, hE, hu, Qp, Qd]
    norm_num
    ring

lemma Q_range {u : ℝ} (h0 : 0.5595 ≤ u) (h1 : u ≤ 0.564) :
    2594 + 21662 * (u - 0.5595) ≤ Qp u ∧ Qp u ≤ 2595 + 22000 * (u - 0.5595) ∧ 0 < Qd u := by
  obtain ⟨d, rfl⟩ : ∃ d, u = 0.5595 + d := ⟨u - 0.5595, by ring⟩
  have d0 : 0 ≤ d := by linarith
  have d1 : d ≤ 0.0045 := by linarith
  have p : ∀ n : ℕ, 0 ≤ d ^ n ∧ d ^ (n + 1) ≤ 0.0045 ^ n * d := fun n =>
    ⟨by positivity, by rw [pow_succ]; exact mul_le_mul_of_nonneg_right (pow_le_pow_left₀ d0 d1 n) d0⟩
  have p2 := (p 1).2
  have p3 := (p 2).2
  have p4 := (p 3).2
  have p5 := (p 4).2
  have p6 := (p 5).2
  have p7 := (p 6).2
  have p8 := (p 7).2
  have n2 := (p 2).1
  have n3 := (p 3).1
  have n4 := (p 4).1
  have n5 := (p 5).1
  have n6 := (p 6).1
  have n7 := (p 7).1
  have n8 := (p 8).1
  norm_num at p2 p3 p4 p5 p6 p7 p8
  simp only [Qp, Qd]
  ring_nf
  refine ⟨?_, ?_, ?_⟩ <;> linarith

lemma exp82 : 0.4404 < exp (-0.82) ∧ exp (-0.82) < 0.4405 := by
  have lo := Real.sum_le_exp_of_nonneg (x := 0.82) (by norm_num) 8
  have hi := Real.exp_bound' (x := 0.82) (by norm_num) (by norm_num) (n := 8) (by norm_num)
  simp only [Finset.sum_range_succ, Finset.sum_range_zero, Nat.factorial] at lo hi
  norm_num at lo hi
  rw [Real.exp_neg]
  constructor
  · rw [lt_inv_comm₀ (by norm_num) (exp_pos _)]; norm_num; linarith
  · rw [inv_lt_comm₀ (exp_pos _) (by norm_num)]; norm_num; linarith

lemma exp83 : 0.436 < exp (-0.83) ∧ exp (-0.83) < 0.4361 := by
  have lo := Real.sum_le_exp_of_nonneg (x := 0.83) (by norm_num) 8
  have hi := Real.exp_bound' (x := 0.83) (by norm_num) (by norm_num) (n := 8) (by norm_num)
  simp only [Finset.sum_range_succ, Finset.sum_range_zero, Nat.factorial] at lo hi
  norm_num at lo hi
  rw [Real.exp_neg]
  constructor
  · rw [lt_inv_comm₀ (by norm_num) (exp_pos _)]; norm_num; linarith
  · rw [inv_lt_comm₀ (exp_pos _) (by norm_num)]; norm_num; linarith

lemma b_tt : 0.5032 < (bJ tt).v ∧ (bJ tt).v < 0.50323 := by
  have h1 := Real.log_two_gt_d9
  have h2 := Real.log_two_lt_d9
  simp only [bJ, ofT, tau_tt]
  norm_num at h1 h2 ⊢
  constructor <;> linarith

lemma bb_tt : (bbJ tt).v = -0.38231299 := by
  simp only [bbJ, ofT, tau_tt]; norm_num

/-- The pressure at that temperature. -/
lemma press_tt {r : ℝ} (hr : 0 < r) (h4 : r ≤ 4) :
    press tt r = r * (r * exp (-r) * Qp (erm r) + rg * tt * ((1 + al * (r * (bJ tt).v / 4)
      + be * (r * (bJ tt).v / 4) * (r * (bJ tt).v / 4)) / (1 - r * (bJ tt).v / 4) ^ 3
      + r * (bbJ tt).v - 14 * (r * (bJ tt).v / 4))) := by
  have h1 : (810 : ℝ) < tt := by norm_num [tt]
  have h2 : tt ≤ 5000 := by norm_num [tt]
  have hs := sound h1 h2 hr h4
  have e1 : r * (yJ tt r).r = (yJ tt r).v := by simp only [yJ]; ring
  have g1 : (gasJ tt).r = 0 := rfl
  have hb := base_r (c := (bbJ tt).v / (bJ tt).v - ga) (a := al) (b := be) hr.ne'
    (sub_pos.2 hs.hy).ne' e1
  have e2 : 4 * (yJ tt r).v * ((bbJ tt).v / (bJ tt).v - ga) = r * (bbJ tt).v - 14 * (r * (bJ tt).v / 4) := by
    show 4 * (r * (bJ tt).v / 4) * ((bbJ tt).v / (bJ tt).v - 7 / 2) = _
    have := hs.hb
    field_simp
    ring
  rw [e2] at hb
  have e3 : (yJ tt r).v = r * (bJ tt).v / 4 := rfl
  rw [e3] at hb
  have hq := (rows_Q _ _ r rfl rfl).1
  have key : press tt r = r * r * (rg * tt * (baseZ tt r (bJ tt) (bbJ tt) (yJ tt r)).r
      + (rows.map fun w => (rowJ w tt r).r).sum) := by
    simp only [press, helm, add_r, g1, baseJ, timesRT, resJ, sum_r, (spots_r h1 r).1, add_zero]
  rw [key, hq]
  have hz : r * (baseZ tt r (bJ tt) (bbJ tt) (yJ tt r)).r = _ := hb
  linear_combination (r * rg * tt) * hz

lemma press_82 : press tt 0.82 < 10000 := by
  rw [press_tt (by norm_num) (by norm_num), bb_tt]
  obtain ⟨e1, e2⟩ := exp82
  have hu : erm 0.82 = 1 - exp (-0.82) := rfl
  obtain ⟨q1, q2, -⟩ := Q_range (u := erm 0.82) (by rw [hu]; linarith) (by rw [hu]; linarith)
  obtain ⟨b1, b2⟩ := b_tt
  rw [hu] at q1 q2 ⊢
  generalize exp (-0.82) = E at *
  generalize Qp (1 - E) = Q at *
  generalize (bJ tt).v = B at *
  have hQ : Q ≤ 2600 := by linarith
  have hf : (1 + al * (0.82 * B / 4) + be * (0.82 * B / 4) * (0.82 * B / 4)) / (1 - 0.82 * B / 4) ^ 3
      ≤ 3.62 := by
    have y1 : 0.82 * B / 4 ≤ 0.103163 := by linarith
    have y0 : 0 ≤ 0.82 * B / 4 := by linarith
    generalize 0.82 * B / 4 = y at *
    have hd : (1 - 0.103163) ^ 3 ≤ (1 - y) ^ 3 := pow_le_pow_left₀ (by norm_num) (by linarith) 3
    rw [div_le_iff₀ (lt_of_lt_of_le (by norm_num) hd)]
    simp only [al, be]
    norm_num at hd
    nlinarith
  generalize (1 + al * (0.82 * B / 4) + be * (0.82 * B / 4) * (0.82 * B / 4)) / (1 - 0.82 * B / 4) ^ 3
    = f at *
  have hEQ : E * Q ≤ 0.4405 * 2600 := mul_le_mul e2.le hQ (by linarith) (by norm_num)
  have : rg * tt = 5972.7426192 := by norm_num [rg, tt]
  rw [this]
  nlinarith

lemma press_83 : 10000 < press tt 0.83 := by
  rw [press_tt (by norm_num) (by norm_num), bb_tt]
  obtain ⟨e1, e2⟩ := exp83
  have hu : erm 0.83 = 1 - exp (-0.83) := rfl
  obtain ⟨q1, q2, -⟩ := Q_range (u := erm 0.83) (by rw [hu]; linarith) (by rw [hu]; linarith)
  obtain ⟨b1, b2⟩ := b_tt
  rw [hu] at q1 q2 ⊢
  generalize exp (-0.83) = E at *
  generalize Qp (1 - E) = Q at *
  generalize (bJ tt).v = B at *
  have hQ : 2688 ≤ Q := by linarith
  have hf : 3.66 ≤ (1 + al * (0.83 * B / 4) + be * (0.83 * B / 4) * (0.83 * B / 4)) / (1 - 0.83 * B / 4) ^ 3
      := by
    have y1 : 0.104414 ≤ 0.83 * B / 4 := by linarith
    have y0 : 0.83 * B / 4 < 1 := by linarith
    generalize 0.83 * B / 4 = y at *
    have hd : (1 - y) ^ 3 ≤ (1 - 0.104414) ^ 3 := pow_le_pow_left₀ (by linarith) (by linarith) 3
    rw [le_div_iff₀ (pow_pos (by linarith) 3)]
    simp only [al, be]
    norm_num at hd
    nlinarith
  generalize (1 + al * (0.83 * B / 4) + be * (0.83 * B / 4) * (0.83 * B / 4)) / (1 - 0.83 * B / 4) ^ 3
    = f at *
  have hEQ : 0.436 * 2688 ≤ E * Q := mul_le_mul e1.le hQ (by norm_num) (by linarith)
  have : rg * tt = 5972.7426192 := by norm_num [rg, tt]
  rw [this]
  nlinarith

lemma deriv_tt {r : ℝ} (h0 : 0.82 ≤ r) (h1 : r ≤ 0.83) : 0 < deriv (press tt) r := by
  have t1 : (810 : ℝ) < tt := by norm_num [tt]
  have t2 : tt ≤ 5000 := by norm_num [tt]
  have hr : 0 < r := by linarith
  have hs := sound t1 t2 hr (by linarith)
  have e1 : r * (yJ tt r).r = (yJ tt r).v := by simp only [yJ]; ring
  have g1 : (gasJ tt).r = 0 := rfl
  have g2 : (gasJ tt).rr = 0 := rfl
  rw [← dpdrh_eq t1 t2 hr (by linarith)]
  have hb := base_rr (t := tt) (B := bJ tt) (C := bbJ tt) hr.ne' (sub_pos.2 hs.hy).ne' e1 rfl
  obtain ⟨b1, b2⟩ := b_tt
  have hbase : 0 < 2 * r * (baseJ tt r).r + r * r * (baseJ tt r).rr := by
    rw [show baseJ tt r = timesRT tt (baseZ tt r (bJ tt) (bbJ tt) (yJ tt r)) from rfl, hb]
    have ey : (yJ tt r).v = r * (bJ tt).v / 4 := rfl
    have y0 : 0.103 ≤ (yJ tt r).v := by rw [ey]; nlinarith
    have y2 : (yJ tt r).v ≤ 0.105 := by rw [ey]; nlinarith
    have q3 : 2 * 4 * (yJ tt r).v * ((bbJ tt).v / (bJ tt).v - ga) = 2 * r * (bbJ tt).v - 28 * (yJ tt r).v := by
      rw [ey]
      simp only [ga]
      have := hs.hb
      field_simp
      ring
    rw [q3, bb_tt]
    generalize (yJ tt r).v = y at *
    have q1 : 1 + 2 * al * y + 3 * be * y * y ≤ (1 + 2 * al * y + 3 * be * y * y) / (1 - y) ^ 3 := by
      refine le_div_self (by simp only [al, be]; nlinarith) (pow_pos (by linarith) 3)
        (pow_le_one₀ (by linarith) (by linarith))
    have q2 : 0 ≤ 3 * y * (1 + al * y + be * y * y) / (1 - y) ^ 4 := by
      have : 0 < 1 - y := by linarith
      have : 0 < y := by linarith
      simp only [al, be]; positivity
    refine mul_pos (by norm_num [rg, tt]) ?_
    have : 2 * r * (-0.38231299) ≥ -0.64 := by linarith
    have : 1.4 ≤ 3 * be * y * y := by simp only [be]; nlinarith
    simp only [al] at q1 q2 ⊢
    linarith
  have hE1 : exp (-r) < 0.4405 := (Real.exp_le_exp.2 (by linarith)).trans_lt exp82.2
  have hE0 : 0.436 < exp (-r) := exp83.1.trans_le (Real.exp_le_exp.2 (by linarith))
  have hu : erm r = 1 - exp (-r) := rfl
  obtain ⟨q1, -, q2⟩ := Q_range (u := erm r) (by rw [hu]; linarith) (by rw [hu]; linarith)
  obtain ⟨w1, w2⟩ := rows_Q _ _ r rfl rfl
  have hres : 0 < 2 * r * (resJ tt r).r + r * r * (resJ tt r).rr := by
    simp only [resJ, add_r, add_rr, sum_r, sum_rr, spots_r t1, add_zero, w1, w2]
    have hQ : 0 < Qp (erm r) := by rw [hu] at q1 ⊢; linarith
    generalize Qp (erm r) = Q at *
    generalize Qd (erm r) = Q' at *
    generalize exp (-r) = E at *
    have hE : 0 < E := by linarith
    have : 2 * r * (Q * E) + r * r * ((Q' * E - Q) * E) = r * E * ((2 - r) * Q + r * E * Q') := by ring
    rw [this]
    have : 0 < 2 - r := by linarith
    positivity
  simp only [dpdrh, helm, add_r, add_rr, g1, g2]
  linarith

/-- **There is a density of water at 10 kbar and 1021 °C**, between 0.82 and 0.83 g/cm³, around which the
pressure rises with density. -/
theorem C79_ten_kbar : ∃ r, 0.82 < r ∧ r < 0.83 ∧ loopP 1294.146 r = 10000 ∧ 0 < deriv (press 1294.146) r := by
  have t1 : (810 : ℝ) < tt := by norm_num [tt]
  have t2 : tt ≤ 5000 := by norm_num [tt]
  have hcont : ContinuousOn (press tt) (Set.Icc 0.82 0.83) := fun x hx =>
    (press_cont t1 t2 (by linarith [hx.1]) (by linarith [hx.2])).continuousAt.continuousWithinAt
  obtain ⟨r, hr, he⟩ := intermediate_value_Ioo (by norm_num : (0.82 : ℝ) ≤ 0.83) hcont ⟨press_82, press_83⟩
  refine ⟨r, hr.1, hr.2, ?_, deriv_tt hr.1.le hr.2.le⟩
  rw [← he]
  exact C79_loop_hot t1 t2 (by linarith [hr.1]) (by linarith [hr.2])

/-- The hypotheses of `C79_water_high` are met, for every pressure above 10 kbar. -/
example (p : ℝ) (hp : 10000 < p) : ∃ ρ, Solves ρ 1294.146 10000 ∧
    Consistent (fun t p => withH t (water ρ t p)) 1294.146 p := by
  have t1 : (810 : ℝ) < 1294.146 := by norm_num
  have t2 : (1294.146 : ℝ) < 5000 := by norm_num
  obtain ⟨r, h1, h2, h3, h4⟩ := C79_ten_kbar
  rw [C79_loop_hot t1 t2.le (by linarith) (by linarith)] at h3
  obtain ⟨ρ, e, hs⟩ := C79_density_exists t1 t2 (by linarith) (by linarith) h4.ne'
  rw [h3] at e hs
  exact ⟨ρ, hs, (C79_water_high t1 t2 hp hs (by rw [e]; exact h4.ne')).1⟩

end Verif.Thermo.Water
