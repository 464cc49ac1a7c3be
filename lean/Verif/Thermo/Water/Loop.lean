import Verif.Thermo.Water.DH78
import Mathlib.Analysis.Complex.ExponentialBounds

/-!
# The pressure the density loop solves for, and the pressure of the reported properties
-/

open Filter Topology Real

namespace Verif.Thermo.Water

lemma sum_r {ι : Type} (l : List ι) (f : ι → J) : (l.map f).sum.r = (l.map fun i => (f i).r).sum := by
  induction l with
  | nil => rfl
  | cons a l ih => simp [ih]

/-- One localised term of the loop is the term of the reported pressure. -/
lemma loopSpot_eq (s : Spot) (hs : s ∈ spots) (t rh : ℝ) :
    loopSpot s t rh = rh * rh * (spotJ s t rh).r := by
  have hl : (s.l = 0 ∨ s.l = 2) ∧ s.k ≠ 0 := by
    simp only [spots, List.mem_cons, List.not_mem_nil, or_false] at hs
    rcases hs with rfl | rfl | rfl | rfl <;> simp
  obtain ⟨hl, hk⟩ := hl
  rcases hl with hl | hl
  · simp only [loopSpot, spotJ, Spot.Q, hl, if_true, if_neg hk]
    simp; ring
  · simp only [loopSpot, spotJ, Spot.Q, hl, if_neg hk]
    rcases eq_or_ne (s.del rh) 0 with hd | hd
    · simp [hd]
    · have : ∀ a b c E g : ℝ, g * s.del rh ^ 2 * E * (((2 : ℕ) : ℝ) / s.del rh - a) * b * c / s.rho
          = b * c * (g * ((2 : ℕ) : ℝ) * s.del rh ^ (2 - 1) * E / s.rho
            + g * s.del rh ^ 2 * E * (-a / s.rho)) := by
        intro a b c E g
        push_cast
        rw [show g * s.del rh ^ 2 * E * ((2 : ℝ) / s.del rh - a)
          = g * E * (2 * s.del rh - s.del rh ^ 2 * a) by field_simp]
        norm_num
        ring
      rw [this]
      simp only [OfNat.ofNat_ne_zero, if_false]
      ring

lemma base_r {rh x y c a b : ℝ} (hr : rh ≠ 0) (hy : 1 - y ≠ 0) (h : rh * x = y) :
    rh * (1 / rh + 4 * c * x + x / (1 - y) + (a + b + 1) * x / (1 - y) ^ 3 - (b - 1) * x / (1 - y) ^ 2)
      = (1 + a * y + b * y * y) / (1 - y) ^ 3 + 4 * y * c := by
  have : rh * (1 / rh + 4 * c * x + x / (1 - y) + (a + b + 1) * x / (1 - y) ^ 3
      - (b - 1) * x / (1 - y) ^ 2) = 1 + 4 * c * (rh * x) + (rh * x) / (1 - y)
      + (a + b + 1) * (rh * x) / (1 - y) ^ 3 - (b - 1) * (rh * x) / (1 - y) ^ 2 := by
    field_simp
  rw [this, h]
  field_simp
  ring

/-- The pressure of the loop is the pressure of the reported properties up to a multiple of the
localised terms. -/
theorem C79_loop_pressure {t rh : ℝ} (ht : 0 < t) (hr : 0 < rh) (hb : (bJ t).v ≠ 0) (hy : (yJ t rh).v < 1) :
    loopP t rh = press t rh
      - (1 - rh * rh * exp (-rh)) * (spots.map fun s => loopSpot s t rh).sum := by
  have h1 : (spots.map fun s => loopSpot s t rh).sum
      = rh * rh * (spots.map fun s => (spotJ s t rh).r).sum := by
    rw [← List.sum_map_mul_left]
    exact congrArg List.sum (List.map_congr_left fun s hs => loopSpot_eq s hs t rh)
  have h2 : (rows.map fun w => (rowJ w t rh).r).sum
      = (rows.map fun w => w.g / tau t ^ w.l * erm rh ^ (w.k - 1)).sum * exp (-rh) := by
    rw [← List.sum_map_mul_right]; rfl
  have h3 : rh * (baseZ t rh (bJ t) (bbJ t) (yJ t rh)).r
      = (1 + al * (yJ t rh).v + be * (yJ t rh).v * (yJ t rh).v) / (1 - (yJ t rh).v) ^ 3
        + 4 * (yJ t rh).v * ((bbJ t).v / (bJ t).v - ga) := by
    have e1 : rh * (yJ t rh).r = (yJ t rh).v := by simp only [yJ]; ring
    exact base_r hr.ne' (sub_pos.2 hy).ne' e1
  have h4 : (gasJ t).r = 0 := rfl
  have h5 : rh * (bJ t).v / 4 = (yJ t rh).v := rfl
  simp only [loopP, press, helm, baseJ, resJ, timesRT, add_r, sum_r, h2, h1, h4, h5]
  linear_combination (-rh * rg * t) * h3

/-! ## Above 810 K -/

lemma log8 : log 8 < 2.0795 := by
  have : (8 : ℝ) = 2 ^ 3 := by norm_num
  rw [this, Real.log_pow]
  have := Real.log_two_lt_d9
  norm_num at this ⊢
  linarith

lemma b_range {t : ℝ} (h1 : 647.073 ≤ t) (h2 : t ≤ 5000) : 0 < (bJ t).v ∧ (bJ t).v < 1 := by
  have hτ : 1 ≤ tau t := by rw [tau, t0, le_div_iff₀ (by norm_num)]; linarith
  have hτ2 : tau t ≤ 8 := by rw [tau, t0, div_le_iff₀ (by norm_num)]; linarith
  have l0 : 0 ≤ log (tau t) := log_nonneg hτ
  have l1 : log (tau t) < 2.0795 := (log_le_log (by linarith) hτ2).trans_lt log8
  have p3 : 1 ≤ tau t ^ 3 := one_le_pow₀ hτ
  have p5 : 1 ≤ tau t ^ 5 := one_le_pow₀ hτ
  have q3 : 0.007159876 / tau t ^ 3 ≤ 0.007159876 := div_le_self (by norm_num) p3
  have q3' : 0 < 0.007159876 / tau t ^ 3 := by positivity
  have q5 : 0.003528426 / tau t ^ 5 ≤ 0.003528426 := div_le_self (by norm_num) p5
  have q5' : 0 < 0.003528426 / tau t ^ 5 := by positivity
  simp only [bJ, ofT, neg_div]
  constructor <;> linarith

/-- Between 810 and 5000 K and up to 4 g/cm³ the equation of state is a smooth function. -/
lemma sound {t rh : ℝ} (h1 : 810 < t) (h2 : t ≤ 5000) (h3 : 0 < rh) (h4 : rh ≤ 4) : Sound t rh := by
  have hb := b_range (by linarith : 647.073 ≤ t) h2
  refine ⟨by linarith, h3, hb.1.ne', ?_⟩
  have : (yJ t rh).v = rh * (bJ t).v / 4 := rfl
  rw [this]
  nlinarith

lemma spot_cold {t rh : ℝ} (h1 : 810 < t) : ∀ s ∈ spots, (s.Q t rh).v < -100 := by
  have key : ∀ (k m alp bet del c : ℝ), 0 ≤ k → 0 ≤ alp → 0 < bet → 0 < c → 0 ≤ m → c ≤ m →
      100 ≤ bet * c ^ 2 → c < del → -alp * k - bet * del * del < -100 := by
    intro k m alp bet del c hk ha hb hc _ _ h hd
    have : c ^ 2 < del ^ 2 := by nlinarith
    nlinarith [mul_nonneg ha hk, mul_pos hb (sub_pos.2 this)]
  intro s hs
  simp only [spots, List.mem_cons, List.not_mem_nil, or_false] at hs
  rcases hs with rfl | rfl | rfl | rfl <;> simp only [Spot.Q, Spot.tau]
  · exact key _ 1 _ _ _ (1 / 4) (sq_nonneg _) (by norm_num) (by norm_num) (by norm_num) (by norm_num)
      (by norm_num) (by norm_num) (by rw [lt_sub_iff_add_lt, lt_div_iff₀ (by norm_num)]; linarith)
  · exact key _ 1 _ _ _ (1 / 4) (sq_nonneg _) (by norm_num) (by norm_num) (by norm_num) (by norm_num)
      (by norm_num) (by norm_num) (by rw [lt_sub_iff_add_lt, lt_div_iff₀ (by norm_num)]; linarith)
  · exact key _ 1 _ _ _ (1 / 4) (sq_nonneg _) (by norm_num) (by norm_num) (by norm_num) (by norm_num)
      (by norm_num) (by norm_num) (by rw [lt_sub_iff_add_lt, lt_div_iff₀ (by norm_num)]; linarith)
  · exact key _ 2 _ _ _ 2 (by positivity) (by norm_num) (by norm_num) (by norm_num) (by norm_num)
      (by norm_num) (by norm_num) (by rw [lt_sub_iff_add_lt, lt_div_iff₀ (by norm_num)]; linarith)

lemma offCut {t rh : ℝ} (h1 : 810 < t) : OffCut t rh := fun s hs => (spot_cold h1 s hs).ne

lemma loopSpot_zero {t rh : ℝ} (h1 : 810 < t) (s : Spot) (hs : s ∈ spots) : loopSpot s t rh = 0 := by
  have : cut (s.Q t rh).v = 0 := if_neg (not_lt.2 (spot_cold h1 s hs).le)
  simp [loopSpot, this]

/-- **Above 810 K the density loop solves the right equation**: the pressure it computes is the
pressure of the Helmholtz energy the properties are reported from. -/
theorem C79_loop_hot {t rh : ℝ} (h1 : 810 < t) (h2 : t ≤ 5000) (h3 : 0 < rh) (h4 : rh ≤ 4) :
    loopP t rh = press t rh := by
  have hs := sound h1 h2 h3 h4
  rw [C79_loop_pressure hs.ht hs.hr hs.hb hs.hy, List.map_congr_left (g := fun _ => (0 : ℝ))
    fun s hs => loopSpot_zero h1 s hs]
  simp

/-- **Below it does not**: at 640 K and 0.31 g/cm³ the loop's pressure is more than a bar above the
pressure of the properties reported, so the properties of another pressure are returned. -/
theorem C79_loop_cold : press 640 0.31 + 1 < loopP 640 0.31 := by
  have hb : (bJ 640).v ≠ 0 ∧ (bJ 640).v < 1 := by
    have hτ : tau 640 = 640 / 647.073 := rfl
    have l0 : log (tau 640) ≤ 0 := log_nonpos (by rw [hτ]; norm_num) (by rw [hτ]; norm_num)
    have l1 : -0.02 < log (tau 640) := by
      have := Real.one_sub_inv_le_log_of_pos (x := tau 640) (by rw [hτ]; norm_num)
      rw [hτ] at this ⊢
      norm_num at this ⊢
      linarith
    have e : (bJ 640).v = -0.3540782 * log (tau 640) + 0.7478629 + 0.007159876 / tau 640 ^ 3
      + -0.003528426 / tau 640 ^ 5 := rfl
    have q3 : 0 < 0.007159876 / tau 640 ^ 3 ∧ 0.007159876 / tau 640 ^ 3 < 0.01 := by
      rw [hτ]; norm_num
    have q5 : -0.01 < -0.003528426 / tau 640 ^ 5 ∧ -0.003528426 / tau 640 ^ 5 < 0 := by
      rw [hτ]; norm_num
    rw [e]
    constructor
    · apply ne_of_gt; linarith [q3.1, q5.1]
    · linarith [q3.2, q5.2]
  have hy : (yJ 640 0.31).v < 1 := by
    show 0.31 * (bJ 640).v / 4 < 1
    linarith [hb.2]
  rw [C79_loop_pressure (by norm_num) (by norm_num) hb.1 hy]
  have e1 : exp (-(0.31 : ℝ)) < 0.8 := by
    have := Real.add_one_le_exp (0.31 : ℝ)
    rw [Real.exp_neg, inv_lt_comm₀ (exp_pos _) (by norm_num)]
    norm_num at this ⊢
    linarith
  have s1 : loopSpot ⟨-0.225e1, 2, 0, 0.319, 640, 34, 2.0e4⟩ 640 0.31 < -1.2 := by
    have hq : (Spot.Q ⟨-0.225e1, 2, 0, 0.319, 640, 34, 2.0e4⟩ 640 0.31).v = -34 * (0.31 / 0.319 - 1) ^ 2 := by
      simp only [Spot.Q, Spot.tau, Spot.del]; norm_num
    have hE : (0.97 : ℝ) < cut (-34 * (0.31 / 0.319 - 1) ^ 2) := by
      rw [cut, if_pos (by norm_num)]
      have := Real.add_one_le_exp (-34 * (0.31 / 0.319 - 1) ^ 2 : ℝ)
      norm_num at this ⊢
      linarith
    simp only [loopSpot, hq, Spot.del]
    generalize cut (-34 * (0.31 / 0.319 - 1) ^ 2) = E at hE
    norm_num
    norm_num at hE
    linarith
  have s2 : loopSpot ⟨-1.68e1, 2, 2, 0.310, 640, 40, 2.0e4⟩ 640 0.31 = 0 := by
    simp only [loopSpot, Spot.del]; norm_num
  have s3 : loopSpot ⟨0.055e1, 2, 0, 0.310, 641.6, 30, 4.0e4⟩ 640 0.31 = 0 := by
    simp only [loopSpot, Spot.del]; norm_num
  have s4 : loopSpot ⟨-93.0e1, 4, 0, 1.55, 270, 1050, 25⟩ 640 0.31 = 0 := by
    have : cut (Spot.Q ⟨-93.0e1, 4, 0, 1.55, 270, 1050, 25⟩ 640 0.31).v = 0 := by
      rw [cut, if_neg]
      simp only [Spot.Q, Spot.tau, Spot.del]; norm_num
    simp only [loopSpot, this]; norm_num
  simp only [spots, List.map_cons, List.map_nil, List.sum_cons, List.sum_nil, s2, s3, s4]
  have := exp_pos (-(0.31 : ℝ))
  norm_num at *
  nlinarith

/-! ## The iteration -/

lemma sum_rr {ι : Type} (l : List ι) (f : ι → J) : (l.map f).sum.rr = (l.map fun i => (f i).rr).sum := by
  induction l with
  | nil => rfl
  | cons a l ih => simp [ih]

lemma base_rr {t rh : ℝ} {B C Y : J} (hr : rh ≠ 0) (hy : 1 - Y.v ≠ 0) (h : rh * Y.r = Y.v)
    (h2 : Y.rr = 0) :
    2 * rh * (timesRT t (baseZ t rh B C Y)).r + rh * rh * (timesRT t (baseZ t rh B C Y)).rr
      = rg * t * ((1 + 2 * al * Y.v + 3 * be * Y.v * Y.v) / (1 - Y.v) ^ 3
        + 3 * Y.v * (1 + al * Y.v + be * Y.v * Y.v) / (1 - Y.v) ^ 4 + 2 * 4 * Y.v * (C.v / B.v - ga)) := by
  simp only [timesRT, baseZ, h2]
  generalize C.v / B.v - ga = c
  generalize Y.v = y at *
  generalize Y.r = x at *
  have hx : x = y / rh := by rw [← h]; field_simp
  subst hx
  field_simp
  ring

/-- **The loop is Newton's method** (above 810 K): the slope it divides by is the derivative of the
pressure with respect to density. -/
theorem C79_newton {t rh : ℝ} (h1 : 810 < t) (h2 : t ≤ 5000) (h3 : 0 < rh) (h4 : rh < 4) :
    HasDerivAt (press t) (loopD t rh) rh := by
  have hs := sound h1 h2 h3 h4.le
  have hok := ok_helm hs (offCut (rh := rh) h1)
  have hP : HasDerivAt (press t) (dpdrh (helm t rh) rh) rh := by
    have := (((D.snd.mul D.snd).mul hok.r).right (t := t) (p := rh))
    refine this.congr_deriv ?_
    simp only [dpdrh]; ring
  refine hP.congr_deriv ?_
  have hl : loopD t rh = rh * exp (-rh) * (rows.map fun w => (2 + rh * (w.k * exp (-rh) - 1) / erm rh)
      * w.g / tau t ^ w.l * erm rh ^ (w.k - 1)).sum + rg * t * ((1 + 2 * al * (yJ t rh).v
        + 3 * be * (yJ t rh).v * (yJ t rh).v) / (1 - (yJ t rh).v) ^ 3
    + 3 * (yJ t rh).v * (1 + al * (yJ t rh).v + be * (yJ t rh).v * (yJ t rh).v) / (1 - (yJ t rh).v) ^ 4
    + 2 * 4 * (yJ t rh).v * ((bbJ t).v / (bJ t).v - ga)) := by
    have hz : ∀ s ∈ spots, loopSpot s t rh * (2 / rh + (s.l / s.del rh
        - s.k * s.alp * s.del rh ^ (s.k - 1)) / s.rho)
      - rh * rh / (s.rho * s.rho) * (s.g * s.del rh ^ s.l * cut (s.Q t rh).v)
        * (s.l / s.del rh / s.del rh + s.k * (s.k - 1) * s.alp * s.del rh ^ (s.k - 2)) = 0 := by
      intro s hs
      have hc : cut (s.Q t rh).v = 0 := if_neg (not_lt.2 (spot_cold h1 s hs).le)
      rw [loopSpot_zero h1 s hs, hc]; ring
    simp only [loopD, List.map_congr_left hz]
    simp only [List.map_const', List.sum_replicate, smul_zero, add_zero]
    rfl
  rw [hl]
  have e0 : erm rh ≠ 0 := by
    have : exp (-rh) < 1 := by rw [Real.exp_lt_one_iff]; linarith
    simp only [erm]; linarith
  have hr1 : 2 * rh * (resJ t rh).r + rh * rh * (resJ t rh).rr = rh * exp (-rh) * (rows.map fun w =>
      (2 + rh * (w.k * exp (-rh) - 1) / erm rh) * w.g / tau t ^ w.l * erm rh ^ (w.k - 1)).sum := by
    have z1 : (spots.map fun s => (spotJ s t rh).r).sum = 0 := by
      rw [List.map_congr_left (g := fun _ => (0 : ℝ))]
      · simp
      · intro s hs
        have hc : cut (s.Q t rh).v = 0 := if_neg (not_lt.2 (spot_cold h1 s hs).le)
        simp [spotJ, hc]
    have z2 : (spots.map fun s => (spotJ s t rh).rr).sum = 0 := by
      rw [List.map_congr_left (g := fun _ => (0 : ℝ))]
      · simp
      · intro s hs
        have hc : cut (s.Q t rh).v = 0 := if_neg (not_lt.2 (spot_cold h1 s hs).le)
        simp [spotJ, hc]
    simp only [resJ, add_r, add_rr, sum_r, sum_rr, z1, z2, add_zero]
    rw [← List.sum_map_mul_left, ← List.sum_map_mul_left, ← List.sum_map_mul_left, ← List.sum_map_add]
    refine congrArg List.sum (List.map_congr_left fun w hw => ?_)
    have he : exp (-rh) = 1 - erm rh := by simp [erm]
    have hk := rows_k w hw
    simp only [rowJ]
    rcases Nat.lt_or_ge 1 w.k with h | h
    · obtain ⟨m, hm⟩ := Nat.exists_eq_add_of_le h
      rw [if_pos h, hm]
      simp only [show 1 + 1 + m - 1 = m + 1 by omega, show 1 + 1 + m - 2 = m by omega, he]
      push_cast
      field_simp
      ring
    · have : w.k = 1 := by omega
      rw [if_neg (by omega), this, he]
      push_cast
      field_simp
      ring
  have hb1 : 2 * rh * (baseJ t rh).r + rh * rh * (baseJ t rh).rr = rg * t * ((1 + 2 * al * (yJ t rh).v
        + 3 * be * (yJ t rh).v * (yJ t rh).v) / (1 - (yJ t rh).v) ^ 3
    + 3 * (yJ t rh).v * (1 + al * (yJ t rh).v + be * (yJ t rh).v * (yJ t rh).v) / (1 - (yJ t rh).v) ^ 4
    + 2 * 4 * (yJ t rh).v * ((bbJ t).v / (bJ t).v - ga)) := by
    have e1 : (yJ t rh).v = rh * (yJ t rh).r := by simp only [yJ]; ring
    have e2 : (yJ t rh).rr = 0 := rfl
    exact base_rr h3.ne' (sub_pos.2 hs.hy).ne' e1.symm e2
  have h4 : (gasJ t).r = 0 := rfl
  have h5 : (gasJ t).rr = 0 := rfl
  simp only [dpdrh, helm, add_r, add_rr, h4, h5]
  linarith

example : HasDerivAt (press 1200) (loopD 1200 0.5) 0.5 :=
  C79_newton (by norm_num) (by norm_num) (by norm_num) (by norm_num)

/-- The densities the loop works at. -/
lemma clamp_range (r : ℝ) : 0 < clampR r ∧ clampR r ≤ 1.9 := by
  unfold clampR
  split_ifs with h1 h2
  · norm_num
  · norm_num
  · exact ⟨not_le.1 h1, not_lt.1 h2⟩

/-- **What the loop's end says**: whenever it ends by its tests, on whatever pass and from whatever
first guess, it was at a positive density of at most 1.9 g/cm³ whose pressure in the loop is the one
asked for to ten times the machine precision, relatively, and the density returned is that density to
the same accuracy. -/
theorem C79_search_ends {ps t p : ℝ} {n : ℕ} {r r' : ℝ} (h : search ps t p n r = (r', true)) :
    ∃ ρ, 0 < ρ ∧ ρ ≤ 1.9 ∧ |1 - loopP t ρ / p| ≤ 10 * 2 ^ (-52 : ℤ) ∧ |1 - r' / ρ| ≤ 10 * 2 ^ (-52 : ℤ) := by
  induction n generalizing r with
  | zero => simp [search] at h
  | succ n ih =>
    simp only [search] at h
    split_ifs at h with hc
    · obtain rfl : nextR ps t p r = r' := congrArg Prod.fst h
      exact ⟨clampR r, (clamp_range r).1, (clamp_range r).2, hc.1, hc.2⟩
    · exact ih h

/-- Above 810 K the density is then a density of the reported equation of state at the pressure asked
for. -/
theorem C79_search_hot {ps t p : ℝ} {n : ℕ} {r r' : ℝ} (h1 : 810 < t) (h2 : t ≤ 5000) (hp : 0 < p)
    (h : search ps t p n r = (r', true)) :
    ∃ ρ, 0 < ρ ∧ ρ ≤ 1.9 ∧ |press t ρ - p| ≤ 10 * 2 ^ (-52 : ℤ) * p
      ∧ |r' - ρ| ≤ 10 * 2 ^ (-52 : ℤ) * ρ := by
  obtain ⟨ρ, h3, h4, h5, h6⟩ := C79_search_ends h
  refine ⟨ρ, h3, h4, ?_, ?_⟩
  · rw [C79_loop_hot h1 h2 h3 (by linarith)] at h5
    have : press t ρ - p = -(1 - press t ρ / p) * p := by field_simp; ring
    rw [this, abs_mul, abs_neg, abs_of_pos hp]
    exact mul_le_mul_of_nonneg_right h5 hp.le
  · have : r' - ρ = -(1 - r' / ρ) * ρ := by field_simp; ring
    rw [this, abs_mul, abs_neg, abs_of_pos h3]
    exact mul_le_mul_of_nonneg_right h6 h3.le

/-- **A density that solves the equation is kept**: the loop started there stops on its first pass. -/
theorem C79_search_fixed {ps t p ρ : ℝ} (n : ℕ) (h0 : 0 < ρ) (h1 : ρ ≤ 1.9) (hp : p ≠ 0)
    (hs : loopP t ρ = p) (hd : 0 < loopD t ρ) : search ps t p (n + 1) ρ = (ρ, true) := by
  have hc : clampR ρ = ρ := by
    unfold clampR; rw [if_neg (not_le.2 h0), if_neg (not_lt.2 h1)]
  have hn : nextR ps t p ρ = ρ := by
    simp only [nextR, hc, hs, sub_self, zero_div, if_neg (not_le.2 hd)]
    norm_num
  simp only [search, hn, hc, hs, div_self hp, div_self h0.ne', sub_self, abs_zero]
  rw [if_pos ⟨by positivity, by positivity⟩]

end Verif.Thermo.Water
