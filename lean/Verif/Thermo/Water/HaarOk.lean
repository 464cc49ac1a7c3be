import Verif.Thermo.Water.Haar
import Mathlib.Analysis.Complex.ExponentialBounds

/-!
# The derivatives written out in `whaar` are the derivatives of its Helmholtz energy
-/

open Filter Topology Real

namespace Verif.Thermo.Water

variable {z : ℝ × ℝ}

lemma t0_pos : 0 < t0 := by norm_num [t0]

lemma tau_pos {t : ℝ} (ht : 0 < t) : 0 < tau t := div_pos ht t0_pos

lemma d_cpow (c : ℝ) (m : ℕ) {t : ℝ} (ht : 0 < t) :
    HasDerivAt (fun t : ℝ => c / t ^ m) (-m * c / t ^ (m + 1)) t := by
  refine (((StdState.d_ipow m ht).const_mul c).congr_deriv (by ring)).congr_of_eventuallyEq
    (Eventually.of_forall fun x => by simp only; ring)

lemma ctau (c : ℝ) (n m : ℕ) (t : ℝ) : c / (tau t ^ n * t ^ m) = c * t0 ^ n / t ^ (n + m) := by
  have h := t0_pos.ne'
  rw [tau, div_pow, pow_add, div_mul_eq_mul_div, div_div_eq_mul_div]

lemma d_ctau (c : ℝ) (n m : ℕ) {t : ℝ} (ht : 0 < t) :
    HasDerivAt (fun t => c / (tau t ^ n * t ^ m)) (-(n + m) * c / (tau t ^ n * t ^ (m + 1))) t := by
  simp only [ctau]
  refine (d_cpow (c * t0 ^ n) (n + m) ht).congr_deriv ?_
  rw [← add_assoc]; push_cast; ring

lemma d_logtau {t : ℝ} (ht : 0 < t) : HasDerivAt (fun t => log (tau t)) (1 / t) t :=
  StdState.d_logq t0_pos.ne' ht

/-! ## The temperature functions -/

lemma ok_b (ht : 0 < z.1) : Ok (fun z => bJ z.1) z := by
  refine ok_ofT (fun _ => rfl) ?_ ?_ ?_
  · refine (((((d_logtau ht).const_mul (-0.3540782)).add_const 0.7478629).add
      (d_ctau 0.007159876 3 0 ht)).add (d_ctau (-0.003528426) 5 0 ht)).congr_deriv ?_ |>.congr_of_eventuallyEq
      (Eventually.of_forall fun x => by simp [bJ, ofT])
    simp only [bJ, ofT]; push_cast; ring
  · refine ((((d_cpow (-0.3540782) 1 ht)).add
      (d_ctau (-3 * 0.007159876) 3 1 ht)).add (d_ctau (-5 * -0.003528426) 5 1 ht)).congr_deriv ?_ |>.congr_of_eventuallyEq
      (Eventually.of_forall fun x => by simp only [bJ, ofT, Pi.add_apply]; ring)
    simp only [bJ, ofT]; push_cast; ring
  · refine ((((d_cpow (-(-0.3540782)) 2 ht)).add
      (d_ctau (4 * 3 * 0.007159876) 3 2 ht)).add (d_ctau (6 * 5 * -0.003528426) 5 2 ht)).congr_deriv ?_ |>.congr_of_eventuallyEq
      (Eventually.of_forall fun x => by simp only [bJ, ofT, Pi.add_apply]; ring)
    simp only [bJ, ofT]; push_cast; ring

lemma ok_bb (ht : 0 < z.1) : Ok (fun z => bbJ z.1) z := by
  refine ok_ofT (fun _ => rfl) ?_ ?_ ?_
  · refine ((((hasDerivAt_const z.1 (1.1278334:ℝ)).add (d_ctau (-0.5944001) 1 0 ht)).add
      (d_ctau (-5.010996) 2 0 ht)).add (d_ctau 0.63684256 4 0 ht)).congr_deriv ?_ |>.congr_of_eventuallyEq
      (Eventually.of_forall fun x => by simp only [bbJ, ofT, Pi.add_apply]; ring)
    simp only [bbJ, ofT]; push_cast; ring
  · refine (((d_ctau (-(-0.5944001)) 1 1 ht).add
      (d_ctau (-2 * -5.010996) 2 1 ht)).add (d_ctau (-4 * 0.63684256) 4 1 ht)).congr_deriv ?_ |>.congr_of_eventuallyEq
      (Eventually.of_forall fun x => by simp only [bbJ, ofT, Pi.add_apply]; ring)
    simp only [bbJ, ofT]; push_cast; ring
  · refine (((d_ctau (2 * (-0.5944001)) 1 2 ht).add
      (d_ctau (3 * 2 * -5.010996) 2 2 ht)).add (d_ctau (5 * 4 * 0.63684256) 4 2 ht)).congr_deriv ?_ |>.congr_of_eventuallyEq
      (Eventually.of_forall fun x => by simp only [bbJ, ofT, Pi.add_apply]; ring)
    simp only [bbJ, ofT]; push_cast; ring

lemma ok_y (ht : 0 < z.1) : Ok (fun z => yJ z.1 z.2) z := by
  refine ((Ok.mul ok_varR (ok_b ht)).smul (1 / 4)).congr (Eventually.of_forall fun w => ?_)
  ext <;> simp [J.smul, J.mul, varR, yJ, bJ, ofT] <;> ring

/-! ## The base function -/

/-- `bb/b`, by the rules of calculus. -/
noncomputable def ratio (B C : J) : J :=
  C.mul (B.app (fun x => 1 / x) (fun x => -(1 / x ^ 2)) (fun x => 2 / x ^ 3) (fun x => -6 / x ^ 4))

lemma d_one_div {x : ℝ} (hx : x ≠ 0) (n : ℕ) (c : ℝ) :
    HasDerivAt (fun x => c / x ^ n) (-n * c / x ^ (n + 1)) x := by
  have h := ((hasDerivAt_pow n x).inv (pow_ne_zero n hx)).const_mul c
  refine (h.congr_deriv ?_).congr_of_eventuallyEq (Eventually.of_forall fun x => by
    simp [div_eq_mul_inv])
  rcases n with _ | n
  · simp
  · field_simp; push_cast; simp; ring

lemma ok_ratio {B C : ℝ × ℝ → J} (hB : Ok B z) (hC : Ok C z) (h : (B z).v ≠ 0) :
    Ok (fun z => ratio (B z) (C z)) z := by
  refine hC.mul (hB.app ?_ ?_ ?_)
  · refine ((d_one_div h 1 1).congr_deriv (by ring)).congr_of_eventuallyEq
      (Eventually.of_forall fun x => by simp)
  · refine ((d_one_div h 2 (-1)).congr_deriv (by norm_num)).congr_of_eventuallyEq
      (Eventually.of_forall fun x => by simp only; ring)
  · exact (d_one_div h 3 2).congr_deriv (by norm_num)

/-- The part of the base function that depends on `y` alone. -/
noncomputable def phi (y : ℝ) : ℝ :=
  -log (1 - y) - (be - 1) / (1 - y) + (al + be + 1) / (2 * (1 - y) ^ 2) - (al - be + 3) / 2

lemma d_inv1 {y : ℝ} (hy : 1 - y ≠ 0) (n : ℕ) (c : ℝ) :
    HasDerivAt (fun y => c / (1 - y) ^ n) (n * c / (1 - y) ^ (n + 1)) y := by
  have h1 : HasDerivAt (fun y : ℝ => 1 - y) (-1) y := by simpa using (hasDerivAt_id y).const_sub 1
  have h2 : HasDerivAt (fun x : ℝ => c / x ^ n) (-n * c / (1 - y) ^ (n + 1)) ((fun y : ℝ => 1 - y) y) :=
    d_one_div hy n c
  exact (h2.comp y h1).congr_deriv (by ring)

lemma d_log1 {y : ℝ} (hy : 1 - y ≠ 0) : HasDerivAt (fun y => -log (1 - y)) (1 / (1 - y)) y := by
  have h1 : HasDerivAt (fun y : ℝ => 1 - y) (-1) y := by simpa using (hasDerivAt_id y).const_sub 1
  refine (h1.log hy).neg.congr_deriv (by ring)

/-- `phi` of `y`, by the rules of calculus. -/
noncomputable def phiJ (Y : J) : J :=
  Y.app phi (fun y => 1 / (1 - y) - (be - 1) / (1 - y) ^ 2 + (al + be + 1) / (1 - y) ^ 3)
    (fun y => 1 / (1 - y) ^ 2 - 2 * (be - 1) / (1 - y) ^ 3 + 3 * (al + be + 1) / (1 - y) ^ 4)
    (fun y => 2 / (1 - y) ^ 3 - 6 * (be - 1) / (1 - y) ^ 4 + 12 * (al + be + 1) / (1 - y) ^ 5)

lemma ok_phi {Y : ℝ × ℝ → J} (hY : Ok Y z) (h : 1 - (Y z).v ≠ 0) : Ok (fun z => phiJ (Y z)) z := by
  refine hY.app ?_ ?_ ?_
  · refine ((((d_log1 h).sub (d_inv1 h 1 (be - 1))).add (d_inv1 h 2 ((al + be + 1) / 2))).sub_const
      ((al - be + 3) / 2)).congr_deriv ?_ |>.congr_of_eventuallyEq (Eventually.of_forall fun x => ?_)
    · push_cast; ring
    · simp only [phi, Pi.add_apply, Pi.sub_apply, div_div, pow_one]
  · refine (((d_inv1 h 1 1).sub (d_inv1 h 2 (be - 1))).add (d_inv1 h 3 (al + be + 1))).congr_deriv ?_
      |>.congr_of_eventuallyEq (Eventually.of_forall fun x => ?_)
    · push_cast; ring
    · simp only [Pi.add_apply, Pi.sub_apply]; ring
  · refine (((d_inv1 h 2 1).sub (d_inv1 h 3 (2 * (be - 1)))).add
      (d_inv1 h 4 (3 * (al + be + 1)))).congr_deriv ?_
    push_cast; ring

/-- The logarithm of density and temperature, by the rules of calculus. -/
noncomputable def logJ (t rh : ℝ) : J :=
  ⟨log (rh * rg * t / P0), 1 / t, 1 / rh, -1 / (t * t), 0, -1 / (rh * rh), 2 / t ^ 3, 0, 0, 2 / rh ^ 3⟩

lemma ok_log (ht : 0 < z.1) (hr : 0 < z.2) : Ok (fun z => logJ z.1 z.2) z := by
  have hT : Ok (fun z => ofT (log z.1) (1 / z.1) (-1 / (z.1 * z.1)) (2 / z.1 ^ 3)) z := by
    refine ok_ofT (g := fun t => ofT (log t) (1 / t) (-1 / (t * t)) (2 / t ^ 3)) (fun _ => rfl) (StdState.d_log ht) ?_ ?_
    · refine ((d_cpow 1 1 ht).congr_deriv (by simp only [ofT]; ring)).congr_of_eventuallyEq
        (Eventually.of_forall fun x => by simp [ofT])
    · refine ((d_cpow (-1) 2 ht).congr_deriv (by norm_num [ofT])).congr_of_eventuallyEq
        (Eventually.of_forall fun x => by simp only [ofT]; ring)
  have hR : Ok (fun z => ofR (log z.2) (1 / z.2) (-1 / (z.2 * z.2)) (2 / z.2 ^ 3)) z := by
    refine ok_ofR (g := fun t => ofR (log t) (1 / t) (-1 / (t * t)) (2 / t ^ 3)) (fun _ => rfl) (StdState.d_log hr) ?_ ?_
    · refine ((d_cpow 1 1 hr).congr_deriv (by simp only [ofR]; ring)).congr_of_eventuallyEq
        (Eventually.of_forall fun x => by simp [ofR])
    · refine ((d_cpow (-1) 2 hr).congr_deriv (by norm_num [ofR])).congr_of_eventuallyEq
        (Eventually.of_forall fun x => by simp only [ofR]; ring)
  refine ((hT.add hR).add (ok_cst (log (rg / P0)))).congr ?_
  have h1 : ∀ᶠ w : ℝ × ℝ in 𝓝 z, 0 < w.1 := (isOpen_lt continuous_const continuous_fst).mem_nhds ht
  have h2 : ∀ᶠ w : ℝ × ℝ in 𝓝 z, 0 < w.2 := (isOpen_lt continuous_const continuous_snd).mem_nhds hr
  filter_upwards [h1, h2] with w hw1 hw2
  have hg : (0:ℝ) < rg / P0 := by norm_num [rg, P0]
  ext <;> simp only [logJ, ofT, ofR, cst, add_v, add_t, add_r, add_tt, add_tr, add_rr, add_ttt, add_ttr,
    add_trr, add_rrr, add_zero, zero_add]
  rw [show w.2 * rg * w.1 / P0 = w.1 * w.2 * (rg / P0) by ring,
    log_mul (mul_pos hw1 hw2).ne' hg.ne', log_mul hw1.ne' hw2.ne']

/-- The formulas of `Z` are the rules of calculus applied to its definition. -/
lemma baseZ_eq {t rh : ℝ} {B C Y : J} (hB : B.v ≠ 0) (hY : 1 - Y.v ≠ 0)
    (hBr : B = ofT B.v B.t B.tt B.ttt) (hCr : C = ofT C.v C.t C.tt C.ttt) :
    baseZ t rh B C Y = phiJ Y + (Y.mul (ratio B C + cst (-ga))).smul 4 + logJ t rh := by
  rw [hBr, hCr] 
  generalize B.v = b at *
  generalize B.t = bt at *
  generalize B.tt = btt at *
  generalize B.ttt = bttt at *
  generalize C.v = c at *
  generalize C.t = ct at *
  generalize C.tt = ctt at *
  generalize C.ttt = cttt at *
  have e : ∃ u, u = 1 - Y.v := ⟨_, rfl⟩
  obtain ⟨u, hu⟩ := e
  ext <;> simp only [baseZ, phiJ, phi, J.app, J.smul, J.mul, ratio, cst, logJ, ofT, add_v, add_t, add_r,
    add_tt, add_tr, add_rr, add_ttt, add_ttr, add_trr, add_rrr, ← hu] <;> rw [← hu] at hY <;> field_simp <;> ring

/-- Where the base function is a smooth function: temperature and density positive, `b` not zero, and
`y` below one. -/
structure Sound (t rh : ℝ) : Prop where
  ht : 0 < t
  hr : 0 < rh
  hb : (bJ t).v ≠ 0
  hy : (yJ t rh).v < 1

lemma ok_base (h : Sound z.1 z.2) : Ok (fun z => baseJ z.1 z.2) z := by
  have hy : 1 - (yJ z.1 z.2).v ≠ 0 := by have := h.hy; intro h'; linarith
  have hb := ok_b h.ht
  have hc := ok_bb h.ht
  have hY := ok_y h.ht
  have hZ : Ok (fun z => baseZ z.1 z.2 (bJ z.1) (bbJ z.1) (yJ z.1 z.2)) z := by
    refine (((ok_phi hY hy).add ((hY.mul ((ok_ratio hb hc h.hb).add (ok_cst (-ga)))).smul 4)).add
      (ok_log h.ht h.hr)).congr ?_
    have e1 : ∀ᶠ w in 𝓝 z, (bJ w.1).v ≠ 0 :=
      (HasFDerivAt.continuousAt hb.v).eventually_ne h.hb
    have e2 : ∀ᶠ w in 𝓝 z, 1 - (yJ w.1 w.2).v ≠ 0 :=
      (continuousAt_const.sub (HasFDerivAt.continuousAt hY.v)).eventually_ne hy
    filter_upwards [e1, e2] with w h1 h2
    exact baseZ_eq h1 h2 rfl rfl
  refine ((ok_varT.smul rg).mul hZ).congr (Eventually.of_forall fun w => ?_)
  ext <;> simp only [baseJ, timesRT, J.mul, J.smul, varT] <;> ring

/-! ## The residual function -/

lemma d_erm (rh : ℝ) : HasDerivAt erm (exp (-rh)) rh := by
  have h := ((hasDerivAt_id rh).neg.exp).const_sub 1
  refine (h.congr_deriv (by simp)).congr_of_eventuallyEq (Eventually.of_forall fun x => by simp [erm])

lemma d_nexp (rh : ℝ) : HasDerivAt (fun r => exp (-r)) (-exp (-rh)) rh := by
  simpa using (hasDerivAt_id rh).neg.exp

lemma d_ermpow (n : ℕ) (rh : ℝ) :
    HasDerivAt (fun r => erm r ^ n) (n * erm rh ^ (n - 1) * exp (-rh)) rh := (d_erm rh).pow n

/-- The density factor of a row, by the rules of calculus. -/
noncomputable def ermJ (k : ℕ) (rh : ℝ) : J :=
  ofR (erm rh ^ k) (k * erm rh ^ (k - 1) * exp (-rh))
    (k * ((k - 1 : ℕ) * erm rh ^ (k - 2) * exp (-rh) - erm rh ^ (k - 1)) * exp (-rh))
    (k * (((k - 1 : ℕ) * ((k - 2 : ℕ) * erm rh ^ (k - 3) * exp (-rh) * exp (-rh)
      - erm rh ^ (k - 2) * exp (-rh)) - (k - 1 : ℕ) * erm rh ^ (k - 2) * exp (-rh)) * exp (-rh)
      - ((k - 1 : ℕ) * erm rh ^ (k - 2) * exp (-rh) - erm rh ^ (k - 1)) * exp (-rh)))

lemma ok_erm (k : ℕ) : Ok (fun z => ermJ k z.2) z := by
  refine ok_ofR (fun _ => rfl) ?_ ?_ ?_
  · exact d_ermpow k z.2
  · refine ((((d_ermpow (k - 1) z.2).const_mul (k : ℝ)).mul (d_nexp z.2)).congr_deriv ?_)
    simp only [ermJ, ofR, Nat.sub_sub]; ring
  · refine (((((((d_ermpow (k - 2) z.2).const_mul ((k - 1 : ℕ) : ℝ)).mul (d_nexp z.2)).sub
      (d_ermpow (k - 1) z.2)).const_mul (k : ℝ)).mul (d_nexp z.2)).congr_deriv ?_)
    simp only [ermJ, ofR, Nat.sub_sub, Pi.mul_apply, Pi.sub_apply]; ring

/-- The temperature factor of a row, by the rules of calculus. -/
noncomputable def itauJ (g : ℝ) (l : ℕ) (t : ℝ) : J :=
  ofT (g / (tau t ^ l * t ^ 0)) (-(l : ℝ) * g / (tau t ^ l * t ^ 1)) ((l + 1) * l * g / (tau t ^ l * t ^ 2))
    (-(l + 2) * (l + 1) * l * g / (tau t ^ l * t ^ 3))

lemma ok_itau (g : ℝ) (l : ℕ) (ht : 0 < z.1) : Ok (fun z => itauJ g l z.1) z := by
  refine ok_ofT (fun _ => rfl) ?_ ?_ ?_
  · exact (d_ctau g l 0 ht).congr_deriv (by simp [itauJ, ofT])
  · exact (d_ctau (-(l : ℝ) * g) l 1 ht).congr_deriv (by simp only [itauJ, ofT]; push_cast; ring)
  · exact (d_ctau ((l + 1) * l * g) l 2 ht).congr_deriv (by simp only [itauJ, ofT]; push_cast; ring)

lemma ok_row (w : Row) (hk : 0 < w.k) (ht : 0 < z.1) : Ok (fun z => rowJ w z.1 z.2) z := by
  refine ((ok_itau (w.g / w.k) w.l ht).mul (ok_erm w.k)).congr (Eventually.of_forall fun x => ?_)
  obtain ⟨g, k, l⟩ := w
  have h1 : (1:ℝ) < 3 := by norm_num
  rcases k with _ | _ | _ | k
  · simp at hk
  · ext <;> simp [rowJ, J.mul, itauJ, ermJ, ofT, ofR] <;> first | (left; ring) | ring
  · ext <;> simp [rowJ, J.mul, itauJ, ermJ, ofT, ofR] <;> first | (left; ring) | ring1 | (rw [erm]; ring)
  · have hk' : (k : ℝ) + 3 ≠ 0 := by positivity
    have e1 : k + 1 + 1 + 1 - 1 = k + 2 := rfl
    have e2 : k + 1 + 1 + 1 - 2 = k + 1 := rfl
    have e3 : k + 1 + 1 + 1 - 3 = k := rfl
    have e4 : ((k + 1 + 1 + 1 : ℕ) : ℝ) = k + 3 := by push_cast; ring
    have e5 : ((k + 2 : ℕ) : ℝ) = k + 2 := by push_cast; ring
    have e6 : ((k + 1 : ℕ) : ℝ) = k + 1 := by push_cast; ring
    ext <;> simp only [rowJ, J.mul, itauJ, ermJ, ofT, ofR, pow_zero, mul_one, mul_zero, zero_mul, add_zero,
      zero_add, pow_one, e1, e2, e3, e4, e5, e6, show 1 < k + 1 + 1 + 1 by omega,
      show 2 < k + 1 + 1 + 1 by omega, if_true]
    all_goals first | ring1 | (field_simp; done) | (field_simp; ring1)

/-! ### The four localised rows -/

lemma d_cut {q : ℝ} (hq : q ≠ -100) : HasDerivAt cut (cut q) q := by
  rcases lt_or_gt_of_ne hq with h | h
  · have e : cut =ᶠ[𝓝 q] fun _ => 0 := by
      filter_upwards [gt_mem_nhds h] with x hx
      simp only [cut, if_neg (not_lt.2 hx.le)]
    have e0 : cut q = 0 := e.eq_of_nhds
    rw [e0]; exact (hasDerivAt_const q 0).congr_of_eventuallyEq e
  · have e : cut =ᶠ[𝓝 q] exp := by
      filter_upwards [lt_mem_nhds h] with x hx
      simp only [cut, if_pos hx]
    have e0 : cut q = exp q := e.eq_of_nhds
    rw [e0]; exact (Real.hasDerivAt_exp q).congr_of_eventuallyEq e

lemma d_del (s : Spot) (rh : ℝ) : HasDerivAt s.del (1 / s.rho) rh :=
  ((hasDerivAt_id rh).div_const s.rho).sub_const 1

lemma d_delpow (s : Spot) (n : ℕ) (rh : ℝ) :
    HasDerivAt (fun r => s.del r ^ n) (n * s.del rh ^ (n - 1) * (1 / s.rho)) rh := (d_del s rh).pow n

lemma d_stau (s : Spot) (t : ℝ) : HasDerivAt s.tau (1 / s.tt) t :=
  ((hasDerivAt_id t).div_const s.tt).sub_const 1

/-- A power of `del`, by the rules of calculus. -/
noncomputable def delJ (s : Spot) (n : ℕ) (rh : ℝ) : J :=
  ofR (s.del rh ^ n) (n * s.del rh ^ (n - 1) * (1 / s.rho))
    (n * ((n - 1 : ℕ) * s.del rh ^ (n - 2) * (1 / s.rho)) * (1 / s.rho))
    (n * ((n - 1 : ℕ) * ((n - 2 : ℕ) * s.del rh ^ (n - 3) * (1 / s.rho)) * (1 / s.rho)) * (1 / s.rho))

lemma ok_del (s : Spot) (n : ℕ) : Ok (fun z => delJ s n z.2) z := by
  refine ok_ofR (fun _ => rfl) ?_ ?_ ?_
  · exact d_delpow s n z.2
  · refine ((((d_delpow s (n - 1) z.2).const_mul (n : ℝ)).mul_const (1 / s.rho)).congr_deriv ?_)
    simp only [delJ, ofR, Nat.sub_sub]
  · refine (((((d_delpow s (n - 2) z.2).const_mul ((n - 1 : ℕ) : ℝ)).mul_const (1 / s.rho)).const_mul
      (n : ℝ)).mul_const (1 / s.rho)).congr_deriv ?_
    simp only [delJ, ofR, Nat.sub_sub]

lemma ok_Q (s : Spot) : Ok (fun z => s.Q z.1 z.2) z := by
  have hT : Ok (fun z => ofT (-s.bet * s.tau z.1 * s.tau z.1) (-s.bet * 2 * s.tau z.1 / s.tt)
      (-s.bet * 2 / s.tt ^ 2) 0) z := by
    refine ok_ofT (g := fun t => ofT (-s.bet * s.tau t * s.tau t) (-s.bet * 2 * s.tau t / s.tt)
      (-s.bet * 2 / s.tt ^ 2) 0) (fun _ => rfl) ?_ ?_ ?_
    · refine ((((d_stau s z.1).const_mul (-s.bet)).mul (d_stau s z.1))).congr_deriv ?_
      simp only [ofT]; ring
    · refine (((d_stau s z.1).const_mul (-s.bet * 2)).div_const s.tt).congr_deriv ?_
      simp only [ofT]; ring
    · exact hasDerivAt_const _ _
  refine (((ok_del s s.k).smul (-s.alp)).add hT).congr (Eventually.of_forall fun x => ?_)
  obtain ⟨g, k, l, rho, tt, alp, bet⟩ := s
  rcases k with _ | _ | _ | k
  · ext <;> simp [Spot.Q, J.smul, delJ, ofT, ofR] <;> ring
  · ext <;> simp [Spot.Q, J.smul, delJ, ofT, ofR] <;> ring
  · ext <;> simp [Spot.Q, J.smul, delJ, ofT, ofR] <;> ring
  · ext <;> simp [Spot.Q, J.smul, delJ, ofT, ofR] <;> ring

lemma ok_spot (s : Spot) (h : (s.Q z.1 z.2).v ≠ -100) : Ok (fun z => spotJ s z.1 z.2) z := by
  refine (((ok_del s s.l).smul s.g).mul ((ok_Q s).app (d_cut h) (d_cut h) (d_cut h))).congr
    (Eventually.of_forall fun x => ?_)
  have e : (s.Q x.1 x.2).tr = 0 ∧ (s.Q x.1 x.2).ttr = 0 ∧ (s.Q x.1 x.2).trr = 0 := ⟨rfl, rfl, rfl⟩
  generalize s.Q x.1 x.2 = q at e
  obtain ⟨e1, e2, e3⟩ := e
  obtain ⟨g, k, l, rho, tt, alp, bet⟩ := s
  rcases l with _ | _ | _ | l
  · ext <;> simp [spotJ, J.mul, J.app, J.smul, delJ, ofR, e1, e2, e3] <;> first | (left; ring1) | ring1
  · ext <;> simp [spotJ, J.mul, J.app, J.smul, delJ, ofR, e1, e2, e3] <;> first | (left; ring1) | ring1
  · ext <;> simp [spotJ, J.mul, J.app, J.smul, delJ, ofR, e1, e2, e3] <;> first | (left; ring1) | ring1
  · ext <;> simp [spotJ, J.mul, J.app, J.smul, delJ, ofR, e1, e2, e3] <;> first | (left; ring1) | ring1

/-- The localised rows are away from their cut-off. -/
def OffCut (t rh : ℝ) : Prop := ∀ s ∈ spots, (s.Q t rh).v ≠ -100

lemma rows_k : ∀ w ∈ rows, 0 < w.k := by
  simp [rows]

lemma ok_res (ht : 0 < z.1) (hc : OffCut z.1 z.2) : Ok (fun z => resJ z.1 z.2) z :=
  (Ok.sum (fun w z => rowJ w z.1 z.2) rows fun w hw => ok_row w (rows_k w hw) ht).add
    (Ok.sum (fun s z => spotJ s z.1 z.2) spots fun s hs => ok_spot s (hc s hs))

/-! ## The ideal-gas function and the sum -/

lemma d_tr (n : ℤ) {t : ℝ} (ht : 0 < t) (c : ℝ) :
    HasDerivAt (fun t => c * (t / 100) ^ n) (n * c * (t / 100) ^ (n - 1) * (1 / 100)) t := by
  have h1 : HasDerivAt (fun t : ℝ => t / 100) (1 / 100) t := by
    simpa using (hasDerivAt_id t).div_const 100
  have h2 : HasDerivAt (fun x : ℝ => x ^ n) (n * (t / 100) ^ (n - 1)) ((fun t : ℝ => t / 100) t) :=
    hasDerivAt_zpow n _ (Or.inl (by positivity))
  refine (((h2.comp t h1).const_mul c).congr_deriv (?_ : _ = n * c * (t / 100) ^ (n - 1) * (1 / 100)))
  ring

lemma ok_gasTerm (c : ℝ × ℤ) (ht : 0 < z.1) : Ok (fun z => gasTerm c z.1) z := by
  refine ok_ofT (fun _ => rfl) ?_ ?_ ?_
  · refine (d_tr c.2 ht c.1).congr_deriv ?_
    simp only [gasTerm, ofT]
  · refine ((d_tr (c.2 - 1) ht (c.2 * c.1 * (1 / 100))).congr_deriv ?_).congr_of_eventuallyEq
      (Eventually.of_forall fun x => by simp only [gasTerm, ofT]; ring)
    simp only [gasTerm, ofT, show c.2 - 1 - 1 = c.2 - 2 by ring]; push_cast; ring
  · refine ((d_tr (c.2 - 2) ht (c.2 * (c.2 - 1) * c.1 * (1 / 100) ^ 2)).congr_deriv ?_).congr_of_eventuallyEq
      (Eventually.of_forall fun x => by simp only [gasTerm, ofT]; ring)
    simp only [gasTerm, ofT, show c.2 - 2 - 1 = c.2 - 3 by ring]; push_cast; ring

lemma ok_gasHead (ht : 0 < z.1) : Ok (fun z => gasHead z.1) z := by
  have hl : HasDerivAt (fun t : ℝ => log (t / 100)) (1 / z.1) z.1 := StdState.d_logq (by norm_num) ht
  have hn := ht.ne'
  refine ok_ofT (fun _ => rfl) ?_ ?_ ?_
  · refine (((((d_cpow (c1 * 100) 1 ht).add_const c2).mul hl).const_add 1).congr_deriv
      ?_).congr_of_eventuallyEq (Eventually.of_forall fun x => by simp only [gasHead, ofT, Pi.mul_apply]; ring)
    simp only [gasHead, ofT]; field_simp; push_cast; ring
  · refine ((((d_cpow (-c1 * 100) 2 ht).mul hl).add ((d_cpow (c1 * 100) 2 ht).add
      (d_cpow c2 1 ht))).congr_deriv
      ?_).congr_of_eventuallyEq (Eventually.of_forall fun x => by
        simp only [gasHead, ofT, Pi.mul_apply, Pi.add_apply]; ring)
    simp only [gasHead, ofT]; field_simp; push_cast; ring
  · refine ((((d_cpow (2 * c1 * 100) 3 ht).mul hl).add ((d_cpow (-3 * c1 * 100) 3 ht).add
      (d_cpow (-c2) 2 ht))).congr_deriv
      ?_).congr_of_eventuallyEq (Eventually.of_forall fun x => by
        simp only [gasHead, ofT, Pi.mul_apply, Pi.add_apply]; ring)
    simp only [gasHead, ofT]; field_simp; push_cast; ring

lemma gas_flat (l : List (ℝ × ℤ)) (t : ℝ) : (l.map fun c => gasTerm c t).sum =
    ofT (l.map fun c => gasTerm c t).sum.v (l.map fun c => gasTerm c t).sum.t
      (l.map fun c => gasTerm c t).sum.tt (l.map fun c => gasTerm c t).sum.ttt := by
  induction l with
  | nil => rfl
  | cons c l ih =>
    simp only [List.map_cons, List.sum_cons]
    rw [ih]
    ext <;> simp [ofT, gasTerm]

lemma ok_gas (ht : 0 < z.1) : Ok (fun z => gasJ z.1) z := by
  have hZ : Ok (fun z => gasHead z.1 + (gasRows.map fun c => gasTerm c z.1).sum) z :=
    (ok_gasHead ht).add (Ok.sum (fun c z => gasTerm c z.1) gasRows fun c _ => ok_gasTerm c ht)
  refine ((ok_varT.smul (-rg)).mul hZ).congr (Eventually.of_forall fun w => ?_)
  simp only [gasJ]
  rw [gas_flat gasRows w.1]
  generalize (gasRows.map fun c => gasTerm c w.1).sum = s
  ext <;> simp [J.mul, J.smul, varT, gasHead, ofT] <;> ring

/-- The nine derivatives of the Helmholtz energy that `whaar` writes out are its partial derivatives. -/
theorem ok_helm {t rh : ℝ} (h : Sound t rh) (hc : OffCut t rh) : Ok (fun z => helm z.1 z.2) (t, rh) :=
  ((ok_base (z := (t, rh)) h).add (ok_res (z := (t, rh)) h.ht hc)).add (ok_gas (z := (t, rh)) h.ht)

end Verif.Thermo.Water
