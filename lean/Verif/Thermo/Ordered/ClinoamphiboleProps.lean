import Verif.Thermo.Ordered.Clinoamphibole
import Verif.Thermo.OrderExist
import Verif.Thermo.ConvTables

/-!
Clinoamphibole (/repo/sources/amphibole.c with the structure `clino` true): its equilibrium ordering state exists at every
temperature, is unique above 309 K, and what the file reports are the derivatives of the Gibbs energy at equilibrium
order.
-/

namespace Verif.Thermo.Ordering.Clinoamphibole

open Finset Filter Topology
open Magma.Thermo.Mixing (R R_pos Mix)

noncomputable section

/-- Constant terms of the site fractions, amphibole.c 1014, 1067-1072. -/
def siteA (r : Fin 2 → ℝ) : Fin 7 → ℝ :=
  ![r 1, (1 + r 0) / 2, (1 + r 0) / 2, (1 + r 0) / 2, (1 - r 0) / 2 - r 1, (1 - r 0) / 2, (1 - r 0) / 2]

/-- Coefficients of the ordering parameters in the site fractions, amphibole.c 1067-1072. -/
def siteB : Fin 7 → Fin 2 → ℝ :=
  ![![0, 0], ![3 / 7, 2 / 7], ![-(4 / 7), 2 / 7], ![3 / 7, -(5 / 7)], ![-(3 / 7), -(2 / 7)], ![4 / 7, -(2 / 7)],
    ![-(3 / 7), 5 / 7]]

/-- Sites per formula unit, times `RT`. -/
def siteC (t : ℝ) : Fin 7 → ℝ :=
  ![2 * (R * t), 2 * (R * t), 3 * (R * t), 2 * (R * t), 2 * (R * t), 3 * (R * t), 2 * (R * t)]

lemma raw_eq (r : Fin 2 → ℝ) (t p : ℝ) (s : Fin 2 → ℝ) (i : Fin 7) :
    raw (join (env r t p, s)) i = frac (siteA r i) (siteB i) s := by
  fin_cases i <;> simp [raw, join, env, frac, siteA, siteB] <;> ring

lemma raw_sum (y : Var 2 2 → ℝ) :
    raw y 0 + raw y 1 + raw y 4 = 1 ∧ raw y 2 + raw y 5 = 1 ∧ raw y 3 + raw y 6 = 1 := by
  refine ⟨?_, ?_, ?_⟩ <;> simp [raw] <;> ring

/-- `Dom`: all seven site fractions positive. -/
lemma dom_iff (y : Var 2 2 → ℝ) : Dom y ↔ ∀ i, 0 < raw y i := by
  constructor
  · rintro ⟨a0, a1, a2, a3, a4, a5, a6⟩ i
    fin_cases i
    exacts [a0, a1, a2, a3, a4, a5, a6]
  · intro h
    exact ⟨h 0, h 1, h 2, h 3, h 4, h 5, h 6⟩

/-- The part of `G` without the entropy of mixing. -/
def excess (r : Fin 2 → ℝ) (t p : ℝ) (s : Fin 2 → ℝ) : ℝ := G t (r 0) (r 1) (s 0) (s 1) 1 1 1 1 1 1 1

lemma g_eq (r : Fin 2 → ℝ) (t p : ℝ) (s : Fin 2 → ℝ) (h : Dom (join (env r t p, s))) :
    (macros (join (env r t p, s))).g = excess r t p s + ∑ i, siteC t i *
      (frac (siteA r i) (siteB i) s * Real.log (frac (siteA r i) (siteB i) s)) := by
  simp only [← raw_eq r t p s]
  unfold macros
  rw [site_eq _ h]
  simp only [tables, G, SIC, excess, Real.log_one, Fin.sum_univ_seven, siteC, Matrix.cons_val]
  simp only [join, env, iT, iP, Sum.elim_inl, Sum.elim_inr, Matrix.cons_val_zero, Matrix.cons_val_one]
  ring

lemma dom_bounded (r : Fin 2 → ℝ) : Bornology.IsBounded {s : Fin 2 → ℝ | ∀ i, 0 ≤ frac (siteA r i) (siteB i) s} := by
  refine (Metric.isBounded_closedBall (x := (0 : Fin 2 → ℝ)) (r := 1)).subset fun s hs => ?_
  rw [Metric.mem_closedBall, dist_zero_right]
  refine (pi_norm_le_iff_of_nonneg zero_le_one).mpr fun k => ?_
  have h0 := hs 0; have h1 := hs 1; have h2 := hs 2; have h3 := hs 3; have h4 := hs 4; have h5 := hs 5
  have h6 := hs 6
  simp [frac, siteA, siteB] at h0 h1 h2 h3 h4 h5 h6
  rw [Real.norm_eq_abs, abs_le]
  fin_cases k
  · constructor <;> simp only [Fin.zero_eta] <;> linarith
  · constructor <;> simp only [Fin.mk_one] <;> linarith

/-- Compositions strictly between the three end members. -/
def Between (r : Fin 2 → ℝ) : Prop := -1 < r 0 ∧ 0 < r 1 ∧ r 1 + (1 + r 0) / 2 < 1

/-- The ordering state the iteration starts from: iron distributed at random, amphibole.c 1014-1018. -/
def start (r : Fin 2 → ℝ) : Fin 2 → ℝ := fun _ =>
  ((1 - r 1) * ((1 + r 0) / 2) - (1 + r 0) / 2) / ((1 + r 0) / 2 + (7 - 2 * r 1 - 7 * ((1 + r 0) / 2)) / 7)

/-- The iteration starts with all site fractions positive. -/
lemma start_pos {r : Fin 2 → ℝ} (hr : Between r) (i : Fin 7) : 0 < frac (siteA r i) (siteB i) (start r) := by
  obtain ⟨h0, h1, h2⟩ := hr
  have hn : 0 < 7 - 2 * r 1 := by linarith
  have e : start r = fun _ => -(7 * r 1 * ((1 + r 0) / 2)) / (7 - 2 * r 1) := by
    funext _
    unfold start
    rw [div_eq_div_iff (by linarith) (by linarith)]
    ring
  have hx : 0 < (1 + r 0) / 2 := by linarith
  have hm : 0 < 1 - (1 + r 0) / 2 - 2 * r 1 / 7 := by linarith
  have hc : 0 < 1 - r 1 := by linarith
  set xf := (1 + r 0) / 2 with hxf
  have hr0 : r 0 = 2 * xf - 1 := by rw [hxf]; ring
  have e1 : ∀ i, frac (siteA r i) (siteB i) (start r)
      = (![r 1, (1 - r 1) * xf * 7 / (7 - 2 * r 1), 7 * xf / (7 - 2 * r 1), 7 * xf / (7 - 2 * r 1),
          (1 - r 1) * (1 - xf - 2 * r 1 / 7) * 7 / (7 - 2 * r 1), 7 * (1 - xf - 2 * r 1 / 7) / (7 - 2 * r 1),
          7 * (1 - xf - 2 * r 1 / 7) / (7 - 2 * r 1)] : Fin 7 → ℝ) i := by
    intro i
    rw [e]
    obtain ⟨N, hN⟩ : ∃ N, N = 7 - 2 * r 1 := ⟨_, rfl⟩
    have hr1 : r 1 = (7 - N) / 2 := by rw [hN]; ring
    rw [← hN] at hn ⊢
    have hn' := hn.ne'
    fin_cases i <;> simp [frac, siteA, siteB, hr0, hr1] <;> field_simp <;> ring
  rw [e1]
  fin_cases i <;> simp only [Fin.reduceFinMk, Fin.zero_eta, Fin.mk_one, Matrix.cons_val] <;> positivity

/-- **C61.** At every temperature, pressure and composition between the end members, monoclinic amphibole has an
equilibrium ordering state: one with all site fractions positive, with the lowest Gibbs energy of all such states,
and so a solution of the equations `order()` solves. -/
theorem C61_clinoamphibole_exists {r : Fin 2 → ℝ} (hr : Between r) {t : ℝ} (ht : 0 < t) (p : ℝ) :
    ∃ s : Fin 2 → ℝ, Dom (join (env r t p, s)) ∧ (∀ k, (macros (join (env r t p, s))).dgds k = 0) ∧
      ∀ s', Dom (join (env r t p, s')) → (macros (join (env r t p, s))).g ≤ (macros (join (env r t p, s'))).g := by
  have hR := R_pos
  have hQ : Differentiable ℝ (excess r t p) := by
    unfold excess G SIC; fun_prop
  have hc : ∀ i, 0 < siteC t i := by
    intro i; fin_cases i <;> simp only [siteC] <;> simp <;> positivity
  obtain ⟨s, hs, hmin⟩ := exists_interior_min (siteA r) siteB (siteC t) hc hQ (start_pos hr) (dom_bounded r)
  have hD : Dom (join (env r t p, s)) := (dom_iff _).mpr fun i => by rw [raw_eq]; exact hs i
  have hle : ∀ s', Dom (join (env r t p, s')) →
      (macros (join (env r t p, s))).g ≤ (macros (join (env r t p, s'))).g := by
    intro s' hs'
    rw [g_eq r t p s hD, g_eq r t p s' hs']
    exact hmin s' fun i => by rw [← raw_eq r t p]; exact ((dom_iff _).mp hs' i).le
  refine ⟨s, hD, fun k => ?_, hle⟩
  refine stationary_of_min ok hD ?_ k
  have hopen : ∀ᶠ s' in 𝓝 s, Dom (join (env r t p, s')) := by
    have hc : Continuous fun s' : Fin 2 → ℝ => join (env r t p, s') :=
      join_continuous.comp (Continuous.prodMk continuous_const continuous_id)
    exact hc.continuousAt.eventually (dom_open.mem_nhds hD)
  filter_upwards [hopen] with s' h
  exact hle s' h

lemma four_le {x z : ℝ} (h0 : 0 < x) (h1 : 0 < z) (h : x + z ≤ 1) : 4 ≤ x⁻¹ + z⁻¹ := by
  rw [inv_add_inv h0.ne' h1.ne', le_div_iff₀ (mul_pos h0 h1)]
  nlinarith [sq_nonneg (x - z), mul_pos h0 h1]

/-- Above 309 K the energy is strictly convex in the ordering state. -/
lemma posHess {y : Var 2 2 → ℝ} (ht : 309 ≤ y (.inl iT)) (h : Dom y) : PosHess (jets macros) y := by
  intro v hv
  obtain ⟨e0, e1, e2⟩ := raw_sum y
  have hx := (dom_iff y).mp h
  have q0 := four_le (hx 1) (hx 4) (by linarith [hx 0])
  have q1 := four_le (hx 2) (hx 5) (by linarith)
  have q2 := four_le (hx 3) (hx 6) (by linarith)
  set z0 := (raw y 1)⁻¹ + (raw y 4)⁻¹
  set z1 := (raw y 2)⁻¹ + (raw y 5)⁻¹
  set z2 := (raw y 3)⁻¹ + (raw y 6)⁻¹
  have key : ∑ k, ∑ l, (jets macros).g2 y (.inr k) (.inr l) * v k * v l
      = R * (y (.inl iT)) * (2 * (3 / 7 * v 0 + 2 / 7 * v 1) ^ 2 * z0 + 3 * (-(4 / 7) * v 0 + 2 / 7 * v 1) ^ 2 * z1
          + 2 * (3 / 7 * v 0 - 5 / 7 * v 1) ^ 2 * z2)
        + (2 * GS13S13 * v 0 ^ 2 + 2 * GS13S2 * v 0 * v 1 + 2 * GS2S2 * v 1 ^ 2) := by
    have e : ∀ k l, (jets macros).g2 y (.inr k) (.inr l) = (tables (raw y) y).d2gds2 k l := by
      intro k l
      change (macros y).d2gds2 k l = _
      unfold macros; rw [site_eq y h]
    simp only [e, Fin.sum_univ_two]
    simp only [tables, Matrix.cons_val_zero, Matrix.cons_val_one, D2GDS0S0, D2GDS0S1, D2GDS1S1, GPS13S13, GPS13S2,
      GPS2S2, DWCAFE, DWCAMG, cDWCAFE, cDWCAMG]
    simp only [z0, z1, z2, div_eq_mul_inv, mul_inv]
    ring
  rw [key]
  generalize y (.inl iT) = t at ht ⊢
  have hR : R = 83143 / 10000 := by unfold R; norm_num
  have hRt : 25691 / 10 ≤ R * t := by rw [hR]; linarith
  have hpos : 0 < R * t := by linarith
  have p0 : 2 * (3 / 7 * v 0 + 2 / 7 * v 1) ^ 2 * 4 ≤ 2 * (3 / 7 * v 0 + 2 / 7 * v 1) ^ 2 * z0 :=
    mul_le_mul_of_nonneg_left q0 (by positivity)
  have p1 : 3 * (-(4 / 7) * v 0 + 2 / 7 * v 1) ^ 2 * 4 ≤ 3 * (-(4 / 7) * v 0 + 2 / 7 * v 1) ^ 2 * z1 :=
    mul_le_mul_of_nonneg_left q1 (by positivity)
  have p2 : 2 * (3 / 7 * v 0 - 5 / 7 * v 1) ^ 2 * 4 ≤ 2 * (3 / 7 * v 0 - 5 / 7 * v 1) ^ 2 * z2 :=
    mul_le_mul_of_nonneg_left q2 (by positivity)
  set W := 2 * (3 / 7 * v 0 + 2 / 7 * v 1) ^ 2 * 4 + 3 * (-(4 / 7) * v 0 + 2 / 7 * v 1) ^ 2 * 4
    + 2 * (3 / 7 * v 0 - 5 / 7 * v 1) ^ 2 * 4 with hW
  have hW0 : 0 ≤ W := by positivity
  have s1 : 25691 / 10 * W ≤ R * t * W := mul_le_mul_of_nonneg_right hRt hW0
  have s2 : R * t * W ≤ R * t * (2 * (3 / 7 * v 0 + 2 / 7 * v 1) ^ 2 * z0
      + 3 * (-(4 / 7) * v 0 + 2 / 7 * v 1) ^ 2 * z1 + 2 * (3 / 7 * v 0 - 5 / 7 * v 1) ^ 2 * z2) :=
    mul_le_mul_of_nonneg_left (by linarith) hpos.le
  have hq : 0 < 25691 / 10 * W + (2 * GS13S13 * v 0 ^ 2 + 2 * GS13S2 * v 0 * v 1 + 2 * GS2S2 * v 1 ^ 2) := by
    have hne : v 0 ≠ 0 ∨ v 1 ≠ 0 := by
      by_contra hc
      push Not at hc
      exact hv (funext fun k => by fin_cases k; exacts [hc.1, hc.2])
    simp only [hW, GS13S13, GS13S2, GS2S2, W123, W4, GX123_4, GX13_24, GX134_2, DZ, cGX123_4, cGX13_24, cGX134_2, cW123, cW4, cDZ]
    have e : ∀ x z : ℝ, (281683 / 6125) * x ^ 2 + (-(11151901 / 24500)) * x * z + (210436369 / 24500) * z ^ 2
        = (281683 / 6125) * (x + (-(11151901 / 24500)) / (2 * (281683 / 6125)) * z) ^ 2 + ((210436369 / 24500) - (-(11151901 / 24500)) * (-(11151901 / 24500)) / (4 * (281683 / 6125))) * z ^ 2 := fun x z => by ring
    have hF : 0 < (281683 / 6125) * v 0 ^ 2 + (-(11151901 / 24500)) * v 0 * v 1 + (210436369 / 24500) * v 1 ^ 2 := by
      rw [e]
      by_cases h1 : v 1 = 0
      · have h0 : v 0 ≠ 0 := hne.resolve_right (not_not.mpr h1)
        rw [h1]; simp; positivity
      · have : (0 : ℝ) < (210436369 / 24500) - (-(11151901 / 24500)) * (-(11151901 / 24500)) / (4 * (281683 / 6125)) := by norm_num
        have := mul_pos this (by positivity : 0 < v 1 ^ 2)
        have : 0 ≤ (281683 / 6125) * (v 0 + (-(11151901 / 24500)) / (2 * (281683 / 6125)) * v 1) ^ 2 := by positivity
        linarith
    refine lt_of_lt_of_eq hF ?_
    ring
  linarith

lemma dom_convex (θ : Ext 2 → ℝ) : Convex ℝ {s | Dom (join (θ, s))} := by
  intro s hs s' hs' a b ha hb hab
  refine (dom_iff _).mpr fun i => ?_
  have h := (dom_iff _).mp hs i
  have h' := (dom_iff _).mp hs' i
  have e : raw (join (θ, a • s + b • s')) i = a * raw (join (θ, s)) i + b * raw (join (θ, s')) i := by
    have hb' : b = 1 - a := by linarith
    fin_cases i <;> simp [raw, join, hb'] <;> ring
  rw [e]
  rcases ha.lt_or_eq with ha' | ha'
  · have := mul_pos ha' h
    have := mul_nonneg hb h'.le
    linarith
  · have : b = 1 := by linarith
    rw [← ha', this]
    linarith

/-- **C61.** Above 309 K monoclinic amphibole has exactly one equilibrium ordering state with positive site fractions, so
whatever solution `order()` finds is the equilibrium state. -/
theorem C61_clinoamphibole_unique {r : Fin 2 → ℝ} (hr : Between r) {t : ℝ} (ht : 309 ≤ t) (p : ℝ) :
    ∃! s : Fin 2 → ℝ, Dom (join (env r t p, s)) ∧ ∀ k, (macros (join (env r t p, s))).dgds k = 0 := by
  obtain ⟨s, hD, hs, -⟩ := C61_clinoamphibole_exists hr (by linarith : 0 < t) p
  exact ⟨s, ⟨hD, hs⟩, fun s' h => stationary_unique ok (dom_convex _)
    (fun s h => posHess (y := join (env r t p, s)) ht h) h.1 hD h.2 hs⟩

/-- Conditions: temperatures above 309 K and compositions strictly between the end members. -/
def Cond (t _p : ℝ) (r : Fin 2 → ℝ) : Prop := 309 < t ∧ Between r

/-- `X` gives, at these conditions, an ordering state in which all site fractions are positive and the
equilibrium equations hold: what the Newton iteration of `order()` looks for (amphibole.c 1004-1092). -/
def Equilibrium (X : (Ext 2 → ℝ) → Fin 2 → ℝ) : Prop :=
  ∀ t p r, Cond t p r → Dom (pt X (env r t p)) ∧ ∀ k, (macros (pt X (env r t p))).dgds k = 0

lemma env_eta (θ : Ext 2 → ℝ) : env (fun i => θ (.inl i)) (θ iT) (θ iP) = θ := by
  funext b
  rcases b with i | k
  · rfl
  · fin_cases k <;> rfl

/-- The set of conditions. -/
def At : Set (Ext 2 → ℝ) := {θ | Cond (θ iT) (θ iP) fun i => θ (.inl i)}

lemma at_open : IsOpen At := by
  have c : ∀ i, Continuous fun θ : Ext 2 → ℝ => θ i := continuous_apply
  exact (isOpen_lt continuous_const (c _)).inter ((isOpen_lt continuous_const (c _)).inter
    ((isOpen_lt continuous_const (c _)).inter
      (isOpen_lt ((c (.inl 1)).add ((continuous_const.add (c (.inl 0))).div_const 2)) continuous_const)))

/-- Such a state is unique, hence smooth in the conditions. -/
theorem solved {X : (Ext 2 → ℝ) → Fin 2 → ℝ} (hX : Equilibrium X) : Solved (jets macros) Dom X At := by
  refine solved_of_posHess ok dom_open at_open (fun θ h => ?_) (fun θ _ => dom_convex θ)
    fun θ h s hd => posHess (y := join (θ, s)) (le_of_lt h.1) hd
  have := hX (θ iT) (θ iP) (fun i => θ (.inl i)) h
  rwa [env_eta] at this

/-- There is an equilibrium state function. -/
theorem equilibrium_exists : ∃ X, Equilibrium X := by
  classical
  have h : ∀ θ : Ext 2 → ℝ, ∃ s : Fin 2 → ℝ, Cond (θ iT) (θ iP) (fun i => θ (.inl i)) →
      Dom (join (θ, s)) ∧ ∀ k, (macros (join (θ, s))).dgds k = 0 := by
    intro θ
    by_cases hc : Cond (θ iT) (θ iP) (fun i => θ (.inl i))
    · obtain ⟨s, hD, hs, -⟩ := C61_clinoamphibole_exists hc.2 (lt_trans (by norm_num) hc.1) (θ iP)
      rw [env_eta] at hD hs
      exact ⟨s, fun _ => ⟨hD, hs⟩⟩
    · exact ⟨0, fun h => absurd h hc⟩
  choose X hX using h
  exact ⟨X, fun t p r hc => hX (env r t p) hc⟩

/-- `gmixAph, hmixAph, smixAph, cpmixAph, vmixAph` for this structure, amphibole.c 1868-2480. -/
def mix (X : (Ext 2 → ℝ) → Fin 2 → ℝ) : Mix 2 := ordMix (jets macros) (fun y => (macros y).s) X

/-- **C24.** Clinoamphibole: every mixing property the file reports is the derivative it claims to be of the Gibbs energy at
equilibrium order, at every temperature above 309 K, pressure and composition between the end members. -/
theorem C24_clinoamphibole {X : (Ext 2 → ℝ) → Fin 2 → ℝ} (hX : Equilibrium X) : ConsistentOn (mix X) Cond :=
  C24_ordering (E := fun y => (macros y).s) ok (fun y _ => entropy_eq y) (solved hX)

/-- The hypotheses are met. -/
example : ∃ X, Equilibrium X ∧ Cond 1000 1 ![0, 1 / 4] := by
  obtain ⟨X, hX⟩ := equilibrium_exists
  refine ⟨X, hX, by norm_num, by norm_num, by norm_num, ?_⟩
  simp only [Matrix.cons_val_zero, Matrix.cons_val_one]; norm_num

end

end Verif.Thermo.Ordering.Clinoamphibole
