import Verif.Thermo.Ordered.Cummingtonite
import Verif.Thermo.OrderExist
import Verif.Thermo.ConvTables

/-!
Cummingtonite (/repo/sources/cummingtonite.c): its equilibrium ordering state exists at every temperature, is unique
above 309 K, and what the file reports are the derivatives of the Gibbs energy at equilibrium order.
-/

namespace Verif.Thermo.Ordering.Cummingtonite

open Finset Filter Topology
open Magma.Thermo.Mixing (R R_pos Mix)

noncomputable section

/-- Constant terms of the site fractions, cummingtonite.c 726-731. -/
def siteA (r0 : ℝ) : Fin 6 → ℝ :=
  ![(1 + r0) / 2, (1 + r0) / 2, (1 + r0) / 2, (1 - r0) / 2, (1 - r0) / 2, (1 - r0) / 2]

/-- Coefficients of the ordering parameters in the site fractions, cummingtonite.c 726-731. -/
def siteB : Fin 6 → Fin 2 → ℝ :=
  ![![3 / 7, 2 / 7], ![-(4 / 7), 2 / 7], ![3 / 7, -(5 / 7)], ![-(3 / 7), -(2 / 7)], ![4 / 7, -(2 / 7)],
    ![-(3 / 7), 5 / 7]]

/-- Sites per formula unit, times `RT`. -/
def siteC (t : ℝ) : Fin 6 → ℝ :=
  ![2 * (R * t), 3 * (R * t), 2 * (R * t), 2 * (R * t), 3 * (R * t), 2 * (R * t)]

lemma raw_eq (r : Fin 1 → ℝ) (t p : ℝ) (s : Fin 2 → ℝ) (i : Fin 6) :
    raw (join (env r t p, s)) i = frac (siteA (r 0) i) (siteB i) s := by
  fin_cases i <;> simp [raw, join, env, frac, siteA, siteB] <;> ring

lemma raw_sum (y : Var 1 2 → ℝ) : raw y 0 + raw y 3 = 1 ∧ raw y 1 + raw y 4 = 1 ∧ raw y 2 + raw y 5 = 1 := by
  refine ⟨?_, ?_, ?_⟩ <;> simp [raw]

/-- `Dom`: all six site fractions positive. -/
lemma dom_iff (y : Var 1 2 → ℝ) : Dom y ↔ ∀ i, 0 < raw y i := by
  obtain ⟨h0, h1, h2⟩ := raw_sum y
  constructor
  · rintro ⟨a0, a1, a2, a3, a4, a5⟩ i
    fin_cases i
    exacts [a0.1, a1.1, a2.1, a3.1, a4.1, a5.1]
  · intro h
    have b0 := h 0; have b1 := h 1; have b2 := h 2; have b3 := h 3; have b4 := h 4; have b5 := h 5
    refine ⟨⟨b0, ?_⟩, ⟨b1, ?_⟩, ⟨b2, ?_⟩, ⟨b3, ?_⟩, ⟨b4, ?_⟩, ⟨b5, ?_⟩⟩ <;> linarith

/-- The part of `G` without the entropy of mixing. -/
def excess (r : Fin 1 → ℝ) (p : ℝ) (s : Fin 2 → ℝ) : ℝ :=
  H (r 0) (s 0) (s 1) + (p - 1) * V (r 0) (s 0) (s 1)

lemma g_eq (r : Fin 1 → ℝ) (t p : ℝ) (s : Fin 2 → ℝ) (h : Dom (join (env r t p, s))) :
    (macros (join (env r t p, s))).g = excess r p s + ∑ i, siteC t i *
      (frac (siteA (r 0) i) (siteB i) s * Real.log (frac (siteA (r 0) i) (siteB i) s)) := by
  simp only [← raw_eq r t p s]
  unfold macros
  rw [site_eq _ h]
  simp only [tables, G, S, excess, Fin.sum_univ_six, siteC, Matrix.cons_val]
  simp only [join, env, Sum.elim_inl, Sum.elim_inr, Matrix.cons_val_zero, Matrix.cons_val_one]
  ring

lemma dom_bounded (r0 : ℝ) : Bornology.IsBounded {s : Fin 2 → ℝ | ∀ i, 0 ≤ frac (siteA r0 i) (siteB i) s} := by
  refine (Metric.isBounded_closedBall (x := (0 : Fin 2 → ℝ)) (r := 1)).subset fun s hs => ?_
  rw [Metric.mem_closedBall, dist_zero_right]
  refine (pi_norm_le_iff_of_nonneg zero_le_one).mpr fun k => ?_
  have h0 := hs 0; have h1 := hs 1; have h2 := hs 2; have h3 := hs 3; have h4 := hs 4; have h5 := hs 5
  simp [frac, siteA, siteB] at h0 h1 h2 h3 h4 h5
  rw [Real.norm_eq_abs, abs_le]
  fin_cases k
  · constructor <;> simp only [Fin.zero_eta] <;> linarith
  · constructor <;> simp only [Fin.mk_one] <;> linarith

/-- **C61.** At every temperature, pressure and composition between the end members, cummingtonite has an
equilibrium ordering state: one with all site fractions positive, with the lowest Gibbs energy of all such states,
and so a solution of the equations `order()` solves. -/
theorem C61_cummingtonite_exists (r : Fin 1 → ℝ) (hr : -1 < r 0 ∧ r 0 < 1) {t : ℝ} (ht : 0 < t) (p : ℝ) :
    ∃ s : Fin 2 → ℝ, Dom (join (env r t p, s)) ∧ (∀ k, (macros (join (env r t p, s))).dgds k = 0) ∧
      ∀ s', Dom (join (env r t p, s')) → (macros (join (env r t p, s))).g ≤ (macros (join (env r t p, s'))).g := by
  have hR := R_pos
  have hQ : Differentiable ℝ (excess r p) := by
    unfold excess H V; fun_prop
  have hc : ∀ i, 0 < siteC t i := by
    intro i; fin_cases i <;> simp only [siteC] <;> simp <;> positivity
  have h0 : ∀ i, 0 < frac (siteA (r 0) i) (siteB i) (0 : Fin 2 → ℝ) := by
    intro i; fin_cases i <;> simp [frac, siteA] <;> linarith [hr.1, hr.2]
  obtain ⟨s, hs, hmin⟩ := exists_interior_min (siteA (r 0)) siteB (siteC t) hc hQ h0 (dom_bounded (r 0))
  have hD : Dom (join (env r t p, s)) := (dom_iff _).mpr fun i => by rw [raw_eq]; exact hs i
  have hle : ∀ s', Dom (join (env r t p, s')) →
      (macros (join (env r t p, s))).g ≤ (macros (join (env r t p, s'))).g := by
    intro s' hs'
    rw [g_eq r t p s hD, g_eq r t p s' hs']
    exact hmin s' fun i => by rw [← raw_eq r t p]; exact ((dom_iff _).mp hs' i).le
  refine ⟨s, hD, fun k => ?_, hle⟩
  refine stationary_of_min ok hD ?_ k
  have hopen : ∀ᶠ s' in 𝓝 s, Dom (join (env r t p, s')) := by
    have hc : Continuous fun s' : Fin 2 → ℝ => join (env r t p, s') :=
      join_continuous.comp (Continuous.prodMk continuous_const continuous_id)
    exact hc.continuousAt.eventually (dom_open.mem_nhds hD)
  filter_upwards [hopen] with s' h
  exact hle s' h

lemma four_le {x : ℝ} (h0 : 0 < x) (h1 : x < 1) : 4 ≤ x⁻¹ + (1 - x)⁻¹ := by
  have h2 : 0 < 1 - x := by linarith
  rw [inv_add_inv h0.ne' h2.ne', le_div_iff₀ (mul_pos h0 h2)]
  nlinarith [sq_nonneg (2 * x - 1)]

/-- Above 309 K the energy is strictly convex in the ordering state. -/
lemma posHess (r : Fin 1 → ℝ) {t : ℝ} (ht : 309 ≤ t) (p : ℝ) (s : Fin 2 → ℝ) (h : Dom (join (env r t p, s))) :
    PosHess (jets macros) (join (env r t p, s)) := by
  intro v hv
  set y := join (env r t p, s) with hy
  have hyT : y (.inl iT) = t := rfl
  obtain ⟨e0, e1, e2⟩ := raw_sum y
  have hx := (dom_iff y).mp h
  have q0 := four_le (hx 0) (by have := hx 3; linarith)
  have q1 := four_le (hx 1) (by have := hx 4; linarith)
  have q2 := four_le (hx 2) (by have := hx 5; linarith)
  rw [show 1 - raw y 0 = raw y 3 by linarith] at q0
  rw [show 1 - raw y 1 = raw y 4 by linarith] at q1
  rw [show 1 - raw y 2 = raw y 5 by linarith] at q2
  set z0 := (raw y 0)⁻¹ + (raw y 3)⁻¹
  set z1 := (raw y 1)⁻¹ + (raw y 4)⁻¹
  set z2 := (raw y 2)⁻¹ + (raw y 5)⁻¹
  have key : ∑ k, ∑ l, (jets macros).g2 y (.inr k) (.inr l) * v k * v l
      = R * t * (2 * (3 / 7 * v 0 + 2 / 7 * v 1) ^ 2 * z0 + 3 * (-(4 / 7) * v 0 + 2 / 7 * v 1) ^ 2 * z1
          + 2 * (3 / 7 * v 0 - 5 / 7 * v 1) ^ 2 * z2)
        + (2 * HS13S13 * v 0 ^ 2 + 2 * HS13S2 * v 0 * v 1 + 2 * HS2S2 * v 1 ^ 2) := by
    have e : ∀ k l, (jets macros).g2 y (.inr k) (.inr l) = (tables (raw y) y).d2gds2 k l := by
      intro k l
      change (macros y).d2gds2 k l = _
      unfold macros; rw [site_eq y h]
    simp only [e, Fin.sum_univ_two]
    simp only [tables, Matrix.cons_val_zero, Matrix.cons_val_one, D2GDS0S0, D2GDS0S1, D2GDS1S1, hyT, GS13S13, GS13S2,
      GS2S2, WG123, WG13, WG2, WG4, GX123_4, GX134_2, GX13_24, WV123, WV13, WV2, WV4, VX123_4, VX134_2, VX13_24,
      HS13S13, HS13S2, HS2S2]
    simp only [z0, z1, z2, div_eq_mul_inv]
    ring
  rw [key]
  have hR : R = 83143 / 10000 := by unfold R; norm_num
  have hRt : 25691 / 10 ≤ R * t := by rw [hR]; linarith
  have hpos : 0 < R * t := by linarith
  have p0 : 2 * (3 / 7 * v 0 + 2 / 7 * v 1) ^ 2 * 4 ≤ 2 * (3 / 7 * v 0 + 2 / 7 * v 1) ^ 2 * z0 :=
    mul_le_mul_of_nonneg_left q0 (by positivity)
  have p1 : 3 * (-(4 / 7) * v 0 + 2 / 7 * v 1) ^ 2 * 4 ≤ 3 * (-(4 / 7) * v 0 + 2 / 7 * v 1) ^ 2 * z1 :=
    mul_le_mul_of_nonneg_left q1 (by positivity)
  have p2 : 2 * (3 / 7 * v 0 - 5 / 7 * v 1) ^ 2 * 4 ≤ 2 * (3 / 7 * v 0 - 5 / 7 * v 1) ^ 2 * z2 :=
    mul_le_mul_of_nonneg_left q2 (by positivity)
  set W := 2 * (3 / 7 * v 0 + 2 / 7 * v 1) ^ 2 * 4 + 3 * (-(4 / 7) * v 0 + 2 / 7 * v 1) ^ 2 * 4
    + 2 * (3 / 7 * v 0 - 5 / 7 * v 1) ^ 2 * 4 with hW
  have hW0 : 0 ≤ W := by positivity
  have s1 : 25691 / 10 * W ≤ R * t * W := mul_le_mul_of_nonneg_right hRt hW0
  have s2 : R * t * W ≤ R * t * (2 * (3 / 7 * v 0 + 2 / 7 * v 1) ^ 2 * z0
      + 3 * (-(4 / 7) * v 0 + 2 / 7 * v 1) ^ 2 * z1 + 2 * (3 / 7 * v 0 - 5 / 7 * v 1) ^ 2 * z2) :=
    mul_le_mul_of_nonneg_left (by linarith) hpos.le
  have hq : 0 < 25691 / 10 * W + (2 * HS13S13 * v 0 ^ 2 + 2 * HS13S2 * v 0 * v 1 + 2 * HS2S2 * v 1 ^ 2) := by
    have hne : v 0 ≠ 0 ∨ v 1 ≠ 0 := by
      by_contra hc
      push Not at hc
      exact hv (funext fun k => by fin_cases k; exacts [hc.1, hc.2])
    simp only [hW, HS13S13, HS13S2, HS2S2, WH123, WH13, WH2, WH4, HX123_4, HX134_2, HX13_24]
    have e : ∀ x z : ℝ, 119223 / 2450 * x ^ 2 - 560976 / 1225 * x * z + 10522014 / 1225 * z ^ 2
        = 119223 / 2450 * (x - 560976 / 119223 * z) ^ 2
          + (10522014 / 1225 - 560976 / 1225 * (280488 / 119223)) * z ^ 2 := fun x z => by ring
    have hF : 0 < 119223 / 2450 * v 0 ^ 2 - 560976 / 1225 * v 0 * v 1 + 10522014 / 1225 * v 1 ^ 2 := by
      rw [e]
      by_cases h1 : v 1 = 0
      · have h0 : v 0 ≠ 0 := hne.resolve_right (not_not.mpr h1)
        rw [h1]; simp; positivity
      · have : (0 : ℝ) < 10522014 / 1225 - 560976 / 1225 * (280488 / 119223) := by norm_num
        have := mul_pos this (by positivity : 0 < v 1 ^ 2)
        have : 0 ≤ 119223 / 2450 * (v 0 - 560976 / 119223 * v 1) ^ 2 := by positivity
        linarith
    refine lt_of_lt_of_eq hF ?_
    ring
  linarith

lemma dom_convex (r : Fin 1 → ℝ) (t p : ℝ) : Convex ℝ {s | Dom (join (env r t p, s))} := by
  intro s hs s' hs' a b ha hb hab
  refine (dom_iff _).mpr fun i => ?_
  have h := (dom_iff _).mp hs i
  have h' := (dom_iff _).mp hs' i
  rw [raw_eq] at h h' ⊢
  have e : a • s + b • s' = s + b • (s' - s) := by
    funext k; simp only [Pi.add_apply, Pi.smul_apply, Pi.sub_apply, smul_eq_mul]
    have : a = 1 - b := by linarith
    rw [this]; ring
  rw [e, frac_seg, show 1 - b = a by linarith]
  rcases ha.lt_or_eq with ha' | ha'
  · have := mul_pos ha' h
    have := mul_nonneg hb h'.le
    linarith
  · rw [← ha', zero_mul, zero_add]
    have : b = 1 := by linarith
    rw [this, one_mul]; exact h'

/-- **C61.** Above 309 K cummingtonite has exactly one equilibrium ordering state with positive site fractions, so
whatever solution `order()` finds is the equilibrium state. -/
theorem C61_cummingtonite_unique (r : Fin 1 → ℝ) (hr : -1 < r 0 ∧ r 0 < 1) {t : ℝ} (ht : 309 ≤ t) (p : ℝ) :
    ∃! s : Fin 2 → ℝ, Dom (join (env r t p, s)) ∧ ∀ k, (macros (join (env r t p, s))).dgds k = 0 := by
  obtain ⟨s, hD, hs, -⟩ := C61_cummingtonite_exists r hr (by linarith : 0 < t) p
  exact ⟨s, ⟨hD, hs⟩, fun s' h => stationary_unique ok (dom_convex r t p) (fun s h => posHess r ht p s h) h.1 hD h.2 hs⟩

/-- Conditions: temperatures above 309 K and compositions strictly between the end members. -/
def Cond (t _p : ℝ) (r : Fin 1 → ℝ) : Prop := 309 < t ∧ -1 < r 0 ∧ r 0 < 1

/-- `X` gives, at these conditions, an ordering state in which all site fractions are positive and the
equilibrium equations hold: what the Newton iteration of `order()` looks for (cummingtonite.c 718-792). -/
def Equilibrium (X : (Ext 1 → ℝ) → Fin 2 → ℝ) : Prop :=
  ∀ t p r, Cond t p r → Dom (pt X (env r t p)) ∧ ∀ k, (macros (pt X (env r t p))).dgds k = 0

lemma env_eta {nr : ℕ} (θ : Ext nr → ℝ) : env (fun i => θ (.inl i)) (θ iT) (θ iP) = θ := by
  funext b
  rcases b with i | k
  · rfl
  · fin_cases k <;> rfl

/-- Such a state is unique, hence smooth in the conditions. -/
theorem solved {X : (Ext 1 → ℝ) → Fin 2 → ℝ} (hX : Equilibrium X) :
    Solved (jets macros) Dom X {θ | 309 < θ iT ∧ -1 < θ (.inl 0) ∧ θ (.inl 0) < 1} := by
  have hc : ∀ θ : Ext 1 → ℝ, 309 < θ iT ∧ -1 < θ (.inl 0) ∧ θ (.inl 0) < 1 →
      Dom (pt X θ) ∧ ∀ k, (macros (pt X θ)).dgds k = 0 := by
    intro θ hθ
    have := hX (θ iT) (θ iP) (fun i => θ (.inl i)) hθ
    rwa [env_eta] at this
  refine solved_of_unique ok dom_open ?_ (fun θ h => (hc θ h).1) (fun θ h => (hc θ h).2) ?_ ?_
  · exact (isOpen_lt continuous_const (continuous_apply _)).inter
      ((isOpen_lt continuous_const (continuous_apply _)).inter (isOpen_lt (continuous_apply _) continuous_const))
  · intro θ hθ
    refine PosHess.regular ?_
    have := posHess (fun i => θ (.inl i)) (le_of_lt hθ.1) (θ iP) (X θ)
      (by rw [env_eta]; exact (hc θ hθ).1)
    rwa [env_eta] at this
  · intro θ hθ s hD hs
    have h1 := C61_cummingtonite_unique (fun i => θ (.inl i)) hθ.2 (le_of_lt hθ.1) (θ iP)
    rw [env_eta] at h1
    exact h1.unique ⟨hD, hs⟩ (hc θ hθ)

/-- There is an equilibrium state function. -/
theorem equilibrium_exists : ∃ X, Equilibrium X := by
  classical
  have h : ∀ θ : Ext 1 → ℝ, ∃ s : Fin 2 → ℝ, Cond (θ iT) (θ iP) (fun i => θ (.inl i)) →
      Dom (join (θ, s)) ∧ ∀ k, (macros (join (θ, s))).dgds k = 0 := by
    intro θ
    by_cases hc : Cond (θ iT) (θ iP) (fun i => θ (.inl i))
    · obtain ⟨s, hD, hs, -⟩ := C61_cummingtonite_exists (fun i => θ (.inl i)) hc.2
        (lt_trans (by norm_num) hc.1) (θ iP)
      rw [env_eta] at hD hs
      exact ⟨s, fun _ => ⟨hD, hs⟩⟩
    · exact ⟨0, fun h => absurd h hc⟩
  choose X hX using h
  exact ⟨X, fun t p r hc => hX (env r t p) hc⟩

/-- `gmixCum, hmixCum, smixCum, cpmixCum, vmixCum`, cummingtonite.c 1450-2043. -/
def mix (X : (Ext 1 → ℝ) → Fin 2 → ℝ) : Mix 1 := ordMix (jets macros) (fun y => (macros y).s) X

/-- **C24.** Cummingtonite: every mixing property the file reports is the derivative it claims to be of the Gibbs
energy at equilibrium order, at every temperature above 309 K, pressure and composition between the end members. -/
theorem C24_cummingtonite {X : (Ext 1 → ℝ) → Fin 2 → ℝ} (hX : Equilibrium X) : ConsistentOn (mix X) Cond := by
  have h := C24_ordering (E := fun y => (macros y).s) ok (fun y _ => entropy_eq y) (solved hX)
  exact h

/-- `FR0(i)`, cummingtonite.c 433. -/
def fr (r : Fin 1 → ℝ) (i : Fin 2) (_j : Fin 1) : ℝ := if i = 0 then -(1 + r 0) else 1 - r 0

/-- `DFR0DR0(i)`, cummingtonite.c 438. -/
def dfr (_i : Fin 2) (_k : Fin 1) : ℝ := -1

/-- `GS0(i), GS1(i)`, cummingtonite.c 435-436. -/
def gs (s : Fin 2 → ℝ) (_i : Fin 2) (j : Fin 2) : ℝ := -s j

/-- `actCum`, first mask (`a[i]`), cummingtonite.c 1370-1377. -/
def act (X : (Ext 1 → ℝ) → Fin 2 → ℝ) (t p : ℝ) (r : Fin 1 → ℝ) (i : Fin 2) : ℝ := actO (mix X) fr t p r i

/-- `actCum`, second mask (`mu[i]`), cummingtonite.c 1379-1385. -/
def mu (X : (Ext 1 → ℝ) → Fin 2 → ℝ) (t p : ℝ) (r : Fin 1 → ℝ) (i : Fin 2) : ℝ := muO (mix X) fr t p r i

/-- **C24.** Cummingtonite: activities are `exp(μ/RT)`. -/
theorem C24_cummingtonite_activity (X : (Ext 1 → ℝ) → Fin 2 → ℝ) (t p : ℝ) (ht : t ≠ 0) (r : Fin 1 → ℝ) (i : Fin 2) :
    R * t * Real.log (act X t p r i) = mu X t p r i := C24_ordering_activity _ _ t p ht r i

/-- **C24.** Cummingtonite: the reported composition derivatives of the activities are their derivatives. -/
theorem C24_cummingtonite_activity_derivative {X : (Ext 1 → ℝ) → Fin 2 → ℝ} (hX : Equilibrium X) {t p : ℝ}
    {r : Fin 1 → ℝ} (h : Cond t p r) (i : Fin 2) (k : Fin 1) :
    Magma.Thermo.Extensive.Partial (fun r => act X t p r i) r k
      (dactO (jets macros) X fr dfr gs t p r i k) := by
  refine C24_ordering_activity_derivative (e := fun i _ => if i = 0 then -1 else 1) ok (fun y _ => entropy_eq y)
    (solved hX) ?_ (fun _ _ => rfl) h i k
  intro r i j
  fin_cases j
  unfold fr
  by_cases h : i = 0 <;> (simp [h]; try ring)

open Magma.Thermo.Compo in
lemma fr_eq (m : Fin 2 → ℝ) (h0 : ∑ i, m i ≠ 0) (i : Fin 2) (j : Fin 1) :
    (∑ i, m i) * Magma.Thermo.Compo.Cummingtonite.conv.dm m j i = fr (Magma.Thermo.Compo.Cummingtonite.conv.toR m) i j := by
  have ht : total m = ∑ i, m i := rfl
  have e1 : Magma.Thermo.Compo.Cummingtonite.conv.dm m j i = Magma.Thermo.Compo.Cummingtonite.dm m i j := rfl
  have e2 : Magma.Thermo.Compo.Cummingtonite.conv.toR m = Magma.Thermo.Compo.Cummingtonite.toR m := rfl
  rw [e1, e2]
  unfold Magma.Thermo.Compo.Cummingtonite.dm Magma.Thermo.Compo.Cummingtonite.toR fr
  rw [ht, if_neg h0, if_pos h0]
  have h1 : m 0 + m 1 ≠ 0 := by simpa [Fin.sum_univ_two] using h0
  fin_cases j
  fin_cases i
  · simp; field_simp
  · simp; field_simp; ring

/-- **C24.** Cummingtonite: the reported chemical potentials are the derivatives of the total Gibbs energy of mixing
in the moles of the end members. -/
theorem C24_cummingtonite_potential {X : (Ext 1 → ℝ) → Fin 2 → ℝ} (hX : Equilibrium X) (t p : ℝ) (m : Fin 2 → ℝ)
    (h0 : ∑ i, m i ≠ 0) (h : Cond t p (Magma.Thermo.Compo.Cummingtonite.conv.toR m)) (i : Fin 2) :
    Magma.Thermo.Extensive.Partial
      (fun m => (∑ i, m i) * (mix X).g t p (Magma.Thermo.Compo.Cummingtonite.conv.toR m)) m i
      (mu X t p (Magma.Thermo.Compo.Cummingtonite.conv.toR m) i) :=
  C24_ordering_potential (C24_cummingtonite hX) _ Magma.Thermo.Compo.C25_cummingtonite t p m h0 (fr_eq m h0) h i

/-- The hypotheses are met: one mole of each end member at 1000 K. -/
example : ∃ X, Equilibrium X ∧ ∑ i, (![1, 1] : Fin 2 → ℝ) i ≠ 0 ∧
    Cond 1000 1 (Magma.Thermo.Compo.Cummingtonite.conv.toR ![1, 1]) := by
  obtain ⟨X, hX⟩ := equilibrium_exists
  have ht : Magma.Thermo.Compo.total (![1, 1] : Fin 2 → ℝ) = 2 := by
    unfold Magma.Thermo.Compo.total; simp [Fin.sum_univ_two]; norm_num
  refine ⟨X, hX, by norm_num [Fin.sum_univ_two], by norm_num, ?_, ?_⟩ <;>
    · simp [Magma.Thermo.Compo.Cummingtonite.conv, Magma.Thermo.Compo.Cummingtonite.toR, ht]

/-! ### The Newton iteration stays feasible -/

/-- One test of the step length, cummingtonite.c 773-776 (also 778-781, 783-786). -/
def cap (x d lam : ℝ) : ℝ :=
  if x + lam * d < 0 then -x / d else if 1 < x + lam * d then (1 - x) / d else lam

/-- Change of the three iron fractions for a change of the ordering state, cummingtonite.c 773-785. -/
def dir (d : Fin 2 → ℝ) : Fin 3 → ℝ :=
  ![2 * d 1 / 7 + 3 * d 0 / 7, 2 * d 1 / 7 - 4 * d 0 / 7, -5 * d 1 / 7 + 3 * d 0 / 7]

/-- `lambda`, cummingtonite.c 771-786; `x` are the iron fractions after the bounds have been applied. -/
def lambda (x : Fin 3 → ℝ) (d : Fin 2 → ℝ) : ℝ :=
  cap (x 2) (dir d 2) (cap (x 1) (dir d 1) (cap (x 0) (dir d 0) 1))

/-- The iron fractions used in an iteration, cummingtonite.c 726-745. -/
def used (y : Var 1 2 → ℝ) : Fin 3 → ℝ := ![site y 0, site y 1, site y 2]

/-- New ordering state, cummingtonite.c 767, 788-790, for the search direction `d` that the LU solver gave. -/
def next (r : Fin 1 → ℝ) (t p : ℝ) (s d : Fin 2 → ℝ) : Fin 2 → ℝ :=
  if lambda (used (join (env r t p, s))) d < 1
  then fun i => s i + lambda (used (join (env r t p, s))) d * d i
  else fun i => s i + d i

/-- The ordering states of the iteration, from `s = 0` (cummingtonite.c 715-792), for any search directions. -/
def iterate (r : Fin 1 → ℝ) (t p : ℝ) (d : ℕ → Fin 2 → ℝ) : ℕ → Fin 2 → ℝ
  | 0 => 0
  | n + 1 => next r t p (iterate r t p d n) (d n)

lemma cap_spec {x d lam : ℝ} (hx : 0 ≤ x ∧ x ≤ 1) (hl : 0 ≤ lam) :
    0 ≤ cap x d lam ∧ cap x d lam ≤ lam ∧ 0 ≤ x + cap x d lam * d ∧ x + cap x d lam * d ≤ 1 := by
  unfold cap
  split_ifs with h1 h2
  · have hd : d < 0 := by
      by_contra h
      have := mul_nonneg hl (not_lt.mp h)
      linarith [hx.1]
    have e : -x / d * d = -x := div_mul_cancel₀ _ hd.ne
    refine ⟨div_nonneg_of_nonpos (by linarith [hx.1]) hd.le, ?_, by linarith, by linarith⟩
    rw [div_le_iff_of_neg hd]; linarith
  · have hd : 0 < d := by
      by_contra h
      have := mul_nonpos_of_nonneg_of_nonpos hl (not_lt.mp h)
      linarith [hx.2]
    have e : (1 - x) / d * d = 1 - x := div_mul_cancel₀ _ hd.ne'
    refine ⟨div_nonneg (by linarith [hx.2]) hd.le, ?_, by linarith [hx.1], by linarith⟩
    rw [div_le_iff₀ hd]; linarith
  · exact ⟨hl, le_refl _, not_lt.mp h1, not_lt.mp h2⟩

/-- A shorter step than one that stays in the interval also stays in it. -/
lemma shorter {x d l l' : ℝ} (hx : 0 ≤ x ∧ x ≤ 1) (h : 0 ≤ x + l * d ∧ x + l * d ≤ 1) (h0 : 0 ≤ l') (h1 : l' ≤ l) :
    0 ≤ x + l' * d ∧ x + l' * d ≤ 1 := by
  rcases le_total 0 d with hd | hd
  · have a := mul_le_mul_of_nonneg_right h1 hd
    have b := mul_nonneg h0 hd
    constructor <;> linarith [hx.1, h.2]
  · have a := mul_le_mul_of_nonpos_right h1 hd
    have b := mul_nonpos_of_nonneg_of_nonpos h0 hd
    constructor <;> linarith [hx.2, h.1]

lemma lambda_spec {x : Fin 3 → ℝ} (hx : ∀ i, 0 ≤ x i ∧ x i ≤ 1) (d : Fin 2 → ℝ) :
    0 ≤ lambda x d ∧ lambda x d ≤ 1 ∧ ∀ i, 0 ≤ x i + lambda x d * dir d i ∧ x i + lambda x d * dir d i ≤ 1 := by
  obtain ⟨a0, a1, a2⟩ := cap_spec (d := dir d 0) (hx 0) zero_le_one
  obtain ⟨b0, b1, b2⟩ := cap_spec (d := dir d 1) (hx 1) a0
  obtain ⟨c0, c1, c2⟩ := cap_spec (d := dir d 2) (hx 2) b0
  refine ⟨c0, (c1.trans b1).trans a1, fun i => ?_⟩
  fin_cases i
  · exact shorter (hx 0) a2 c0 (c1.trans b1)
  · exact shorter (hx 1) b2 c0 c1
  · exact c2

lemma dblEps_le : dblEps ≤ 1 / 2 := by
  unfold dblEps
  rw [zpow_neg, one_div]
  refine inv_anti₀ (by norm_num) ?_
  norm_num

lemma keep_mem (x : ℝ) : 0 ≤ keep 0 1 (1 - dblEps) x ∧ keep 0 1 (1 - dblEps) x ≤ 1 := by
  have h1 := dblEps_pos
  have h2 := dblEps_le
  unfold keep
  simp only
  split_ifs <;> constructor <;> linarith

lemma keep_near {x e : ℝ} (he : 0 ≤ e) (h : -e ≤ x ∧ x ≤ 1 + e) :
    -(e + dblEps) ≤ x - keep 0 1 (1 - dblEps) x ∧ x - keep 0 1 (1 - dblEps) x ≤ e + dblEps := by
  have h1 := dblEps_pos
  have h2 := dblEps_le
  unfold keep
  simp only
  split_ifs <;> constructor <;> linarith [h.1, h.2]

/-- The iron fraction of a site as a function of the ordering state. -/
lemma raw_next (r : Fin 1 → ℝ) (t p : ℝ) (s d : Fin 2 → ℝ) (l : ℝ) :
    raw (join (env r t p, fun i => s i + l * d i)) 0 = raw (join (env r t p, s)) 0 + l * dir d 0 ∧
    raw (join (env r t p, fun i => s i + l * d i)) 1 = raw (join (env r t p, s)) 1 + l * dir d 1 ∧
    raw (join (env r t p, fun i => s i + l * d i)) 2 = raw (join (env r t p, s)) 2 + l * dir d 2 := by
  refine ⟨?_, ?_, ?_⟩ <;> simp only [raw_eq] <;> simp [frac, siteA, siteB, dir] <;> ring

/-- **C61.** Whatever search directions the linear solver gives, after `n` iterations the site fractions of
cummingtonite lie in `[0, 1]` up to `n` units of rounding (`DBL_EPSILON`). -/
theorem C61_cummingtonite_feasible (r : Fin 1 → ℝ) (hr : -1 ≤ r 0 ∧ r 0 ≤ 1) (t p : ℝ) (d : ℕ → Fin 2 → ℝ) (n : ℕ)
    (i : Fin 6) : -(n * dblEps) ≤ raw (join (env r t p, iterate r t p d n)) i ∧
      raw (join (env r t p, iterate r t p d n)) i ≤ 1 + n * dblEps := by
  have main : ∀ n : ℕ, ∀ i : Fin 3,
      -(n * dblEps) ≤ raw (join (env r t p, iterate r t p d n)) (![0, 1, 2] i) ∧
      raw (join (env r t p, iterate r t p d n)) (![0, 1, 2] i) ≤ 1 + n * dblEps := by
    intro n
    induction n with
    | zero =>
      intro i
      have e : iterate r t p d 0 = 0 := rfl
      rw [e, raw_eq]
      fin_cases i <;> simp [frac, siteA] <;> constructor <;> linarith [hr.1, hr.2]
    | succ n ih =>
      set s := iterate r t p d n with hs
      set y := join (env r t p, s) with hy
      have hx : ∀ i, 0 ≤ used y i ∧ used y i ≤ 1 := by
        intro i; fin_cases i <;> exact keep_mem _
      obtain ⟨l0, l1, hl⟩ := lambda_spec hx (d n)
      have e : iterate r t p d (n + 1) = fun i => s i + lambda (used y) (d n) * d n i := by
        change next r t p s (d n) = _
        unfold next
        split_ifs with h
        · rfl
        · rw [le_antisymm l1 (not_lt.mp h)]; simp
      obtain ⟨q0, q1, q2⟩ := raw_next r t p s (d n) (lambda (used y) (d n))
      rw [← hy] at q0 q1 q2
      have hn : 0 ≤ n * dblEps := mul_nonneg (Nat.cast_nonneg n) dblEps_pos.le
      have fin : ∀ i j, used y i = site y j → site y j = keep 0 1 (1 - dblEps) (raw y j) →
          -(n * dblEps) ≤ raw y j ∧ raw y j ≤ 1 + n * dblEps →
          -((n + 1 : ℕ) * dblEps) ≤ raw y j + lambda (used y) (d n) * dir (d n) i ∧
          raw y j + lambda (used y) (d n) * dir (d n) i ≤ 1 + (n + 1 : ℕ) * dblEps := by
        intro i j h1 h2 h3
        have k1 := keep_near hn h3
        have k2 := hl i
        rw [h1, h2] at k2
        push_cast
        constructor <;> linarith [k1.1, k1.2, k2.1, k2.2]
      rw [e]
      intro i
      fin_cases i
      · have h := fin 0 0 rfl rfl (ih 0)
        rw [← q0] at h; exact h
      · have h := fin 1 1 rfl rfl (ih 1)
        rw [← q1] at h; exact h
      · have h := fin 2 2 rfl rfl (ih 2)
        rw [← q2] at h; exact h
  obtain ⟨e0, e1, e2⟩ := raw_sum (join (env r t p, iterate r t p d n))
  have m0 := main n 0; have m1 := main n 1; have m2 := main n 2
  simp only [Matrix.cons_val] at m0 m1 m2
  fin_cases i
  · exact m0
  · exact m1
  · exact m2
  · constructor <;> simp only [Fin.reduceFinMk] <;> linarith [m0.1, m0.2]
  · constructor <;> simp only [Fin.reduceFinMk] <;> linarith [m1.1, m1.2]
  · constructor <;> simp only [Fin.reduceFinMk] <;> linarith [m2.1, m2.2]

/-- **C61.** A full step that changes nothing means the equilibrium equations hold: the direction solves
`-H d = ∂g/∂s` (cummingtonite.c 763-766), and it is zero only at a stationary point. -/
theorem C61_newton_fixed {ι κ : Type} [Fintype ι] [Fintype κ] [DecidableEq ι] [DecidableEq κ] (J : Jets ι κ)
    (x : ι ⊕ κ → ℝ) (h : (negHess J x).det ≠ 0) (hz : solve J x (fun k => J.g1 x (.inr k)) = 0) (k : κ) :
    J.g1 x (.inr k) = 0 := by
  have h1 : (negHess J x).mulVec (solve J x fun k => J.g1 x (.inr k)) = fun k => J.g1 x (.inr k) := by
    unfold solve
    rw [Matrix.mulVec_mulVec, Matrix.mul_nonsing_inv _ (isUnit_iff_ne_zero.mpr h), Matrix.one_mulVec]
  rw [hz, Matrix.mulVec_zero] at h1
  exact (congrFun h1 k).symm

end

end Verif.Thermo.Ordering.Cummingtonite
