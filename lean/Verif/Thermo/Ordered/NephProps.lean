import Verif.Thermo.Ordered.Nepheline
import Verif.Thermo.OrderExist
import Verif.Thermo.ConvTables

/-!
Nepheline (/repo/sources/nepheline.c): where it is hot enough for the pressure, the ordering state that `order()` looks
for is unique, and what the file reports are the derivatives of the Gibbs energy at equilibrium order.
-/

namespace Verif.Thermo.Ordering.Nepheline

open Finset Filter Topology
open Magma.Thermo.Mixing (R R_pos Mix)

noncomputable section

/-- The temperature above which the energy is convex in the ordering state, at a given pressure (955.7 K at 1 bar). -/
def Hot (t p : ℝ) : Prop := 19305 + 44 / 100 * p < 202 / 10 * t ∧ 0 < t ∧ 0 < p

lemma raw_sum (y : Var 3 1 → ℝ) : raw y 0 + raw y 1 + raw y 2 = 1 ∧ raw y 3 + raw y 4 + raw y 5 = 1 := by
  constructor <;> simp [raw] <;> ring

/-- Two positive fractions of sum at most one. -/
lemma four_le {x z : ℝ} (h0 : 0 < x) (h1 : 0 < z) (h : x + z ≤ 1) : 4 ≤ x⁻¹ + z⁻¹ := by
  rw [inv_add_inv h0.ne' h1.ne', le_div_iff₀ (mul_pos h0 h1)]
  nlinarith [sq_nonneg (x - z), mul_pos h0 h1]

lemma dom_pos {y : Var 3 1 → ℝ} (h : Dom y) (i : Fin 6) : 0 < raw y i := by
  obtain ⟨a0, a1, a2, a3, a4, a5, -⟩ := h
  have := dblEps_pos
  fin_cases i
  exacts [this.trans a0.1, this.trans a1.1, this.trans a2.1, this.trans a3.1, this.trans a4.1, this.trans a5.1]

lemma posHess {y : Var 3 1 → ℝ} (ht : Hot (y (.inl iT)) (y (.inl iP))) (h : Dom y) : PosHess (jets macros) y := by
  intro v hv
  obtain ⟨e0, e1⟩ := raw_sum y
  have hx := dom_pos h
  have q0 := four_le (hx 0) (hx 2) (by linarith [hx 1])
  have q1 := four_le (hx 3) (hx 5) (by linarith [hx 4])
  set z0 := (raw y 0)⁻¹ + (raw y 2)⁻¹ with hz0
  set z1 := (raw y 3)⁻¹ + (raw y 5)⁻¹ with hz1
  have e : (jets macros).g2 y (.inr 0) (.inr 0) = (tables (raw y) y).d2gds2 0 0 := by
    change (macros y).d2gds2 0 0 = _
    unfold macros; rw [site_eq y h]
  simp only [Fin.sum_univ_one, e]
  have hv0 : v 0 ≠ 0 := fun h0 => hv (funext fun k => by fin_cases k; exact h0)
  have key : 0 < (tables (raw y) y).d2gds2 0 0 := by
    obtain ⟨h1, h2, h3⟩ := ht
    have e2 : (tables (raw y) y).d2gds2 0 0 = R * (y (.inl iT)) * (9 / 16 * z0 + 3 / 16 * z1)
        + (3 * GX (y (.inl iT)) (y (.inl iP)) - 9 * WNAKLS (y (.inl iP)) - WNAKSS (y (.inl iP))) / 8 := by
      simp only [tables, Matrix.cons_val_zero, D2GDS0S0, DWKNALS, DWKNASS, DWVNASS, DWVNALS, DWVKLS, AWLS, AWSS,
        hz0, hz1, div_eq_mul_inv]
      ring
    rw [e2]
    have hR : R = 83143 / 10000 := by unfold R; norm_num
    have b : R * (y (.inl iT)) * 3 ≤ R * (y (.inl iT)) * (9 / 16 * z0 + 3 / 16 * z1) :=
      mul_le_mul_of_nonneg_left (by linarith) (mul_pos R_pos h2).le
    simp only [GX, WNAKLS, WNAKSS, HX, SX, VX, WHNAKLS, WVNAKLS, WHNAKSS, WVNAKSS]
    rw [hR] at b ⊢
    nlinarith
  rw [mul_assoc]
  exact mul_pos key (mul_self_pos.mpr hv0)

/-- The ordering states without active bounds form an interval. -/
lemma dom_convex (θ : Ext 3 → ℝ) : Convex ℝ {s : Fin 1 → ℝ | Dom (join (θ, s))} := by
  intro s hs s' hs' a b ha hb hab
  have e : ∀ i, raw (join (θ, a • s + b • s')) i = a * raw (join (θ, s)) i + b * raw (join (θ, s')) i := by
    intro i
    have hb' : b = 1 - a := by linarith
    fin_cases i <;> simp [raw, join, hb'] <;> ring
  have hlow : ∀ {l x x' : ℝ}, l < x → l < x' → l < a * x + b * x' := by
    intro l x x' h h'
    have hb' : b = 1 - a := by linarith
    rcases ha.lt_or_eq with ha' | ha'
    · have := mul_pos ha' (sub_pos.mpr h)
      have := mul_nonneg hb (sub_pos.mpr h').le
      rw [hb'] at *
      linarith
    · have : b = 1 := by linarith
      rw [← ha', this]
      linarith
  have hupp : ∀ {l x x' : ℝ}, x < l → x' < l → a * x + b * x' < l := by
    intro l x x' h h'
    have := hlow (neg_lt_neg h) (neg_lt_neg h')
    linarith
  obtain ⟨a0, a1, a2, a3, a4, a5, a6⟩ := hs
  obtain ⟨b0, b1, b2, b3, b4, b5, b6⟩ := hs'
  simp only [Set.mem_ofPred_eq, Dom, e]
  exact ⟨⟨hlow a0.1 b0.1, hupp a0.2 b0.2⟩, ⟨hlow a1.1 b1.1, hupp a1.2 b1.2⟩, ⟨hlow a2.1 b2.1, hupp a2.2 b2.2⟩,
    ⟨hlow a3.1 b3.1, hupp a3.2 b3.2⟩, ⟨hlow a4.1 b4.1, hupp a4.2 b4.2⟩, ⟨hlow a5.1 b5.1, hupp a5.2 b5.2⟩, a6⟩

/-- **C61.** Nepheline: above 955.7 K (at 1 bar; 22 K more per kilobar) no two ordering states with all bounds inactive
satisfy the equation `order()` solves, so a converged iteration has found the only one. -/
theorem C61_nepheline_unique {t p : ℝ} (r : Fin 3 → ℝ) (h : Hot t p) {s s' : Fin 1 → ℝ}
    (hs : Dom (join (env r t p, s)) ∧ ∀ k, (macros (join (env r t p, s))).dgds k = 0)
    (hs' : Dom (join (env r t p, s')) ∧ ∀ k, (macros (join (env r t p, s'))).dgds k = 0) : s = s' :=
  stationary_unique ok (dom_convex _) (fun s hd => posHess (y := join (env r t p, s)) h hd) hs.1 hs'.1 hs.2 hs'.2

/-- `X` gives, at the conditions `U`, an ordering state at which no bound on the site fractions is active and the
equilibrium equation holds: what the iteration of `order()` looks for (nepheline.c 892-990). -/
structure Equilibrium (X : (Ext 3 → ℝ) → Fin 1 → ℝ) (U : Set (Ext 3 → ℝ)) : Prop where
  isOpen : IsOpen U
  hot : ∀ θ ∈ U, Hot (θ iT) (θ iP)
  stat : ∀ θ ∈ U, Dom (pt X θ) ∧ ∀ k, (macros (pt X θ)).dgds k = 0

/-- Such a state is unique, hence smooth in the conditions. -/
theorem solved {X : (Ext 3 → ℝ) → Fin 1 → ℝ} {U : Set (Ext 3 → ℝ)} (h : Equilibrium X U) :
    Solved (jets macros) Dom X U :=
  solved_of_posHess ok dom_open h.isOpen h.stat (fun θ _ => dom_convex θ) fun θ hθ _ hd => posHess (h.hot θ hθ) hd

/-- `gmixNph, hmixNph, smixNph, cpmixNph, vmixNph`, nepheline.c 1740-2340. -/
def mix (X : (Ext 3 → ℝ) → Fin 1 → ℝ) : Mix 3 := ordMix (jets macros) (fun y => (macros y).s) X

/-- **C24.** Nepheline: every mixing property the file reports is the derivative it claims to be of the Gibbs energy at
equilibrium order. -/
theorem C24_nepheline {X : (Ext 3 → ℝ) → Fin 1 → ℝ} {U : Set (Ext 3 → ℝ)} (h : Equilibrium X U) :
    ConsistentOn (mix X) (On U) :=
  C24_ordering (E := fun y => (macros y).s) ok (fun y _ => entropy_eq y) (solved h)

/-- `FR2(i), FR3(i), FR4(i)`, nepheline.c 393-395. -/
def fr (r : Fin 3 → ℝ) (i : Fin 4) (j : Fin 3) : ℝ := if i = j.succ then 1 - r j else -r j

/-- `DFR2DR2(i), DFR3DR3(i), DFR4DR4(i)`, nepheline.c 400-402. -/
def dfr (_i : Fin 4) (_k : Fin 3) : ℝ := -1

/-- `GS1(i)`, nepheline.c 398. -/
def gs (s : Fin 1 → ℝ) (_i : Fin 4) (j : Fin 1) : ℝ := -s j

/-- `actNph`, first mask (`a[i]`) without the exclusion criteria, nepheline.c 1653-1658. -/
def act (X : (Ext 3 → ℝ) → Fin 1 → ℝ) (t p : ℝ) (r : Fin 3 → ℝ) (i : Fin 4) : ℝ := actO (mix X) fr t p r i

/-- `actNph`, second mask (`mu[i]`) without the exclusion criteria, nepheline.c 1660-1663. -/
def mu (X : (Ext 3 → ℝ) → Fin 1 → ℝ) (t p : ℝ) (r : Fin 3 → ℝ) (i : Fin 4) : ℝ := muO (mix X) fr t p r i

/-- **C24.** Nepheline: activities are `exp(μ/RT)`. -/
theorem C24_nepheline_activity (X : (Ext 3 → ℝ) → Fin 1 → ℝ) (t p : ℝ) (ht : t ≠ 0) (r : Fin 3 → ℝ) (i : Fin 4) :
    R * t * Real.log (act X t p r i) = mu X t p r i := C24_ordering_activity _ _ t p ht r i

/-- **C24.** Nepheline: the reported composition derivatives of the activities are their derivatives. -/
theorem C24_nepheline_activity_derivative {X : (Ext 3 → ℝ) → Fin 1 → ℝ} {U : Set (Ext 3 → ℝ)} (hX : Equilibrium X U)
    {t p : ℝ} {r : Fin 3 → ℝ} (h : On U t p r) (i : Fin 4) (k : Fin 3) :
    Magma.Thermo.Extensive.Partial (fun r => act X t p r i) r k
      (dactO (jets macros) X fr dfr gs t p r i k) := by
  refine C24_ordering_activity_derivative (e := fun i j => if i = j.succ then 1 else 0) ok (fun y _ => entropy_eq y)
    (solved hX) ?_ (fun _ _ => rfl) h i k
  intro r i j
  unfold fr
  by_cases h : i = j.succ <;> simp [h]

open Magma.Thermo.Compo in
lemma fr_eq (m : Fin 4 → ℝ) (h0 : ∑ i, m i ≠ 0) (i : Fin 4) (j : Fin 3) :
    (∑ i, m i) * Magma.Thermo.Compo.Nepheline.conv.dm m j i = fr (Magma.Thermo.Compo.Nepheline.conv.toR m) i j := by
  have ht : total m = ∑ i, m i := rfl
  have e1 : Magma.Thermo.Compo.Nepheline.conv.dm m j i = Magma.Thermo.Compo.Nepheline.dm m i j := rfl
  have e2 : Magma.Thermo.Compo.Nepheline.conv.toR m = Magma.Thermo.Compo.Nepheline.toR m := rfl
  rw [e1, e2]
  unfold Magma.Thermo.Compo.Nepheline.dm Magma.Thermo.Compo.Nepheline.toR fr
  rw [← ht] at h0 ⊢
  rw [if_neg h0, if_pos h0, if_pos h0, if_pos h0]
  generalize total m = N at h0
  fin_cases j <;> fin_cases i <;> simp <;> field_simp

/-- **C24.** Nepheline: the reported chemical potentials are the derivatives of the total Gibbs energy of mixing in the
moles of the end members. -/
theorem C24_nepheline_potential {X : (Ext 3 → ℝ) → Fin 1 → ℝ} {U : Set (Ext 3 → ℝ)} (hX : Equilibrium X U) (t p : ℝ)
    (m : Fin 4 → ℝ) (h0 : ∑ i, m i ≠ 0) (h : On U t p (Magma.Thermo.Compo.Nepheline.conv.toR m)) (i : Fin 4) :
    Magma.Thermo.Extensive.Partial
      (fun m => (∑ i, m i) * (mix X).g t p (Magma.Thermo.Compo.Nepheline.conv.toR m)) m i
      (mu X t p (Magma.Thermo.Compo.Nepheline.conv.toR m) i) :=
  C24_ordering_potential (C24_nepheline hX) _ Magma.Thermo.Compo.C25_nepheline t p m h0 (fr_eq m h0) h i

/-- A stationary ordering state: 1763 K, 1 bar, 60 % K, 10 % vacancies, 20 % Ca, with the large and the small site
equally rich in potassium. -/
lemma ordered_point : Dom (join (env ![3 / 5, 1 / 10, 1 / 5] (2150373919 / 1220025) 1, ![-(4 / 25)])) ∧
    ∀ k, (macros (join (env ![3 / 5, 1 / 10, 1 / 5] (2150373919 / 1220025) 1, ![-(4 / 25)]))).dgds k = 0 := by
  have he : dblEps < 1 / 100 := by
    unfold dblEps; rw [zpow_neg]; norm_num
  have hr : raw (join (env ![3 / 5, 1 / 10, 1 / 5] (2150373919 / 1220025) 1, ![-(4 / 25)]))
      = ![12 / 25, 3 / 10, 11 / 50, 16 / 25, 1 / 15, 22 / 75] := by
    funext i
    fin_cases i <;> simp [raw, join, env, Matrix.cons_val] <;> norm_num
  have hD : Dom (join (env ![3 / 5, 1 / 10, 1 / 5] (2150373919 / 1220025) 1, ![-(4 / 25)])) := by
    unfold Dom
    rw [hr]
    simp only [Matrix.cons_val]
    refine ⟨⟨?_, ?_⟩, ⟨?_, ?_⟩, ⟨?_, ?_⟩, ⟨?_, ?_⟩, ⟨?_, ?_⟩, ⟨?_, ?_⟩, ?_⟩ <;>
      first | linarith | (simp [join, env])
  refine ⟨hD, fun k => ?_⟩
  fin_cases k
  unfold macros
  rw [site_eq _ hD, hr]
  have hlog : Real.log (12 / 25) - Real.log (11 / 50) - Real.log (16 / 25) + Real.log (22 / 75) = 0 := by
    rw [← Real.log_div (by norm_num) (by norm_num), ← Real.log_div (by norm_num) (by norm_num),
      ← Real.log_mul (by norm_num) (by norm_num)]
    norm_num
  have hl : ∀ a b c d : ℝ, (3 / 4) * a - (3 / 4) * b - 3 * (1 / 4) * c + 3 * (1 / 4) * d
      = 3 / 4 * (a - b - c + d) := fun a b c d => by ring
  simp only [tables, Fin.zero_eta, Matrix.cons_val, DGDS0, hl, hlog, DWKNALS, DWKNASS, DWVNASS, DWVNALS, DWVKLS,
    AWLS, AWSS, AWVNA, AWVK, GX, GEX, G23, G24, WNAKLS, WNAKSS, HX, SX, VX, HEX, SEX, VEX, H23, S23, H24, S24,
    WHNAKLS, WVNAKLS, WHNAKSS, WVNAKSS, WVN, WVK, WCAK, WCANA]
  simp only [join, env, iT, iP, Sum.elim_inl, Sum.elim_inr, Matrix.cons_val]
  norm_num

/-- The hypotheses are met around that state. -/
example : ∃ X U, Equilibrium X U ∧ ∑ i, (![1, 6, 1, 2] : Fin 4 → ℝ) i ≠ 0 ∧
    On U (2150373919 / 1220025) 1 (Magma.Thermo.Compo.Nepheline.conv.toR ![1, 6, 1, 2]) := by
  obtain ⟨h1, h2⟩ := ordered_point
  have hh : Hot (2150373919 / 1220025) 1 := by unfold Hot; norm_num
  obtain ⟨X, U, hu, -, hs⟩ := solved_near (J := jets macros) ok dom_open h1 h2 
    (posHess (y := join (env ![3 / 5, 1 / 10, 1 / 5] (2150373919 / 1220025) 1, ![-(4 / 25)])) hh h1).regular
  refine ⟨X, U ∩ {θ | Hot (θ iT) (θ iP)}, ⟨?_, fun θ h => h.2, fun θ h => ⟨hs.dom θ h.1, hs.stat θ h.1⟩⟩, ?_, ?_⟩
  · refine hs.isOpen.inter ?_
    have c1 : Continuous fun θ : Ext 3 → ℝ => θ iT := continuous_apply _
    have c2 : Continuous fun θ : Ext 3 → ℝ => θ iP := continuous_apply _
    exact (isOpen_lt (continuous_const.add (continuous_const.mul c2)) (continuous_const.mul c1)).inter
      ((isOpen_lt continuous_const c1).inter (isOpen_lt continuous_const c2))
  · simp only [Fin.sum_univ_four, Matrix.cons_val]; norm_num
  · have ht : Magma.Thermo.Compo.total (![1, 6, 1, 2] : Fin 4 → ℝ) = 10 := by
      unfold Magma.Thermo.Compo.total; simp only [Fin.sum_univ_four, Matrix.cons_val]; norm_num
    have e : Magma.Thermo.Compo.Nepheline.conv.toR ![1, 6, 1, 2] = ![3 / 5, 1 / 10, 1 / 5] := by
      funext i
      fin_cases i <;> simp [Magma.Thermo.Compo.Nepheline.conv, Magma.Thermo.Compo.Nepheline.toR, ht, Matrix.cons_val] <;> norm_num
    unfold On
    rw [e]
    exact ⟨hu, hh⟩

end

end Verif.Thermo.Ordering.Nepheline
