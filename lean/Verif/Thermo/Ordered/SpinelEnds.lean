import Verif.Thermo.Ordered.PureHercynite
import Verif.Thermo.Ordered.PureMagnetite
import Verif.Thermo.Ordered.PureSpinel
import Verif.Thermo.OrderPack
import Verif.Thermo.OrderEnds

/-!
The pure end members of spinel.c that order by themselves: each has, at the temperatures stated, exactly one equilibrium
ordering state, which is what the iteration of `pureOrder` (spinel.c 880-1011) looks for.
-/

namespace Verif.Thermo.Ordering

open Finset Filter Topology
open Magma.Thermo.Mixing (R R_pos)
open Verif.Thermo.StdState (Std Consistent)

noncomputable section

lemma R_val : R = 83143 / 10000 := by unfold R; norm_num

/-- A composition-free condition: nothing but temperature and pressure. -/
lemma env0 (θ : Ext 0 → ℝ) : env (![] : Fin 0 → ℝ) (θ iT) (θ iP) = θ := by
  funext b
  rcases b with i | k
  · exact i.elim0
  · fin_cases k <;> rfl

/-- A `1 × 1` Hessian. -/
lemma posHess_one {J : Jets (Ext 0) (Fin 1)} {x : Ext 0 ⊕ Fin 1 → ℝ} (h : 0 < J.g2 x (.inr 0) (.inr 0)) : PosHess J x := by
  intro v hv
  have h0 : v 0 ≠ 0 := fun e => hv (funext fun k => by fin_cases k; exact e)
  simp only [Fin.sum_univ_one, Fin.isValue]
  have := mul_pos h (mul_self_pos.mpr h0)
  linarith [mul_assoc (J.g2 x (.inr 0) (.inr 0)) (v 0) (v 0)]

namespace PureHercynite

/-- Constant terms of the arguments of the logarithms, spinel.c 732-739. -/
def siteA : Fin 3 → ℝ := ![0, 1, 1]

/-- Coefficients of `s[1]` in them. -/
def siteB : Fin 3 → Fin 1 → ℝ := ![![1], ![-1], ![1]]

/-- Their multiplicities, times `RT`. -/
def siteC (t : ℝ) : Fin 3 → ℝ := ![R * t, 2 * (R * t), R * t]

lemma dom_iff (θ : Ext 0 → ℝ) (s : Fin 1 → ℝ) : Dom (join (θ, s)) ↔ ∀ i, 0 < frac (siteA i) (siteB i) s := by
  rw [Fin.forall_fin_succ, Fin.forall_fin_two]
  simp only [Dom, join, Sum.elim_inr, frac, siteA, siteB, Fin.sum_univ_one]
  simp [sub_eq_add_neg]

/-- The energy without the ideal entropy. -/
def excess (t s0 : ℝ) : ℝ := H s0 - R * t * (2 * Real.log 2)

lemma g_eq (θ : Ext 0 → ℝ) (s : Fin 1 → ℝ) (_h : Dom (join (θ, s))) :
    (macros (join (θ, s))).g = excess (θ iT) (s 0) + ∑ i, siteC (θ iT) i *
      (frac (siteA i) (siteB i) s * Real.log (frac (siteA i) (siteB i) s)) := by
  have e0 : frac (siteA 0) (siteB 0) s = s 0 := by simp [frac, siteA, siteB]
  have e1 : frac (siteA 1) (siteB 1) s = 1 - s 0 := by simp [frac, siteA, siteB]; ring
  have e2 : frac (siteA 2) (siteB 2) s = 1 + s 0 := by simp [frac, siteA, siteB]
  rw [Fin.sum_univ_three, e0, e1, e2]
  change G (θ iT) (s 0) = _
  simp only [G, S, excess, siteC, Matrix.cons_val]
  ring

lemma bounded : Bornology.IsBounded {s : Fin 1 → ℝ | ∀ i, 0 ≤ frac (siteA i) (siteB i) s} := by
  refine (Metric.isBounded_closedBall (x := (0 : Fin 1 → ℝ)) (r := 1)).subset fun s hs => ?_
  rw [Metric.mem_closedBall, dist_zero_right]
  refine (pi_norm_le_iff_of_nonneg zero_le_one).mpr fun k => ?_
  have h0 := hs 0; have h1 := hs 1; have h2 := hs 2
  simp [frac, siteA, siteB] at h0 h1 h2
  rw [Real.norm_eq_abs, abs_le]
  fin_cases k
  constructor <;> simp only [Fin.zero_eta] <;> linarith

/-- The second derivative in the ordering parameter is positive at temperatures above 700 K. -/
lemma convex {t s0 : ℝ} (ht : 700 < t) (h : 0 < s0 ∧ 0 < 1 - s0 ∧ 0 < 1 + s0) : 0 < D2GDS0S0 t s0 := by
  have h0 := h.1; have h1 := h.2.1; have h2 := h.2.2
  have key : 13 / 2 ≤ 1 / s0 + 1 / (1 + s0) + 2 / (1 - s0) := by
    rw [div_add_div _ _ h0.ne' h2.ne', div_add_div _ _ (by positivity) h1.ne', le_div_iff₀ (by positivity)]
    nlinarith [mul_nonneg (by linarith : 0 ≤ s0 + 2 * (847 / 2000)) (sq_nonneg (s0 - 847 / 2000))]
  have hRt : 5820 ≤ R * t := by rw [R_val]; linarith
  have := mul_le_mul hRt key (by norm_num) (by linarith)
  unfold D2GDS0S0 gs2s2 W11
  linarith

/-- The temperatures at which the ordering state of hercynite is known to be unique. -/
def hot : Set (Ext 0 → ℝ) := {θ | 700 < θ iT}

lemma hot_open : IsOpen hot := isOpen_lt continuous_const (continuous_apply _)

/-- **C61.** Pure hercynite (FeAl2O4): at temperatures above 700 K and any pressure there is exactly one equilibrium ordering state, and it
has the lowest energy of all. -/
theorem C61_pure_hercynite_unique (θ : Ext 0 → ℝ) (h : θ ∈ hot) :
    ∃! s : Fin 1 → ℝ, IsEq macros Dom θ s ∧ ∀ s', Dom (join (θ, s')) → (macros (join (θ, s))).g ≤ (macros (join (θ, s'))).g := by
  have hR := R_pos
  have ht : 0 < θ iT := lt_trans (by norm_num) (show (700 : ℝ) < θ iT from h)
  have hQ : Differentiable ℝ fun s : Fin 1 → ℝ => excess (θ iT) (s 0) := by unfold excess H; fun_prop
  obtain ⟨s, hs, hm⟩ := pack_exists (s0 := fun _ => 1 / 2) ok dom_open (dom_iff θ) (g_eq θ)
    (by intro i; fin_cases i <;> simp only [siteC] <;> simp <;> positivity) hQ
    (by intro i; fin_cases i <;> norm_num [frac, siteA, siteB]) bounded
  refine ⟨s, ⟨hs, hm⟩, fun s' h' => ?_⟩
  exact pack_unique ok (pack_convex (dom_iff θ)) (fun s hs => posHess_one (convex h hs)) h'.1 hs

/-- `X` gives the equilibrium ordering state of pure hercynite at every temperature and pressure of the range. -/
def Equilibrium (X : (Ext 0 → ℝ) → Fin 1 → ℝ) : Prop := ∀ θ ∈ hot, IsEq macros Dom θ (X θ)

theorem equilibrium_exists : ∃ X, Equilibrium X :=
  pack_choose fun θ h => (C61_pure_hercynite_unique θ h).exists.imp fun _ h => h.1

theorem solved {X : (Ext 0 → ℝ) → Fin 1 → ℝ} (hX : Equilibrium X) : Solved (jets macros) Dom X hot :=
  pack_solved ok dom_open hot_open hX (fun θ _ => pack_convex (dom_iff θ)) fun _ h _ hs => posHess_one (convex h hs)

/-- The properties of pure hercynite that `pureSpn` (spinel.c 1160-1530) computes. -/
def std (X : (Ext 0 → ℝ) → Fin 1 → ℝ) : ℝ → ℝ → Std := pureStd (jets macros) (fun y => (macros y).s) X

/-- **C24.** Pure hercynite: what `pureSpn` computes are the derivatives of the Gibbs energy at equilibrium order. -/
theorem C24_pure_hercynite {X : (Ext 0 → ℝ) → Fin 1 → ℝ} (hX : Equilibrium X) {t p : ℝ} (ht : 700 < t) : Consistent (std X) t p :=
  pureStd_consistent ok (fun y _ => entropy_eq y) (solved hX) (lt_trans (by norm_num) ht).ne' (show env ![] t p ∈ hot from ht)

/-- Non-vacuity: there is such a function, and 1200 K is in the range. -/
example : (∃ X, Equilibrium X) ∧ env ![] 1200 1 ∈ hot := ⟨equilibrium_exists, show (700 : ℝ) < 1200 by norm_num⟩

end PureHercynite

namespace PureMagnetite

/-- Constant terms of the arguments of the logarithms, spinel.c 826-833. -/
def siteA : Fin 3 → ℝ := ![0, 1, 1]

/-- Coefficients of `s[2]` in them. -/
def siteB : Fin 3 → Fin 1 → ℝ := ![![1], ![-1], ![1]]

/-- Their multiplicities, times `RT`. -/
def siteC (t : ℝ) : Fin 3 → ℝ := ![R * t, 2 * (R * t), R * t]

lemma dom_iff (θ : Ext 0 → ℝ) (s : Fin 1 → ℝ) : Dom (join (θ, s)) ↔ ∀ i, 0 < frac (siteA i) (siteB i) s := by
  rw [Fin.forall_fin_succ, Fin.forall_fin_two]
  simp only [Dom, join, Sum.elim_inr, frac, siteA, siteB, Fin.sum_univ_one]
  simp [sub_eq_add_neg]

/-- The energy without the ideal entropy. -/
def excess (t s0 : ℝ) : ℝ := H s0 - t * (ss4 * s0) - R * t * (2 * Real.log 2)

lemma g_eq (θ : Ext 0 → ℝ) (s : Fin 1 → ℝ) (_h : Dom (join (θ, s))) :
    (macros (join (θ, s))).g = excess (θ iT) (s 0) + ∑ i, siteC (θ iT) i *
      (frac (siteA i) (siteB i) s * Real.log (frac (siteA i) (siteB i) s)) := by
  have e0 : frac (siteA 0) (siteB 0) s = s 0 := by simp [frac, siteA, siteB]
  have e1 : frac (siteA 1) (siteB 1) s = 1 - s 0 := by simp [frac, siteA, siteB]; ring
  have e2 : frac (siteA 2) (siteB 2) s = 1 + s 0 := by simp [frac, siteA, siteB]
  rw [Fin.sum_univ_three, e0, e1, e2]
  change G (θ iT) (s 0) = _
  simp only [G, S, excess, siteC, Matrix.cons_val]
  ring

lemma bounded : Bornology.IsBounded {s : Fin 1 → ℝ | ∀ i, 0 ≤ frac (siteA i) (siteB i) s} := by
  refine (Metric.isBounded_closedBall (x := (0 : Fin 1 → ℝ)) (r := 1)).subset fun s hs => ?_
  rw [Metric.mem_closedBall, dist_zero_right]
  refine (pi_norm_le_iff_of_nonneg zero_le_one).mpr fun k => ?_
  have h0 := hs 0; have h1 := hs 1; have h2 := hs 2
  simp [frac, siteA, siteB] at h0 h1 h2
  rw [Real.norm_eq_abs, abs_le]
  fin_cases k
  constructor <;> simp only [Fin.zero_eta] <;> linarith

/-- The second derivative in the ordering parameter is positive at every temperature. -/
lemma convex {t s0 : ℝ} (ht : 0 < t) (h : 0 < s0 ∧ 0 < 1 - s0 ∧ 0 < 1 + s0) : 0 < D2GDS0S0 t s0 := by
  have h0 := h.1; have h1 := h.2.1; have h2 := h.2.2
  have hR := R_pos
  have : 0 < R * t * (1 / s0 + 2 / (1 - s0) + 1 / (1 + s0)) := by positivity
  unfold D2GDS0S0
  simp only [gs4s4, W55]
  linarith

/-- The temperatures at which the ordering state of magnetite is known to be unique. -/
def hot : Set (Ext 0 → ℝ) := {θ | 0 < θ iT}

lemma hot_open : IsOpen hot := isOpen_lt continuous_const (continuous_apply _)

/-- **C61.** Pure magnetite (Fe3O4): at every temperature and any pressure there is exactly one equilibrium ordering state, and it
has the lowest energy of all. -/
theorem C61_pure_magnetite_unique (θ : Ext 0 → ℝ) (h : θ ∈ hot) :
    ∃! s : Fin 1 → ℝ, IsEq macros Dom θ s ∧ ∀ s', Dom (join (θ, s')) → (macros (join (θ, s))).g ≤ (macros (join (θ, s'))).g := by
  have hR := R_pos
  have ht : 0 < θ iT := h
  have hQ : Differentiable ℝ fun s : Fin 1 → ℝ => excess (θ iT) (s 0) := by unfold excess H; fun_prop
  obtain ⟨s, hs, hm⟩ := pack_exists (s0 := fun _ => 1 / 2) ok dom_open (dom_iff θ) (g_eq θ)
    (by intro i; fin_cases i <;> simp only [siteC] <;> simp <;> positivity) hQ
    (by intro i; fin_cases i <;> norm_num [frac, siteA, siteB]) bounded
  refine ⟨s, ⟨hs, hm⟩, fun s' h' => ?_⟩
  exact pack_unique ok (pack_convex (dom_iff θ)) (fun s hs => posHess_one (convex h hs)) h'.1 hs

/-- `X` gives the equilibrium ordering state of pure magnetite at every temperature and pressure of the range. -/
def Equilibrium (X : (Ext 0 → ℝ) → Fin 1 → ℝ) : Prop := ∀ θ ∈ hot, IsEq macros Dom θ (X θ)

theorem equilibrium_exists : ∃ X, Equilibrium X :=
  pack_choose fun θ h => (C61_pure_magnetite_unique θ h).exists.imp fun _ h => h.1

theorem solved {X : (Ext 0 → ℝ) → Fin 1 → ℝ} (hX : Equilibrium X) : Solved (jets macros) Dom X hot :=
  pack_solved ok dom_open hot_open hX (fun θ _ => pack_convex (dom_iff θ)) fun _ h _ hs => posHess_one (convex h hs)

/-- The properties of pure magnetite that `pureSpn` (spinel.c 1160-1530) computes. -/
def std (X : (Ext 0 → ℝ) → Fin 1 → ℝ) : ℝ → ℝ → Std := pureStd (jets macros) (fun y => (macros y).s) X

/-- **C24.** Pure magnetite: what `pureSpn` computes are the derivatives of the Gibbs energy at equilibrium order. -/
theorem C24_pure_magnetite {X : (Ext 0 → ℝ) → Fin 1 → ℝ} (hX : Equilibrium X) {t p : ℝ} (ht : 0 < t) : Consistent (std X) t p :=
  pureStd_consistent ok (fun y _ => entropy_eq y) (solved hX) ht.ne' (show env ![] t p ∈ hot from ht)

/-- Non-vacuity: there is such a function, and 1200 K is in the range. -/
example : (∃ X, Equilibrium X) ∧ env ![] 1200 1 ∈ hot := ⟨equilibrium_exists, show (0 : ℝ) < 1200 by norm_num⟩

end PureMagnetite

namespace PureSpinel

/-- Constant terms of the arguments of the logarithms, spinel.c 763-772. -/
def siteA : Fin 3 → ℝ := ![1, 1, 3]

/-- Coefficients of `s[0]` in them. -/
def siteB : Fin 3 → Fin 1 → ℝ := ![![-1], ![1], ![1]]

/-- Their multiplicities, times `RT`. -/
def siteC (t : ℝ) : Fin 3 → ℝ := ![R * t, 1 / 2 * (R * t), 1 / 2 * (R * t)]

lemma dom_iff (θ : Ext 0 → ℝ) (s : Fin 1 → ℝ) : Dom (join (θ, s)) ↔ ∀ i, 0 < frac (siteA i) (siteB i) s := by
  rw [Fin.forall_fin_succ, Fin.forall_fin_two]
  simp only [Dom, join, Sum.elim_inr, frac, siteA, siteB, Fin.sum_univ_one]
  simp [sub_eq_add_neg]

/-- The energy without the ideal entropy. -/
def excess (t s0 : ℝ) : ℝ := H s0 - R * t * (5 * Real.log 2)

lemma g_eq (θ : Ext 0 → ℝ) (s : Fin 1 → ℝ) (_h : Dom (join (θ, s))) :
    (macros (join (θ, s))).g = excess (θ iT) (s 0) + ∑ i, siteC (θ iT) i *
      (frac (siteA i) (siteB i) s * Real.log (frac (siteA i) (siteB i) s)) := by
  have e0 : frac (siteA 0) (siteB 0) s = 1 - s 0 := by simp [frac, siteA, siteB]; ring
  have e1 : frac (siteA 1) (siteB 1) s = 1 + s 0 := by simp [frac, siteA, siteB]
  have e2 : frac (siteA 2) (siteB 2) s = 3 + s 0 := by simp [frac, siteA, siteB]
  rw [Fin.sum_univ_three, e0, e1, e2]
  change G (θ iT) (s 0) = _
  simp only [G, S, excess, siteC, Matrix.cons_val]
  ring

lemma bounded : Bornology.IsBounded {s : Fin 1 → ℝ | ∀ i, 0 ≤ frac (siteA i) (siteB i) s} := by
  refine (Metric.isBounded_closedBall (x := (0 : Fin 1 → ℝ)) (r := 1)).subset fun s hs => ?_
  rw [Metric.mem_closedBall, dist_zero_right]
  refine (pi_norm_le_iff_of_nonneg zero_le_one).mpr fun k => ?_
  have h0 := hs 0; have h1 := hs 1; have h2 := hs 2
  simp [frac, siteA, siteB] at h0 h1 h2
  rw [Real.norm_eq_abs, abs_le]
  fin_cases k
  constructor <;> simp only [Fin.zero_eta] <;> linarith

/-- The second derivative in the ordering parameter is positive at temperatures above 560 K. -/
lemma convex {t s0 : ℝ} (ht : 560 < t) (h : 0 < 1 - s0 ∧ 0 < 1 + s0 ∧ 0 < 3 + s0) : 0 < D2GDS0S0 t s0 := by
  have h0 := h.1; have h1 := h.2.1; have h2 := h.2.2
  have key : 13 / 8 ≤ 1 / 2 / (1 + s0) + 1 / 2 / (3 + s0) + 1 / (1 - s0) := by
    rw [div_add_div _ _ h1.ne' h2.ne', div_add_div _ _ (by positivity) h0.ne', le_div_iff₀ (by positivity)]
    nlinarith [mul_nonneg (by linarith : 0 ≤ s0 + 26946 / 10000) (sq_nonneg (s0 + 1527 / 10000))]
  have hRt : 4656 ≤ R * t := by rw [R_val]; linarith
  have := mul_le_mul hRt key (by norm_num) (by linarith)
  unfold D2GDS0S0
  simp only [gs1s1, gs1s2, gs2s2, W11, W22, WTET, WOCT, HX]
  linarith

/-- The temperatures at which the ordering state of spinel proper is known to be unique. -/
def hot : Set (Ext 0 → ℝ) := {θ | 560 < θ iT}

lemma hot_open : IsOpen hot := isOpen_lt continuous_const (continuous_apply _)

/-- **C61.** Pure spinel proper (MgAl2O4): at temperatures above 560 K and any pressure there is exactly one equilibrium ordering state, and it
has the lowest energy of all. -/
theorem C61_pure_spinel_unique (θ : Ext 0 → ℝ) (h : θ ∈ hot) :
    ∃! s : Fin 1 → ℝ, IsEq macros Dom θ s ∧ ∀ s', Dom (join (θ, s')) → (macros (join (θ, s))).g ≤ (macros (join (θ, s'))).g := by
  have hR := R_pos
  have ht : 0 < θ iT := lt_trans (by norm_num) (show (560 : ℝ) < θ iT from h)
  have hQ : Differentiable ℝ fun s : Fin 1 → ℝ => excess (θ iT) (s 0) := by unfold excess H; fun_prop
  obtain ⟨s, hs, hm⟩ := pack_exists (s0 := fun _ => 0) ok dom_open (dom_iff θ) (g_eq θ)
    (by intro i; fin_cases i <;> simp only [siteC] <;> simp <;> positivity) hQ
    (by intro i; fin_cases i <;> norm_num [frac, siteA, siteB]) bounded
  refine ⟨s, ⟨hs, hm⟩, fun s' h' => ?_⟩
  exact pack_unique ok (pack_convex (dom_iff θ)) (fun s hs => posHess_one (convex h hs)) h'.1 hs

/-- `X` gives the equilibrium ordering state of pure spinel proper at every temperature and pressure of the range. -/
def Equilibrium (X : (Ext 0 → ℝ) → Fin 1 → ℝ) : Prop := ∀ θ ∈ hot, IsEq macros Dom θ (X θ)

theorem equilibrium_exists : ∃ X, Equilibrium X :=
  pack_choose fun θ h => (C61_pure_spinel_unique θ h).exists.imp fun _ h => h.1

theorem solved {X : (Ext 0 → ℝ) → Fin 1 → ℝ} (hX : Equilibrium X) : Solved (jets macros) Dom X hot :=
  pack_solved ok dom_open hot_open hX (fun θ _ => pack_convex (dom_iff θ)) fun _ h _ hs => posHess_one (convex h hs)

/-- The properties of pure spinel proper that `pureSpn` (spinel.c 1160-1530) computes. -/
def std (X : (Ext 0 → ℝ) → Fin 1 → ℝ) : ℝ → ℝ → Std := pureStd (jets macros) (fun y => (macros y).s) X

/-- **C24.** Pure spinel proper: what `pureSpn` computes are the derivatives of the Gibbs energy at equilibrium order. -/
theorem C24_pure_spinel {X : (Ext 0 → ℝ) → Fin 1 → ℝ} (hX : Equilibrium X) {t p : ℝ} (ht : 560 < t) : Consistent (std X) t p :=
  pureStd_consistent ok (fun y _ => entropy_eq y) (solved hX) (lt_trans (by norm_num) ht).ne' (show env ![] t p ∈ hot from ht)

/-- Non-vacuity: there is such a function, and 1200 K is in the range. -/
example : (∃ X, Equilibrium X) ∧ env ![] 1200 1 ∈ hot := ⟨equilibrium_exists, show (560 : ℝ) < 1200 by norm_num⟩

end PureSpinel

end

end Verif.Thermo.Ordering
