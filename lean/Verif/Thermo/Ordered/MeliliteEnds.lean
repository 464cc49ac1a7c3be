import Verif.Thermo.Ordered.PureGehlenite
import Verif.Thermo.Ordered.MeliliteSlope

/-!
Gehlenite (Ca2Al2SiO7), the end member of melilite.c that orders by itself: above 800 K it has exactly one equilibrium ordering
state, which is what the iteration of `pureOrder` (melilite.c 544-596) looks for.
-/

namespace Verif.Thermo.Ordering

open Finset Filter Topology
open Magma.Thermo.Mixing (R R_pos)
open Verif.Thermo.StdState (Std Consistent)

noncomputable section

namespace PureGehlenite

/-- Constant terms of the arguments of the logarithms, melilite.c 463-464. -/
def siteA : Fin 3 → ℝ := ![0, 1, 1]

/-- Coefficients of `s[0]` in them. -/
def siteB : Fin 3 → Fin 1 → ℝ := ![![1], ![-1], ![1]]

/-- Their multiplicities, times `RT`. -/
def siteC (t : ℝ) : Fin 3 → ℝ := ![R * t, 2 * (R * t), R * t]

lemma dom_iff (θ : Ext 0 → ℝ) (s : Fin 1 → ℝ) : Dom (join (θ, s)) ↔ ∀ i, 0 < frac (siteA i) (siteB i) s := by
  rw [Fin.forall_fin_succ, Fin.forall_fin_two]
  simp only [Dom, join, Sum.elim_inr, frac, siteA, siteB, Fin.sum_univ_one]
  simp [sub_eq_add_neg]

/-- The energy without the ideal entropy. -/
def excess (t s0 : ℝ) : ℝ := H s0 - R * t * (2 * Real.log 2)

lemma g_eq (θ : Ext 0 → ℝ) (s : Fin 1 → ℝ) (_h : Dom (join (θ, s))) :
    (macros (join (θ, s))).g = excess (θ iT) (s 0) + ∑ i, siteC (θ iT) i *
      (frac (siteA i) (siteB i) s * Real.log (frac (siteA i) (siteB i) s)) := by
  have e0 : frac (siteA 0) (siteB 0) s = s 0 := by simp [frac, siteA, siteB]
  have e1 : frac (siteA 1) (siteB 1) s = 1 - s 0 := by simp [frac, siteA, siteB]; ring
  have e2 : frac (siteA 2) (siteB 2) s = 1 + s 0 := by simp [frac, siteA, siteB]
  rw [Fin.sum_univ_three, e0, e1, e2]
  change G (θ iT) (s 0) = _
  simp only [G, S, excess, siteC, Matrix.cons_val]
  ring

lemma bounded : Bornology.IsBounded {s : Fin 1 → ℝ | ∀ i, 0 ≤ frac (siteA i) (siteB i) s} := by
  refine (Metric.isBounded_closedBall (x := (0 : Fin 1 → ℝ)) (r := 1)).subset fun s hs => ?_
  rw [Metric.mem_closedBall, dist_zero_right]
  refine (pi_norm_le_iff_of_nonneg zero_le_one).mpr fun k => ?_
  have h0 := hs 0; have h1 := hs 1; have h2 := hs 2
  simp [frac, siteA, siteB] at h0 h1 h2
  rw [Real.norm_eq_abs, abs_le]
  fin_cases k
  constructor <;> simp only [Fin.zero_eta] <;> linarith

/-- The slope and the curvature of the energy are those of melilite at the gehlenite corner. -/
lemma slope_eq (t s : ℝ) : DGDS0 t s = MeliliteSlope.slope (R * t) 1 0 s := by
  unfold DGDS0 MeliliteSlope.slope MeliliteSlope.logs DG22p W22p
  rw [show (2 : ℝ) - 1 - s = 1 - s by ring, zero_add]
  ring

lemma curv_eq (t s : ℝ) : D2GDS0S0 t s = MeliliteSlope.curv (R * t) 1 0 s := by
  unfold D2GDS0S0 MeliliteSlope.curv W22p
  rw [show (2 : ℝ) - 1 - s = 1 - s by ring, zero_add]
  ring

lemma states {s : ℝ} (h : 0 < s ∧ 0 < 1 - s ∧ 0 < 1 + s) : MeliliteSlope.In 1 0 s :=
  ⟨le_rfl, by norm_num, by simpa using h.1, h.2.2, h.2.1⟩

/-- The temperatures at which the ordering state of gehlenite is known to be unique. -/
def hot : Set (Ext 0 → ℝ) := {θ | 800 < θ iT}

lemma hot_open : IsOpen hot := isOpen_lt continuous_const (continuous_apply _)

lemma eq_slope {θ : Ext 0 → ℝ} {s : Fin 1 → ℝ} (h : IsEq macros Dom θ s) : MeliliteSlope.slope (R * θ iT) 1 0 (s 0) = 0 := by
  rw [← slope_eq]; exact h.2 0

lemma uniq {θ : Ext 0 → ℝ} (h : θ ∈ hot) {s s' : Fin 1 → ℝ} (hs : IsEq macros Dom θ s) (hs' : IsEq macros Dom θ s') : s = s' := by
  funext k; fin_cases k
  exact MeliliteSlope.unique (MeliliteSlope.rt h) (states hs.1) (states hs'.1) (eq_slope hs) (eq_slope hs')

/-- **C61.** Pure gehlenite (Ca2Al2SiO7): at temperatures above 800 K and any pressure there is exactly one equilibrium ordering
state, and it has the lowest energy of all. -/
theorem C61_pure_gehlenite_unique (θ : Ext 0 → ℝ) (h : θ ∈ hot) : ∃! s : Fin 1 → ℝ, IsEq macros Dom θ s ∧
    ∀ s', Dom (join (θ, s')) → (macros (join (θ, s))).g ≤ (macros (join (θ, s'))).g := by
  have hR := R_pos
  have ht : 0 < θ iT := lt_trans (by norm_num) (show (800 : ℝ) < θ iT from h)
  have hQ : Differentiable ℝ fun s : Fin 1 → ℝ => excess (θ iT) (s 0) := by unfold excess H; fun_prop
  obtain ⟨s, hs, hm⟩ := pack_exists (s0 := fun _ => 1 / 2) ok dom_open (dom_iff θ) (g_eq θ)
    (by intro i; fin_cases i <;> simp only [siteC] <;> simp <;> positivity) hQ
    (by intro i; fin_cases i <;> norm_num [frac, siteA, siteB]) bounded
  exact ⟨s, ⟨hs, hm⟩, fun s' h' => uniq h h'.1 hs⟩

/-- `X` gives the equilibrium ordering state of pure gehlenite at every temperature and pressure of the range. -/
def Equilibrium (X : (Ext 0 → ℝ) → Fin 1 → ℝ) : Prop := ∀ θ ∈ hot, IsEq macros Dom θ (X θ)

theorem equilibrium_exists : ∃ X, Equilibrium X :=
  pack_choose fun θ h => (C61_pure_gehlenite_unique θ h).exists.imp fun _ h => h.1

theorem solved {X : (Ext 0 → ℝ) → Fin 1 → ℝ} (hX : Equilibrium X) : Solved (jets macros) Dom X hot :=
  solved_up ok dom_open hot_open hX (fun θ h s hs => by
    change 0 < D2GDS0S0 (θ iT) (s 0)
    rw [curv_eq]
    exact MeliliteSlope.up (MeliliteSlope.rt h) (states hs.1) (eq_slope hs)) fun θ h s s' hs hs' => uniq h hs hs'

/-- The properties of pure gehlenite that `pureMel` (melilite.c 777-1050) computes. -/
def std (X : (Ext 0 → ℝ) → Fin 1 → ℝ) : ℝ → ℝ → Std := pureStd (jets macros) (fun y => (macros y).s) X

/-- **C24.** Pure gehlenite: what `pureMel` computes are the derivatives of the Gibbs energy at equilibrium order. -/
theorem C24_pure_gehlenite {X : (Ext 0 → ℝ) → Fin 1 → ℝ} (hX : Equilibrium X) {t p : ℝ} (ht : 800 < t) : Consistent (std X) t p :=
  pureStd_consistent ok (fun y _ => entropy_eq y) (solved hX) (lt_trans (by norm_num) ht).ne' (show env ![] t p ∈ hot from ht)

/-- Non-vacuity: there is such a function, and 1200 K is in the range. -/
example : (∃ X, Equilibrium X) ∧ env ![] 1200 1 ∈ hot := ⟨equilibrium_exists, show (800 : ℝ) < 1200 by norm_num⟩

end PureGehlenite

end

end Verif.Thermo.Ordering
