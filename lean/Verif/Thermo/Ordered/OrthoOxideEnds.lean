import Verif.Thermo.Ordered.PurePseudobrookite
import Verif.Thermo.Ordered.PureFerropseudobrookite
import Verif.Thermo.Ordered.PureKarrooite
import Verif.Thermo.Ordered.SpinelEnds

/-!
The pure end members of ortho-oxide.c, each of which orders by itself: each has, at the temperatures stated, exactly one
equilibrium ordering state, which is what the iteration of `pureOrder` (ortho-oxide.c 559-622) looks for.
-/

namespace Verif.Thermo.Ordering

open Finset Filter Topology
open Magma.Thermo.Mixing (R R_pos)
open Verif.Thermo.StdState (Std Consistent)

noncomputable section

namespace PurePseudobrookite

/-- Constant terms of the site fractions, the arguments of the logarithms in ortho-oxide.c 435-438. -/
def siteA : Fin 4 → ℝ := ![1 / 2, 1 / 2, 3 / 4, 1 / 4]

/-- Coefficients of `s[0]` in them. -/
def siteB : Fin 4 → Fin 1 → ℝ := ![![1 / 2], ![-(1 / 2)], ![-(1 / 4)], ![1 / 4]]

/-- Sites per formula unit, times `RT`. -/
def siteC (t : ℝ) : Fin 4 → ℝ := ![R * t, R * t, 2 * (R * t), 2 * (R * t)]

lemma frac_eq (s : Fin 1 → ℝ) : frac (siteA 0) (siteB 0) s = (1 + s 0) / 2 ∧ frac (siteA 1) (siteB 1) s = (1 - s 0) / 2 ∧ frac (siteA 2) (siteB 2) s = (3 - s 0) / 4 ∧ frac (siteA 3) (siteB 3) s = (1 + s 0) / 4 := by
  refine ⟨?_, ?_, ?_, ?_⟩ <;> simp [frac, siteA, siteB] <;> ring

lemma dom_iff (θ : Ext 0 → ℝ) (s : Fin 1 → ℝ) : Dom (join (θ, s)) ↔ ∀ i, 0 < frac (siteA i) (siteB i) s := by
  obtain ⟨e0, e1, e2, e3⟩ := frac_eq s
  constructor
  · intro h
    obtain ⟨h0, h1, h2⟩ := h
    simp only [join, Sum.elim_inr] at h0 h1 h2
    intro i; fin_cases i
    exacts [e0.symm ▸ (by linarith), e1.symm ▸ (by linarith), e2.symm ▸ (by linarith), e3.symm ▸ (by linarith)]
  · intro h
    have b0 := e0 ▸ h 0; have b1 := e1 ▸ h 1; have b2 := e2 ▸ h 2; have b3 := e3 ▸ h 3
    refine ⟨?_, ?_, ?_⟩ <;> simp only [join, Sum.elim_inr] <;> linarith

/-- The energy without the ideal entropy. -/
def excess (s0 : ℝ) : ℝ := H s0

lemma g_eq (θ : Ext 0 → ℝ) (s : Fin 1 → ℝ) (_h : Dom (join (θ, s))) :
    (macros (join (θ, s))).g = excess (s 0) + ∑ i, siteC (θ iT) i *
      (frac (siteA i) (siteB i) s * Real.log (frac (siteA i) (siteB i) s)) := by
  obtain ⟨e0, e1, e2, e3⟩ := frac_eq s
  rw [Fin.sum_univ_four, e0, e1, e2, e3]
  change G (θ iT) (s 0) = _
  simp only [G, S, excess, siteC, Matrix.cons_val]
  ring

lemma bounded : Bornology.IsBounded {s : Fin 1 → ℝ | ∀ i, 0 ≤ frac (siteA i) (siteB i) s} := by
  refine (Metric.isBounded_closedBall (x := (0 : Fin 1 → ℝ)) (r := 1)).subset fun s hs => ?_
  rw [Metric.mem_closedBall, dist_zero_right]
  refine (pi_norm_le_iff_of_nonneg zero_le_one).mpr fun k => ?_
  obtain ⟨e0, e1, e2, e3⟩ := frac_eq s
  have h0 := e0 ▸ hs 0; have h1 := e1 ▸ hs 1
  rw [Real.norm_eq_abs, abs_le]
  fin_cases k
  constructor <;> simp only [Fin.zero_eta] <;> linarith

/-- The second derivative in the ordering parameter is positive at temperatures above 222 K. -/
lemma convex {t s0 : ℝ} (ht : 222 < t) (h : 0 < 1 + s0 ∧ 0 < 1 - s0 ∧ 0 < 3 - s0) : 0 < D2GDS0S0 t s0 := by
  have h0 := h.1; have h1 := h.2.1; have h2 := h.2.2
  have key : 163 / 100 ≤ 1 / (1 + s0) + 1 / 2 / (1 - s0) + 1 / 2 / (3 - s0) := by
    rw [div_add_div _ _ h0.ne' h1.ne', div_add_div _ _ (by positivity) h2.ne', le_div_iff₀ (by positivity)]
    nlinarith [mul_nonneg (by linarith : 0 ≤ 489 / 100 - 326 / 100 * (1516 / 10000) - 163 / 100 * s0) (sq_nonneg (s0 - 1516 / 10000))]
  have hRt : 1845 ≤ R * t := by rw [R_val]; linarith
  have := mul_le_mul hRt key (by norm_num) (by linarith)
  unfold D2GDS0S0
  simp only [GS1S1, W11P]
  have e : (1 : ℝ) / 2 / (1 + s0) + 1 / 2 / (1 - s0) + 1 / 2 / (3 - s0) + 1 / 2 / (1 + s0) =
      1 / (1 + s0) + 1 / 2 / (1 - s0) + 1 / 2 / (3 - s0) := by ring
  rw [e]
  linarith

/-- The temperatures at which the ordering state of pseudobrookite is known to be unique. -/
def hot : Set (Ext 0 → ℝ) := {θ | 222 < θ iT}

lemma hot_open : IsOpen hot := isOpen_lt continuous_const (continuous_apply _)

/-- **C61.** Pure pseudobrookite (Fe2TiO5): above 222 K and at any pressure there is exactly one equilibrium
ordering state, and it has the lowest energy of all. -/
theorem C61_pure_pseudobrookite_unique (θ : Ext 0 → ℝ) (h : θ ∈ hot) :
    ∃! s : Fin 1 → ℝ, IsEq macros Dom θ s ∧ ∀ s', Dom (join (θ, s')) → (macros (join (θ, s))).g ≤ (macros (join (θ, s'))).g := by
  have hR := R_pos
  have ht : 0 < θ iT := lt_trans (by norm_num) (show (222 : ℝ) < θ iT from h)
  have hQ : Differentiable ℝ fun s : Fin 1 → ℝ => excess (s 0) := by unfold excess H; fun_prop
  obtain ⟨s, hs, hm⟩ := pack_exists (s0 := fun _ => 0) ok dom_open (dom_iff θ) (g_eq θ)
    (by intro i; fin_cases i <;> simp only [siteC] <;> simp <;> positivity) hQ
    (by intro i; fin_cases i <;> norm_num [frac, siteA, siteB]) bounded
  refine ⟨s, ⟨hs, hm⟩, fun s' h' => ?_⟩
  exact pack_unique ok (pack_convex (dom_iff θ)) (fun s hs => posHess_one (convex h hs)) h'.1 hs

/-- `X` gives the equilibrium ordering state of pure pseudobrookite at every temperature and pressure of the range. -/
def Equilibrium (X : (Ext 0 → ℝ) → Fin 1 → ℝ) : Prop := ∀ θ ∈ hot, IsEq macros Dom θ (X θ)

theorem equilibrium_exists : ∃ X, Equilibrium X :=
  pack_choose fun θ h => (C61_pure_pseudobrookite_unique θ h).exists.imp fun _ h => h.1

theorem solved {X : (Ext 0 → ℝ) → Fin 1 → ℝ} (hX : Equilibrium X) : Solved (jets macros) Dom X hot :=
  pack_solved ok dom_open hot_open hX (fun θ _ => pack_convex (dom_iff θ)) fun _ h _ hs => posHess_one (convex h hs)

/-- The properties of pure pseudobrookite that `pureOox` (ortho-oxide.c 773-1000) computes. -/
def std (X : (Ext 0 → ℝ) → Fin 1 → ℝ) : ℝ → ℝ → Std := pureStd (jets macros) (fun y => (macros y).s) X

/-- **C24.** Pure pseudobrookite: what `pureOox` computes are the derivatives of the Gibbs energy at equilibrium order. -/
theorem C24_pure_pseudobrookite {X : (Ext 0 → ℝ) → Fin 1 → ℝ} (hX : Equilibrium X) {t p : ℝ} (ht : 222 < t) : Consistent (std X) t p :=
  pureStd_consistent ok (fun y _ => entropy_eq y) (solved hX) (lt_trans (by norm_num) ht).ne' (show env ![] t p ∈ hot from ht)

/-- Non-vacuity: there is such a function, and 1200 K is in the range. -/
example : (∃ X, Equilibrium X) ∧ env ![] 1200 1 ∈ hot := ⟨equilibrium_exists, show (222 : ℝ) < 1200 by norm_num⟩

end PurePseudobrookite

namespace PureFerropseudobrookite

/-- Constant terms of the site fractions, the arguments of the logarithms in ortho-oxide.c 479-480. -/
def siteA : Fin 2 → ℝ := ![1 / 2, 1 / 4]

/-- Coefficients of `s[1]` in them. -/
def siteB : Fin 2 → Fin 1 → ℝ := ![![1 / 2], ![-(1 / 4)]]

/-- Sites per formula unit, times `RT`. -/
def siteC (t : ℝ) : Fin 2 → ℝ := ![R * t, 2 * (R * t)]

lemma frac_eq (s : Fin 1 → ℝ) : frac (siteA 0) (siteB 0) s = (1 + s 0) / 2 ∧ frac (siteA 1) (siteB 1) s = (1 - s 0) / 4 := by
  refine ⟨?_, ?_⟩ <;> simp [frac, siteA, siteB] <;> ring

lemma dom_iff (θ : Ext 0 → ℝ) (s : Fin 1 → ℝ) : Dom (join (θ, s)) ↔ ∀ i, 0 < frac (siteA i) (siteB i) s := by
  obtain ⟨e0, e1⟩ := frac_eq s
  constructor
  · intro h
    obtain ⟨h0, h1⟩ := h
    simp only [join, Sum.elim_inr] at h0 h1
    intro i; fin_cases i
    exacts [e0.symm ▸ (by linarith), e1.symm ▸ (by linarith)]
  · intro h
    have b0 := e0 ▸ h 0; have b1 := e1 ▸ h 1
    refine ⟨?_, ?_⟩ <;> simp only [join, Sum.elim_inr] <;> linarith

/-- The energy without the ideal entropy. -/
def excess (s0 : ℝ) : ℝ := H s0

lemma g_eq (θ : Ext 0 → ℝ) (s : Fin 1 → ℝ) (_h : Dom (join (θ, s))) :
    (macros (join (θ, s))).g = excess (s 0) + ∑ i, siteC (θ iT) i *
      (frac (siteA i) (siteB i) s * Real.log (frac (siteA i) (siteB i) s)) := by
  obtain ⟨e0, e1⟩ := frac_eq s
  rw [Fin.sum_univ_two, e0, e1]
  change G (θ iT) (s 0) = _
  simp only [G, S, excess, siteC, Matrix.cons_val, Matrix.cons_val_zero, Matrix.cons_val_one]
  ring

lemma bounded : Bornology.IsBounded {s : Fin 1 → ℝ | ∀ i, 0 ≤ frac (siteA i) (siteB i) s} := by
  refine (Metric.isBounded_closedBall (x := (0 : Fin 1 → ℝ)) (r := 1)).subset fun s hs => ?_
  rw [Metric.mem_closedBall, dist_zero_right]
  refine (pi_norm_le_iff_of_nonneg zero_le_one).mpr fun k => ?_
  obtain ⟨e0, e1⟩ := frac_eq s
  have h0 := e0 ▸ hs 0; have h1 := e1 ▸ hs 1
  rw [Real.norm_eq_abs, abs_le]
  fin_cases k
  constructor <;> simp only [Fin.zero_eta] <;> linarith

/-- The second derivative in the ordering parameter is positive at temperatures above 361 K. -/
lemma convex {t s0 : ℝ} (ht : 361 < t) (h : 0 < 1 + s0 ∧ 0 < 1 - s0) : 0 < D2GDS0S0 t s0 := by
  have h0 := h.1; have h1 := h.2
  have key : 1 ≤ 1 / 2 / (1 + s0) + 1 / 2 / (1 - s0) := by
    rw [div_add_div _ _ h0.ne' h1.ne', le_div_iff₀ (by positivity)]
    nlinarith [sq_nonneg s0]
  have hRt : 3001 ≤ R * t := by rw [R_val]; linarith
  have := mul_le_mul hRt key (by norm_num) (by linarith)
  unfold D2GDS0S0
  simp only [GS2S2, W22P]
  linarith

/-- The temperatures at which the ordering state of ferropseudobrookite is known to be unique. -/
def hot : Set (Ext 0 → ℝ) := {θ | 361 < θ iT}

lemma hot_open : IsOpen hot := isOpen_lt continuous_const (continuous_apply _)

/-- **C61.** Pure ferropseudobrookite (FeTi2O5): above 361 K and at any pressure there is exactly one equilibrium
ordering state, and it has the lowest energy of all. -/
theorem C61_pure_ferropseudobrookite_unique (θ : Ext 0 → ℝ) (h : θ ∈ hot) :
    ∃! s : Fin 1 → ℝ, IsEq macros Dom θ s ∧ ∀ s', Dom (join (θ, s')) → (macros (join (θ, s))).g ≤ (macros (join (θ, s'))).g := by
  have hR := R_pos
  have ht : 0 < θ iT := lt_trans (by norm_num) (show (361 : ℝ) < θ iT from h)
  have hQ : Differentiable ℝ fun s : Fin 1 → ℝ => excess (s 0) := by unfold excess H; fun_prop
  obtain ⟨s, hs, hm⟩ := pack_exists (s0 := fun _ => 0) ok dom_open (dom_iff θ) (g_eq θ)
    (by intro i; fin_cases i <;> simp only [siteC] <;> simp <;> positivity) hQ
    (by intro i; fin_cases i <;> norm_num [frac, siteA, siteB]) bounded
  refine ⟨s, ⟨hs, hm⟩, fun s' h' => ?_⟩
  exact pack_unique ok (pack_convex (dom_iff θ)) (fun s hs => posHess_one (convex h hs)) h'.1 hs

/-- `X` gives the equilibrium ordering state of pure ferropseudobrookite at every temperature and pressure of the range. -/
def Equilibrium (X : (Ext 0 → ℝ) → Fin 1 → ℝ) : Prop := ∀ θ ∈ hot, IsEq macros Dom θ (X θ)

theorem equilibrium_exists : ∃ X, Equilibrium X :=
  pack_choose fun θ h => (C61_pure_ferropseudobrookite_unique θ h).exists.imp fun _ h => h.1

theorem solved {X : (Ext 0 → ℝ) → Fin 1 → ℝ} (hX : Equilibrium X) : Solved (jets macros) Dom X hot :=
  pack_solved ok dom_open hot_open hX (fun θ _ => pack_convex (dom_iff θ)) fun _ h _ hs => posHess_one (convex h hs)

/-- The properties of pure ferropseudobrookite that `pureOox` (ortho-oxide.c 773-1000) computes. -/
def std (X : (Ext 0 → ℝ) → Fin 1 → ℝ) : ℝ → ℝ → Std := pureStd (jets macros) (fun y => (macros y).s) X

/-- **C24.** Pure ferropseudobrookite: what `pureOox` computes are the derivatives of the Gibbs energy at equilibrium order. -/
theorem C24_pure_ferropseudobrookite {X : (Ext 0 → ℝ) → Fin 1 → ℝ} (hX : Equilibrium X) {t p : ℝ} (ht : 361 < t) : Consistent (std X) t p :=
  pureStd_consistent ok (fun y _ => entropy_eq y) (solved hX) (lt_trans (by norm_num) ht).ne' (show env ![] t p ∈ hot from ht)

/-- Non-vacuity: there is such a function, and 1200 K is in the range. -/
example : (∃ X, Equilibrium X) ∧ env ![] 1200 1 ∈ hot := ⟨equilibrium_exists, show (361 : ℝ) < 1200 by norm_num⟩

end PureFerropseudobrookite

namespace PureKarrooite

/-- Constant terms of the site fractions, the arguments of the logarithms in ortho-oxide.c 509-510. -/
def siteA : Fin 2 → ℝ := ![1 / 2, 1 / 4]

/-- Coefficients of `s[2]` in them. -/
def siteB : Fin 2 → Fin 1 → ℝ := ![![1 / 2], ![-(1 / 4)]]

/-- Sites per formula unit, times `RT`. -/
def siteC (t : ℝ) : Fin 2 → ℝ := ![R * t, 2 * (R * t)]

lemma frac_eq (s : Fin 1 → ℝ) : frac (siteA 0) (siteB 0) s = (1 + s 0) / 2 ∧ frac (siteA 1) (siteB 1) s = (1 - s 0) / 4 := by
  refine ⟨?_, ?_⟩ <;> simp [frac, siteA, siteB] <;> ring

lemma dom_iff (θ : Ext 0 → ℝ) (s : Fin 1 → ℝ) : Dom (join (θ, s)) ↔ ∀ i, 0 < frac (siteA i) (siteB i) s := by
  obtain ⟨e0, e1⟩ := frac_eq s
  constructor
  · intro h
    obtain ⟨h0, h1⟩ := h
    simp only [join, Sum.elim_inr] at h0 h1
    intro i; fin_cases i
    exacts [e0.symm ▸ (by linarith), e1.symm ▸ (by linarith)]
  · intro h
    have b0 := e0 ▸ h 0; have b1 := e1 ▸ h 1
    refine ⟨?_, ?_⟩ <;> simp only [join, Sum.elim_inr] <;> linarith

/-- The energy without the ideal entropy. -/
def excess (s0 : ℝ) : ℝ := H s0

lemma g_eq (θ : Ext 0 → ℝ) (s : Fin 1 → ℝ) (_h : Dom (join (θ, s))) :
    (macros (join (θ, s))).g = excess (s 0) + ∑ i, siteC (θ iT) i *
      (frac (siteA i) (siteB i) s * Real.log (frac (siteA i) (siteB i) s)) := by
  obtain ⟨e0, e1⟩ := frac_eq s
  rw [Fin.sum_univ_two, e0, e1]
  change G (θ iT) (s 0) = _
  simp only [G, S, excess, siteC, Matrix.cons_val, Matrix.cons_val_zero, Matrix.cons_val_one]
  ring

lemma bounded : Bornology.IsBounded {s : Fin 1 → ℝ | ∀ i, 0 ≤ frac (siteA i) (siteB i) s} := by
  refine (Metric.isBounded_closedBall (x := (0 : Fin 1 → ℝ)) (r := 1)).subset fun s hs => ?_
  rw [Metric.mem_closedBall, dist_zero_right]
  refine (pi_norm_le_iff_of_nonneg zero_le_one).mpr fun k => ?_
  obtain ⟨e0, e1⟩ := frac_eq s
  have h0 := e0 ▸ hs 0; have h1 := e1 ▸ hs 1
  rw [Real.norm_eq_abs, abs_le]
  fin_cases k
  constructor <;> simp only [Fin.zero_eta] <;> linarith

/-- The second derivative in the ordering parameter is positive at temperatures above 361 K. -/
lemma convex {t s0 : ℝ} (ht : 361 < t) (h : 0 < 1 + s0 ∧ 0 < 1 - s0) : 0 < D2GDS0S0 t s0 := by
  have h0 := h.1; have h1 := h.2
  have key : 1 ≤ 1 / 2 / (1 + s0) + 1 / 2 / (1 - s0) := by
    rw [div_add_div _ _ h0.ne' h1.ne', le_div_iff₀ (by positivity)]
    nlinarith [sq_nonneg s0]
  have hRt : 3001 ≤ R * t := by rw [R_val]; linarith
  have := mul_le_mul hRt key (by norm_num) (by linarith)
  unfold D2GDS0S0
  simp only [GS3S3, W33P]
  linarith

/-- The temperatures at which the ordering state of karrooite is known to be unique. -/
def hot : Set (Ext 0 → ℝ) := {θ | 361 < θ iT}

lemma hot_open : IsOpen hot := isOpen_lt continuous_const (continuous_apply _)

/-- **C61.** Pure karrooite (MgTi2O5): above 361 K and at any pressure there is exactly one equilibrium
ordering state, and it has the lowest energy of all. -/
theorem C61_pure_karrooite_unique (θ : Ext 0 → ℝ) (h : θ ∈ hot) :
    ∃! s : Fin 1 → ℝ, IsEq macros Dom θ s ∧ ∀ s', Dom (join (θ, s')) → (macros (join (θ, s))).g ≤ (macros (join (θ, s'))).g := by
  have hR := R_pos
  have ht : 0 < θ iT := lt_trans (by norm_num) (show (361 : ℝ) < θ iT from h)
  have hQ : Differentiable ℝ fun s : Fin 1 → ℝ => excess (s 0) := by unfold excess H; fun_prop
  obtain ⟨s, hs, hm⟩ := pack_exists (s0 := fun _ => 0) ok dom_open (dom_iff θ) (g_eq θ)
    (by intro i; fin_cases i <;> simp only [siteC] <;> simp <;> positivity) hQ
    (by intro i; fin_cases i <;> norm_num [frac, siteA, siteB]) bounded
  refine ⟨s, ⟨hs, hm⟩, fun s' h' => ?_⟩
  exact pack_unique ok (pack_convex (dom_iff θ)) (fun s hs => posHess_one (convex h hs)) h'.1 hs

/-- `X` gives the equilibrium ordering state of pure karrooite at every temperature and pressure of the range. -/
def Equilibrium (X : (Ext 0 → ℝ) → Fin 1 → ℝ) : Prop := ∀ θ ∈ hot, IsEq macros Dom θ (X θ)

theorem equilibrium_exists : ∃ X, Equilibrium X :=
  pack_choose fun θ h => (C61_pure_karrooite_unique θ h).exists.imp fun _ h => h.1

theorem solved {X : (Ext 0 → ℝ) → Fin 1 → ℝ} (hX : Equilibrium X) : Solved (jets macros) Dom X hot :=
  pack_solved ok dom_open hot_open hX (fun θ _ => pack_convex (dom_iff θ)) fun _ h _ hs => posHess_one (convex h hs)

/-- The properties of pure karrooite that `pureOox` (ortho-oxide.c 773-1000) computes. -/
def std (X : (Ext 0 → ℝ) → Fin 1 → ℝ) : ℝ → ℝ → Std := pureStd (jets macros) (fun y => (macros y).s) X

/-- **C24.** Pure karrooite: what `pureOox` computes are the derivatives of the Gibbs energy at equilibrium order. -/
theorem C24_pure_karrooite {X : (Ext 0 → ℝ) → Fin 1 → ℝ} (hX : Equilibrium X) {t p : ℝ} (ht : 361 < t) : Consistent (std X) t p :=
  pureStd_consistent ok (fun y _ => entropy_eq y) (solved hX) (lt_trans (by norm_num) ht).ne' (show env ![] t p ∈ hot from ht)

/-- Non-vacuity: there is such a function, and 1200 K is in the range. -/
example : (∃ X, Equilibrium X) ∧ env ![] 1200 1 ∈ hot := ⟨equilibrium_exists, show (361 : ℝ) < 1200 by norm_num⟩

end PureKarrooite

end

end Verif.Thermo.Ordering
