import Verif.Thermo.LiquidCO2Regular
import Mathlib.Topology.Algebra.Order.Field
import Mathlib.Analysis.Calculus.MeanValue
import Mathlib.Analysis.SpecialFunctions.Log.Deriv

/-!
C66: the speciation reaction CaSiO3 + CO2 = CaCO3 + SiO2 of the liquid (liquid_CO2.c, `initialGuessOrdering` and
`order`).

Line numbers are those of liquid_CO2.c.
-/

namespace Verif.Thermo.LiquidCO2

open Finset Filter Topology
open Verif.Thermo.Ordering
open Magma.Thermo.Mixing (R R_pos Mix)

noncomputable section

variable (P : Par)

/-! ### Model -/

/-- `fillDGDS`, lines 925-946. -/
def affinity (t p : ℝ) (r : Fin 18 → ℝ) (s : ℝ) : ℝ := (code P (mk r t p s)).dgds 0

/-- `fillD2GDS2`, lines 1150-1175. -/
def stiffness (t p : ℝ) (r : Fin 18 → ℝ) (s : ℝ) : ℝ := (code P (mk r t p s)).d2gds2 0 0

/-- What `rANDsTOx` returns, lines 555-557 (there are no coordination numbers: `NT` is `NS`). -/
def Feasible (r : Fin 18 → ℝ) (s : ℝ) : Prop := ∀ i, 0 ≤ sp r s i

/-- `sqrt(DBL_EPSILON)`. -/
def sqrtEps : ℝ := 1 / 2 ^ 26

open Classical in
/-- The bisection loop, lines 1947-1951: with `n` passes left the correction is `2^n sqrt(DBL_EPSILON)`. -/
def bisect (r : Fin 18 → ℝ) : ℕ → ℝ → ℝ
  | 0, s => s
  | n + 1, s => bisect r n (if ¬Feasible r s then s - 2 ^ (n + 1) * sqrtEps else s + 2 ^ (n + 1) * sqrtEps)

open Classical in
/-- The loop of lines 1959-1962; `n` is the number of passes left. -/
def shrink (r : Fin 18 → ℝ) (s0 c : ℝ) : ℕ → ℝ → ℝ → ℝ
  | 0, _, s => s
  | n + 1, f, s => if sqrtEps < f ∧ ¬Feasible r s then shrink r s0 c n (f / 2) (s0 + c * (f / 2)) else s

/-- `s0`, line 1943. -/
def lower (r : Fin 18 → ℝ) : ℝ := max (∑ j, r j - 1) 0

open Classical in
/-- `initialGuessOrdering`, lines 1862-1990 with TESTDYNAMICLIB defined (what precedes line 1941 is overwritten). -/
def guess (r : Fin 18 → ℝ) : ℝ :=
  let s0 := lower r
  let s1 := if ¬Feasible r (s0 + sqrtEps) then s0 else bisect r 25 1
  let c := (s1 + s0) / 2
  shrink r s0 (c - s0) 26 1 c

open Classical in
/-- The step length loop, lines 2105-2116: `n` halvings are left before the factor underflows (`none`). -/
def search (r : Fin 18 → ℝ) (s δ : ℝ) : ℕ → ℝ → Option ℝ
  | 0, _ => none
  | n + 1, l => if Feasible r (s + l * δ) then some (s + l * δ) else search r s δ n (l / 2)

/-- How `order` ends: converged, iterations exhausted, or step length underflow. -/
inductive Ending
  | converged
  | exhausted
  | underflow
  deriving DecidableEq

/-- `deltaS`, lines 2065-2092: no step if there is no carbonate. -/
def newtonStep (d1 d2 : ℝ → ℝ) (s : ℝ) : ℝ := if s = 0 then 0 else -(d1 s) / d2 s

/-- The Newton loop, lines 2059-2131, with `n + 1` iterations left; the result is `sOld`. -/
def newton (d1 d2 : ℝ → ℝ) (r : Fin 18 → ℝ) : ℕ → ℝ → ℝ × Ending
  | n, s => match search r s (newtonStep d1 d2 s) 1023 1 with
    | none => (s, .underflow)
    | some s' => match n with
      | 0 => (s, .exhausted)
      | n + 1 => if |s' - s| > 10 * (1 / 2 ^ 52) then newton d1 d2 r n s' else (s, .converged)

/-- `order`, lines 2031-2145: at most 200 iterations from the initial guess. -/
def order (t p : ℝ) (r : Fin 18 → ℝ) : ℝ × Ending := newton (affinity P t p r) (stiffness P t p r) r 199 (guess r)

/-! ### Specification -/

/-- Interaction parameter of two species. -/
def pair (W : Fin 20 → Fin 20 → ℝ) (i l : Fin 20) : ℝ := if i < l then W i l else if l < i then W l i else 0

/-- Energy of a species in the solution, without the ideal part. -/
def speciesG (P : Par) (t p : ℝ) (x : Fin 20 → ℝ) (i : Fin 20) : ℝ := P.G t p i + ∑ l, pair (P.W t p) i l * x l

/-! ### The reaction -/

lemma hd_ev {k : Co} (r : Fin 18 → ℝ) (s : ℝ) : HasDerivAt (fun s => ev k r s) (evS k r s) s := by
  unfold ev evS
  have h1 : HasDerivAt (fun s : ℝ => ∑ i, (k.r i * r i + ∑ j ∈ Ici i, k.rr i j * r i * r j + k.rs i * r i * s))
      (∑ i, k.rs i * r i) s := by
    refine HasDerivAt.fun_sum fun i _ => ?_
    simpa using ((hasDerivAt_id' s).const_mul (k.rs i * r i)).const_add (k.r i * r i + ∑ j ∈ Ici i, k.rr i j * r i * r j)
  have h2 : HasDerivAt (fun s : ℝ => k.s * s + k.ss * s * s) (k.s + (k.ss * s + k.ss * s)) s := by
    have a := (hasDerivAt_id' s).const_mul k.s
    have b := ((hasDerivAt_id' s).const_mul k.ss).mul (hasDerivAt_id' s)
    exact (a.add b).congr_deriv (by simp)
  exact ((h1.const_add k.c).add h2).congr_deriv (by ring)

lemma hd_sp (r : Fin 18 → ℝ) (s : ℝ) (i : Fin 20) : HasDerivAt (fun s => sp r s i) (dxds i) s := by
  have e : (fun s => sp r s i) = fun s => ((if i = 0 then 1 else 0) + ∑ j, dxdr j i * r j) + dxds i * s := by
    funext s; rw [sp_affine]
  rw [e]
  simpa using ((hasDerivAt_id' s).const_mul (dxds i)).const_add ((if i = 0 then (1 : ℝ) else 0) + ∑ j, dxdr j i * r j)

lemma sum_dxds (f : Fin 20 → ℝ) : ∑ i, dxds i * f i = f 0 + f 19 - f 10 - f 14 := by
  have h : ∀ i, dxds i * f i = (if i = 0 then f i else 0) + (if i = 19 then f i else 0) - (if i = 10 then f i else 0)
      - if i = 14 then f i else 0 := by
    intro i
    unfold dxds
    by_cases h0 : i = 0
    · subst h0; simp
    by_cases h1 : i = 19
    · subst h1; simp
    by_cases h2 : i = 10
    · subst h2; simp
    by_cases h3 : i = 14
    · subst h3; simp
    simp [h0, h1, h2, h3]
  simp only [h, sum_sub_distrib, sum_add_distrib, sum_ite_eq', mem_univ, if_true]

lemma evS_regular {T : Taylor} (hT : T.Exact) (G : Fin 20 → ℝ) (W : Fin 20 → Fin 20 → ℝ) (r : Fin 18 → ℝ) (s : ℝ) :
    evS (load T G W) r s = ∑ i, dxds i * (G i + ∑ l, pair W i l * sp r s l) := by
  have h1 := hd_ev (k := load T G W) r s
  have e : (fun s => ev (load T G W) r s) = fun s => regular G W (sp r s) :=
    funext fun s => C66_regular_solution hT G W r s
  rw [e] at h1
  refine h1.unique ?_
  unfold regular
  have h2 : HasDerivAt (fun s => ∑ i, sp r s i * G i) (∑ i, dxds i * G i) s :=
    HasDerivAt.fun_sum fun i _ => (hd_sp r s i).mul_const (G i)
  have h3 : HasDerivAt (fun s => ∑ i, ∑ l, if i < l then W i l * sp r s i * sp r s l else 0)
      (∑ i, ∑ l, if i < l then W i l * dxds i * sp r s l + W i l * sp r s i * dxds l else 0) s := by
    refine HasDerivAt.fun_sum fun i _ => HasDerivAt.fun_sum fun l _ => ?_
    by_cases h : i < l
    · simp only [h, if_true]
      exact ((hd_sp r s i).const_mul (W i l)).mul (hd_sp r s l)
    · simp only [h, if_false]; exact hasDerivAt_const _ _
  refine (h2.add h3).congr_deriv ?_
  simp only [mul_add, sum_add_distrib]
  congr 1
  have a1 : ∑ i, ∑ l, (if i < l then W i l * dxds i * sp r s l + W i l * sp r s i * dxds l else 0)
      = (∑ i, ∑ l, if i < l then W i l * dxds i * sp r s l else 0)
        + ∑ i, ∑ l, if l < i then W l i * dxds i * sp r s l else 0 := by
    rw [sum_comm (f := fun i l => if l < i then W l i * dxds i * sp r s l else 0)]
    simp only [← sum_add_distrib]
    refine sum_congr rfl fun i _ => sum_congr rfl fun l _ => ?_
    split_ifs <;> ring
  rw [a1, ← sum_add_distrib]
  refine sum_congr rfl fun i _ => ?_
  rw [mul_sum, ← sum_add_distrib]
  refine sum_congr rfl fun l _ => ?_
  unfold pair
  rcases lt_trichotomy i l with h | h | h
  · simp [h, h.not_gt]; ring
  · subst h; simp
  · simp [h, h.not_gt]; ring

lemma affinity_eq (t p : ℝ) (r : Fin 18 → ℝ) (s : ℝ) : affinity P t p r s = evS (P.kG t p) r s
    + R * t * c1 (fun i => 0 < sp r s i) (0 < sp r s w ∧ sp r s w < 1) (sp r s) dxds := rfl

lemma stiffness_eq (t p : ℝ) (r : Fin 18 → ℝ) (s : ℝ) : stiffness P t p r s = 2 * (P.kG t p).ss
    + R * t * c2 (fun i => 0 < sp r s i) (0 < sp r s w ∧ sp r s w < 1) (sp r s) dxds dxds := rfl

/-- All four species of the reaction are present. -/
def Open4 (r : Fin 18 → ℝ) (s : ℝ) : Prop := 0 < sp r s 0 ∧ 0 < sp r s 19 ∧ 0 < sp r s 10 ∧ 0 < sp r s 14

lemma c1_open {r : Fin 18 → ℝ} {s : ℝ} (h : Open4 r s) :
    c1 (fun i => 0 < sp r s i) (0 < sp r s w ∧ sp r s w < 1) (sp r s) dxds
      = Real.log (sp r s 0) + Real.log (sp r s 19) - Real.log (sp r s 10) - Real.log (sp r s 14) := by
  obtain ⟨h0, h1, h2, h3⟩ := h
  unfold c1
  have hw : dxds w = 0 := by simp [dxds, w]
  have e : ∑ i, (if 0 < sp r s i then dxds i * (1 + Real.log (sp r s i)) else 0)
      = ∑ i, dxds i * (if 0 < sp r s i then 1 + Real.log (sp r s i) else 0) :=
    sum_congr rfl fun i _ => by split_ifs <;> simp
  rw [e, sum_dxds]
  simp only [hw, zero_mul, ite_self, add_zero]
  rw [if_pos h0, if_pos h1, if_pos h2, if_pos h3]
  ring

lemma c2_open {r : Fin 18 → ℝ} {s : ℝ} (h : Open4 r s) :
    c2 (fun i => 0 < sp r s i) (0 < sp r s w ∧ sp r s w < 1) (sp r s) dxds dxds
      = 1 / sp r s 0 + 1 / sp r s 19 + 1 / sp r s 10 + 1 / sp r s 14 := by
  obtain ⟨h0, h1, h2, h3⟩ := h
  unfold c2
  have hw : dxds w = 0 := by simp [dxds, w]
  have e : ∑ i, (if 0 < sp r s i then dxds i * dxds i / sp r s i else 0)
      = ∑ i, dxds i * (if 0 < sp r s i then dxds i / sp r s i else 0) :=
    sum_congr rfl fun i _ => by split_ifs <;> simp [mul_div_assoc]
  rw [e, sum_dxds]
  simp only [hw, zero_mul, ite_self, add_zero]
  rw [if_pos h0, if_pos h1, if_pos h2, if_pos h3]
  simp [dxds]
  ring

/-- **C66.** Law of mass action: where all four species of the reaction are present, the affinity `order()` drives
to zero is the difference of the species' energies plus `RT` times the logarithm of the quotient of their mole
fractions. -/
theorem C66_affinity (hT : P.T.Exact) (t p : ℝ) {r : Fin 18 → ℝ} {s : ℝ} (h : Open4 r s) :
    affinity P t p r s = speciesG P t p (sp r s) 0 + speciesG P t p (sp r s) 19 - speciesG P t p (sp r s) 10
      - speciesG P t p (sp r s) 14 + R * t * Real.log (sp r s 0 * sp r s 19 / (sp r s 10 * sp r s 14)) := by
  rw [affinity_eq, c1_open h]
  unfold Par.kG
  rw [evS_regular hT]
  have := sum_dxds (speciesG P t p (sp r s))
  unfold speciesG at this ⊢
  rw [this]
  obtain ⟨h0, h1, h2, h3⟩ := h
  rw [Real.log_div (mul_pos h0 h1).ne' (mul_pos h2 h3).ne', Real.log_mul h0.ne' h1.ne', Real.log_mul h2.ne' h3.ne']
  ring

/-- **C66.** At equilibrium the reaction quotient is the equilibrium constant (with the interactions of the species). -/
theorem C66_mass_action (hT : P.T.Exact) {t : ℝ} (ht : 0 < t) (p : ℝ) {r : Fin 18 → ℝ} {s : ℝ} (h : Open4 r s) :
    affinity P t p r s = 0 ↔ sp r s 0 * sp r s 19 / (sp r s 10 * sp r s 14)
      = Real.exp (-(speciesG P t p (sp r s) 0 + speciesG P t p (sp r s) 19 - speciesG P t p (sp r s) 10
        - speciesG P t p (sp r s) 14) / (R * t)) := by
  rw [C66_affinity P hT t p h]
  set q := sp r s 0 * sp r s 19 / (sp r s 10 * sp r s 14) with hq
  have hq0 : 0 < q := div_pos (mul_pos h.1 h.2.1) (mul_pos h.2.2.1 h.2.2.2)
  set d := speciesG P t p (sp r s) 0 + speciesG P t p (sp r s) 19 - speciesG P t p (sp r s) 10
      - speciesG P t p (sp r s) 14 with hd
  have hR : 0 < R * t := mul_pos R_pos ht
  constructor
  · intro e
    rw [← Real.exp_log hq0]
    congr 1
    rw [eq_div_iff hR.ne']; linarith
  · intro e
    rw [e, Real.log_exp]
    rw [mul_div_cancel₀ _ hR.ne']; ring

/-! ### Existence and uniqueness -/

lemma sp0 (r : Fin 18 → ℝ) (s : ℝ) : sp r s 0 = 1 - ∑ j, r j + s := rfl
lemma sp10 (r : Fin 18 → ℝ) (s : ℝ) : sp r s 10 = r 9 - s := by
  have := sp_succ r s 9
  simpa using this
lemma sp14 (r : Fin 18 → ℝ) (s : ℝ) : sp r s 14 = r 13 - s := by
  have := sp_succ r s 13
  simpa using this

/-- Largest amount of carbonate. -/
def upper (r : Fin 18 → ℝ) : ℝ := min (r 9) (r 13)

lemma open4_iff {r : Fin 18 → ℝ} {s : ℝ} : Open4 r s ↔ lower r < s ∧ s < upper r := by
  unfold Open4 lower upper
  rw [sp0, sp10, sp14, sp_last, max_lt_iff, lt_min_iff]
  constructor
  · rintro ⟨a, b, c, d⟩; exact ⟨⟨by linarith, b⟩, by linarith, by linarith⟩
  · rintro ⟨⟨a, b⟩, c, d⟩; exact ⟨by linarith, b, by linarith, by linarith⟩

lemma hd_affinity (t p : ℝ) {r : Fin 18 → ℝ} {s : ℝ} (h : Open4 r s) :
    HasDerivAt (affinity P t p r) (stiffness P t p r s) s := by
  have hn : ∀ᶠ s' in 𝓝 s, Open4 r s' := by
    rw [open4_iff] at h
    filter_upwards [Ioo_mem_nhds h.1 h.2] with s' hs
    exact open4_iff.2 hs
  have h1 : HasDerivAt (fun s => evS (P.kG t p) r s + R * t * (Real.log (sp r s 0) + Real.log (sp r s 19)
      - Real.log (sp r s 10) - Real.log (sp r s 14))) (stiffness P t p r s) s := by
    rw [stiffness_eq, c2_open h]
    obtain ⟨h0, h1, h2, h3⟩ := h
    have a : HasDerivAt (fun s => evS (P.kG t p) r s) (2 * (P.kG t p).ss) s := by
      unfold evS
      have := ((((hasDerivAt_id' s).const_mul (P.kG t p).ss).const_add (P.kG t p).s).add
        ((hasDerivAt_id' s).const_mul (P.kG t p).ss)).add_const (∑ j, (P.kG t p).rs j * r j)
      exact this.congr_deriv (by ring)
    have l0 := (hd_sp r s 0).log h0.ne'
    have l1 := (hd_sp r s 19).log h1.ne'
    have l2 := (hd_sp r s 10).log h2.ne'
    have l3 := (hd_sp r s 14).log h3.ne'
    have d0 : dxds 0 = 1 := by simp [dxds]
    have d1 : dxds 19 = 1 := by simp [dxds]
    have d2 : dxds 10 = -1 := by simp [dxds]
    have d3 : dxds 14 = -1 := by simp [dxds]
    rw [d0] at l0; rw [d1] at l1; rw [d2] at l2; rw [d3] at l3
    exact (a.add ((((l0.add l1).sub l2).sub l3).const_mul (R * t))).congr_deriv (by ring)
  refine h1.congr_of_eventuallyEq ?_
  filter_upwards [hn] with s' hs
  rw [affinity_eq, c1_open hs]

lemma four_le {a b c d : ℝ} (ha : 0 < a) (hb : 0 < b) (hc : 0 < c) (hd : 0 < d) (h : a + b + c + d ≤ 1) :
    16 ≤ 1 / a + 1 / b + 1 / c + 1 / d := by
  have k : ∀ x : ℝ, 0 < x → 8 - 16 * x ≤ 1 / x := by
    intro x hx
    rw [le_div_iff₀ hx]
    nlinarith [sq_nonneg (4 * x - 1)]
  linarith [k a ha, k b hb, k c hc, k d hd]

lemma stiffness_ge {t : ℝ} (ht : 0 < t) (p : ℝ) {r : Fin 18 → ℝ} (hr : ∀ j, j ≠ 9 → j ≠ 13 → 0 ≤ r j) {s : ℝ}
    (h : Open4 r s) : 2 * (P.kG t p).ss + 16 * (R * t) ≤ stiffness P t p r s := by
  rw [stiffness_eq, c2_open h]
  have hR : 0 < R * t := mul_pos R_pos ht
  have hsum : sp r s 0 + sp r s 19 + sp r s 10 + sp r s 14 ≤ 1 := by
    have h1 := sp_sum r s
    have h2 : ∑ i ∈ ({0, 19, 10, 14} : Finset (Fin 20)), sp r s i ≤ ∑ i, sp r s i := by
      refine sum_le_sum_of_subset_of_nonneg (subset_univ _) fun i _ hi => ?_
      rcases fin20 i with e | e | ⟨j, e⟩
      · subst e; exact h.1.le
      · subst e; exact h.2.1.le
      · by_cases h9 : j = 9
        · subst h9; exact absurd (by rw [e]; decide) hi
        by_cases h13 : j = 13
        · subst h13; exact absurd (by rw [e]; decide) hi
        rw [e, sp_succ, if_neg (by tauto), sub_zero]
        exact hr j h9 h13
    rw [sum_insert (by decide), sum_insert (by decide), sum_insert (by decide), sum_singleton] at h2
    linarith
  have := four_le h.1 h.2.1 h.2.2.1 h.2.2.2 hsum
  nlinarith [mul_le_mul_of_nonneg_left this hR.le]

/-- **C66.** Whenever carbonate can form at all, there is a state of the reaction, with all four species present, at
which it is in equilibrium. -/
theorem C66_equilibrium_exists {t : ℝ} (ht : 0 < t) (p : ℝ) {r : Fin 18 → ℝ} (h : lower r < upper r) :
    ∃ s, Open4 r s ∧ affinity P t p r s = 0 := by
  have hR : 0 < R * t := mul_pos R_pos ht
  set a := lower r with ha
  set b := upper r with hb
  have hopen : ∀ s ∈ Set.Ioo a b, Open4 r s := fun s hs => open4_iff.2 hs
  have hev : Continuous fun s => evS (P.kG t p) r s := by unfold evS; fun_prop
  have hsp : ∀ i, Continuous fun s => sp r s i := fun i =>
    continuous_iff_continuousAt.2 fun s => (hd_sp r s i).continuousAt
  have eqf : ∀ s ∈ Set.Ioo a b, affinity P t p r s = evS (P.kG t p) r s + R * t * ((Real.log (sp r s 0)
      + Real.log (sp r s 19)) + -(Real.log (sp r s 10) + Real.log (sp r s 14))) := by
    intro s hs
    rw [affinity_eq, c1_open (hopen s hs)]; ring
  -- near the lower end
  have pos10 : 0 < sp r a 10 := by rw [sp10]; have := h.trans_le (min_le_left (r 9) (r 13)); linarith
  have pos14 : 0 < sp r a 14 := by rw [sp14]; have := h.trans_le (min_le_right (r 9) (r 13)); linarith
  have low : ∃ s ∈ Set.Ioo a b, affinity P t p r s < 0 := by
    have hlog0 : Tendsto (fun s => Real.log (sp r s 0) + Real.log (sp r s 19)) (𝓝[>] a) atBot := by
      have gen : ∀ u v : ℝ → ℝ, Continuous u → Continuous v → (∀ s, a < s → 0 < u s) → u a = 0 → 0 ≤ v a →
          Tendsto (fun s => Real.log (u s) + Real.log (v s)) (𝓝[>] a) atBot := by
        intro u v hu hv hpos hu0 hv0
        have tu : Tendsto (fun s => Real.log (u s)) (𝓝[>] a) atBot := by
          refine Real.tendsto_log_nhdsNE_zero.comp ?_
          refine tendsto_nhdsWithin_iff.2 ⟨?_, ?_⟩
          · have := (hu.tendsto a).mono_left (nhdsWithin_le_nhds (s := Set.Ioi a)); rwa [hu0] at this
          · filter_upwards [self_mem_nhdsWithin] with s hs using (hpos s hs).ne'
        have tv : ∀ᶠ s in 𝓝[>] a, Real.log (v s) ≤ |v a| + 1 := by
          have h1 : ∀ᶠ s in 𝓝 a, v s < v a + 1 := hv.continuousAt.eventually_lt_const (by linarith)
          have h2 : ∀ᶠ s in 𝓝 a, -(v a) - 1 < v s := hv.continuousAt.eventually_const_lt (by linarith)
          filter_upwards [nhdsWithin_le_nhds h1, nhdsWithin_le_nhds h2] with s hs hs'
          rw [← Real.log_abs]
          rcases eq_or_ne (v s) 0 with e | e
          · rw [e]; simp; positivity
          · have := Real.log_le_sub_one_of_pos (abs_pos.2 e)
            have : |v s| ≤ |v a| + 1 := by
              rw [abs_of_nonneg hv0]
              rw [abs_le]; constructor <;> linarith
            linarith
        exact tendsto_atBot_add_right_of_ge' _ _ tu tv
      rcases le_total (∑ j, r j - 1) 0 with hs | hs
      · have hl : a = 0 := by rw [ha, lower, max_eq_right hs]
        have := gen (fun s => sp r s 19) (fun s => sp r s 0) (hsp 19) (hsp 0)
          (fun s hs' => by rw [sp_last]; linarith) (by simp [sp_last, hl]) (by simp only [sp0]; linarith)
        exact this.congr fun s => by ring
      · have hl : a = ∑ j, r j - 1 := by rw [ha, lower, max_eq_left hs]
        exact gen (fun s => sp r s 0) (fun s => sp r s 19) (hsp 0) (hsp 19)
          (fun s hs' => by simp only [sp0]; linarith) (by simp only [sp0]; linarith) (by simp only [sp_last]; linarith)
    have hb1 : ContinuousAt (fun s => -(Real.log (sp r s 10) + Real.log (sp r s 14))) a :=
      (((hsp 10).continuousAt.log pos10.ne').add ((hsp 14).continuousAt.log pos14.ne')).neg
    have h1 := (hlog0.atBot_add (hb1.tendsto.mono_left nhdsWithin_le_nhds)).const_mul_atBot hR
    have h2 := (hev.continuousAt.tendsto.mono_left nhdsWithin_le_nhds).add_atBot h1
    have h3 : ∀ᶠ s in 𝓝[>] a, s ∈ Set.Ioo a b := Ioo_mem_nhdsGT h
    obtain ⟨s, hs, hs'⟩ := ((h2.eventually_lt_atBot 0).and h3).exists
    exact ⟨s, hs', by rw [eqf s hs']; exact hs⟩
  -- near the upper end
  have pos0 : 0 < sp r b 0 := by
    rw [sp0]; have := (le_max_left (∑ j, r j - 1) 0).trans_lt h; linarith
  have pos19 : 0 < sp r b 19 := by
    rw [sp_last]; exact (le_max_right (∑ j, r j - 1) 0).trans_lt h
  have high : ∃ s ∈ Set.Ioo a b, 0 < affinity P t p r s := by
    have hlog0 : Tendsto (fun s => -(Real.log (sp r s 10) + Real.log (sp r s 14))) (𝓝[<] b) atTop := by
      rw [tendsto_neg_atTop_iff]
      have gen : ∀ u v : ℝ → ℝ, Continuous u → Continuous v → (∀ s, s < b → 0 < u s) → u b = 0 → 0 ≤ v b →
          Tendsto (fun s => Real.log (u s) + Real.log (v s)) (𝓝[<] b) atBot := by
        intro u v hu hv hpos hu0 hv0
        have tu : Tendsto (fun s => Real.log (u s)) (𝓝[<] b) atBot := by
          refine Real.tendsto_log_nhdsNE_zero.comp ?_
          refine tendsto_nhdsWithin_iff.2 ⟨?_, ?_⟩
          · have := (hu.tendsto b).mono_left (nhdsWithin_le_nhds (s := Set.Iio b)); rwa [hu0] at this
          · filter_upwards [self_mem_nhdsWithin] with s hs using (hpos s hs).ne'
        have tv : ∀ᶠ s in 𝓝[<] b, Real.log (v s) ≤ |v b| + 1 := by
          have h1 : ∀ᶠ s in 𝓝 b, v s < v b + 1 := hv.continuousAt.eventually_lt_const (by linarith)
          have h2 : ∀ᶠ s in 𝓝 b, -(v b) - 1 < v s := hv.continuousAt.eventually_const_lt (by linarith)
          filter_upwards [nhdsWithin_le_nhds h1, nhdsWithin_le_nhds h2] with s hs hs'
          rw [← Real.log_abs]
          rcases eq_or_ne (v s) 0 with e | e
          · rw [e]; simp; positivity
          · have := Real.log_le_sub_one_of_pos (abs_pos.2 e)
            have : |v s| ≤ |v b| + 1 := by
              rw [abs_of_nonneg hv0]
              rw [abs_le]; constructor <;> linarith
            linarith
        exact tendsto_atBot_add_right_of_ge' _ _ tu tv
      rcases le_total (r 9) (r 13) with hs | hs
      · have hl : b = r 9 := by rw [hb, upper, min_eq_left hs]
        exact gen (fun s => sp r s 10) (fun s => sp r s 14) (hsp 10) (hsp 14)
          (fun s hs' => by simp only [sp10]; linarith) (by simp only [sp10]; linarith) (by simp only [sp14]; linarith)
      · have hl : b = r 13 := by rw [hb, upper, min_eq_right hs]
        have := gen (fun s => sp r s 14) (fun s => sp r s 10) (hsp 14) (hsp 10)
          (fun s hs' => by simp only [sp14]; linarith) (by simp only [sp14]; linarith) (by simp only [sp10]; linarith)
        exact this.congr fun s => by ring
    have hb1 : ContinuousAt (fun s => Real.log (sp r s 0) + Real.log (sp r s 19)) b :=
      ((hsp 0).continuousAt.log pos0.ne').add ((hsp 19).continuousAt.log pos19.ne')
    have h1 := ((hb1.tendsto.mono_left nhdsWithin_le_nhds).add_atTop hlog0).const_mul_atTop hR
    have h2 := (hev.continuousAt.tendsto.mono_left nhdsWithin_le_nhds).add_atTop h1
    have h3 : ∀ᶠ s in 𝓝[<] b, s ∈ Set.Ioo a b := Ioo_mem_nhdsLT h
    obtain ⟨s, hs, hs'⟩ := ((h2.eventually_gt_atTop 0).and h3).exists
    exact ⟨s, hs', by rw [eqf s hs']; exact hs⟩
  obtain ⟨s1, m1, n1⟩ := low
  obtain ⟨s2, m2, n2⟩ := high
  have hc : ContinuousOn (affinity P t p r) (Set.uIcc s1 s2) := by
    intro s hs
    have hs' : s ∈ Set.Ioo a b := by
      rcases Set.mem_uIcc.1 hs with h | h
      · exact ⟨m1.1.trans_le h.1, h.2.trans_lt m2.2⟩
      · exact ⟨m2.1.trans_le h.1, h.2.trans_lt m1.2⟩
    exact (hd_affinity P t p (hopen s hs')).continuousAt.continuousWithinAt
  have h0 : (0 : ℝ) ∈ Set.uIcc (affinity P t p r s1) (affinity P t p r s2) :=
    Set.mem_uIcc.2 (.inl ⟨n1.le, n2.le⟩)
  obtain ⟨s, hs, e⟩ := intermediate_value_uIcc hc h0
  refine ⟨s, hopen s ?_, e⟩
  rcases Set.mem_uIcc.1 hs with h | h
  · exact ⟨m1.1.trans_le h.1, h.2.trans_lt m2.2⟩
  · exact ⟨m2.1.trans_le h.1, h.2.trans_lt m1.2⟩

/-- The affinity increases at least at the rate `m`. -/
lemma affinity_expand {t : ℝ} (ht : 0 < t) (p : ℝ) {r : Fin 18 → ℝ} (hr : ∀ j, j ≠ 9 → j ≠ 13 → 0 ≤ r j) {a b : ℝ}
    (ha : Open4 r a) (hb : Open4 r b) (hab : a ≤ b) :
    (2 * (P.kG t p).ss + 16 * (R * t)) * (b - a) ≤ affinity P t p r b - affinity P t p r a := by
  have hin : ∀ s ∈ Set.Icc a b, Open4 r s := fun s hs => by
    rw [open4_iff] at ha hb ⊢; exact ⟨ha.1.trans_le hs.1, hs.2.trans_lt hb.2⟩
  refine (convex_Icc a b).mul_sub_le_image_sub_of_le_deriv
    (fun s hs => (hd_affinity P t p (hin s hs)).continuousAt.continuousWithinAt)
    (fun s hs => (hd_affinity P t p (hin s (interior_subset hs))).differentiableAt.differentiableWithinAt)
    (fun s hs => ?_) a (Set.left_mem_Icc.2 hab) b (Set.right_mem_Icc.2 hab) hab
  rw [(hd_affinity P t p (hin s (interior_subset hs))).deriv]
  exact stiffness_ge P ht p hr (hin s (interior_subset hs))

/-- **C66.** Unless the interaction parameters make the liquid unmix along the reaction, the equilibrium is unique. -/
theorem C66_equilibrium_unique {t : ℝ} (ht : 0 < t) (p : ℝ) {r : Fin 18 → ℝ} (hr : ∀ j, j ≠ 9 → j ≠ 13 → 0 ≤ r j)
    (hm : 0 < 2 * (P.kG t p).ss + 16 * (R * t)) {a b : ℝ} (ha : Open4 r a) (hb : Open4 r b)
    (ea : affinity P t p r a = 0) (eb : affinity P t p r b = 0) : a = b := by
  rcases le_total a b with h | h
  · have := affinity_expand P ht p hr ha hb h
    rw [ea, eb] at this
    nlinarith
  · have := affinity_expand P ht p hr hb ha h
    rw [ea, eb] at this
    nlinarith

/-! ### The initial guess -/

lemma feasible_iff {r : Fin 18 → ℝ} (hr : ∀ j, 0 ≤ r j) {s : ℝ} : Feasible r s ↔ lower r ≤ s ∧ s ≤ upper r := by
  unfold Feasible lower upper
  rw [max_le_iff, le_min_iff]
  constructor
  · intro h
    have h0 := h 0
    have h1 := h 19
    have h2 := h 10
    have h3 := h 14
    rw [sp0] at h0; rw [sp_last] at h1; rw [sp10] at h2; rw [sp14] at h3
    exact ⟨⟨by linarith, h1⟩, by linarith, by linarith⟩
  · rintro ⟨⟨a, b⟩, c, d⟩ i
    rcases fin20 i with e | e | ⟨j, e⟩
    · subst e; rw [sp0]; linarith
    · subst e; rw [sp_last]; exact b
    · subst e; rw [sp_succ]
      split_ifs with h
      · rcases h with h | h <;> subst h <;> linarith
      · rw [sub_zero]; exact hr j

lemma sqrtEps_pos : 0 < sqrtEps := by unfold sqrtEps; positivity

/-- Where the bisection ends. -/
lemma bisect_spec {r : Fin 18 → ℝ} (hr : ∀ j, 0 ≤ r j) (h1 : lower r = 0) (n : ℕ) (s : ℝ)
    (hs : 2 ^ (n + 1) * sqrtEps ≤ s) (hd : |s - upper r| ≤ 2 ^ (n + 1) * sqrtEps) :
    2 * sqrtEps ≤ bisect r n s ∧ |bisect r n s - upper r| ≤ 2 * sqrtEps ∧
      (upper r < 2 * sqrtEps → s = 2 ^ (n + 1) * sqrtEps → bisect r n s = 2 * sqrtEps) := by
  have hp := sqrtEps_pos
  induction n generalizing s with
  | zero => exact ⟨by simpa [bisect] using hs, by simpa [bisect] using hd, fun _ e => by simpa [bisect] using e⟩
  | succ n ih =>
    have hc : 0 < 2 ^ (n + 1) * sqrtEps := by positivity
    have e2 : (2 : ℝ) ^ (n + 1 + 1) * sqrtEps = 2 * (2 ^ (n + 1) * sqrtEps) := by ring
    have hge : 2 * sqrtEps ≤ 2 ^ (n + 1) * sqrtEps :=
      mul_le_mul_of_nonneg_right (by
        have : (1 : ℝ) ≤ 2 ^ n := one_le_pow₀ (by norm_num)
        rw [pow_succ]; linarith) hp.le
    rw [e2] at hs hd ⊢
    have hf := feasible_iff hr (s := s)
    rw [h1] at hf
    obtain ⟨d1, d2⟩ := abs_le.1 hd
    unfold bisect
    by_cases h : Feasible r s
    · rw [if_neg (not_not.2 h)]
      have hu := (hf.1 h).2
      obtain ⟨a, b, -⟩ := ih (s + 2 ^ (n + 1) * sqrtEps) (by linarith) (by rw [abs_le]; constructor <;> linarith)
      refine ⟨a, b, fun hlt e => ?_⟩
      linarith
    · rw [if_pos h]
      have hu : upper r < s := by
        by_contra hc'
        exact h (hf.2 ⟨by linarith, not_lt.1 hc'⟩)
      obtain ⟨a, b, c⟩ := ih (s - 2 ^ (n + 1) * sqrtEps) (by linarith) (by rw [abs_le]; constructor <;> linarith)
      exact ⟨a, b, fun hlt e => c hlt (by linarith)⟩

lemma shrink_of_feasible {r : Fin 18 → ℝ} {s0 c : ℝ} (n : ℕ) (f : ℝ) {s : ℝ} (h : Feasible r s) :
    shrink r s0 c n f s = s := by
  cases n with
  | zero => rfl
  | succ n => unfold shrink; rw [if_neg (fun a => a.2 h)]

lemma lower_zero {r : Fin 18 → ℝ} (h : ∑ j, r j ≤ 1) : lower r = 0 := by
  unfold lower; exact max_eq_right (by linarith)

lemma upper_le_one {r : Fin 18 → ℝ} (hr : ∀ j, 0 ≤ r j) (h : ∑ j, r j ≤ 1) : upper r ≤ 1 :=
  (min_le_left _ _).trans ((single_le_sum (f := r) (fun j _ => hr j) (mem_univ 9)).trans h)

/-- **C66.** The initial guess for the amount of carbonate.  In every liquid without negative components it is
feasible; it is positive exactly when the amounts of CaSiO3 and CO2 are both at least `sqrt(DBL_EPSILON)`. -/
theorem C66_initial_guess {r : Fin 18 → ℝ} (hr : ∀ j, 0 ≤ r j) (h1 : ∑ j, r j ≤ 1) :
    Feasible r (guess r) ∧ (sqrtEps ≤ r 9 ∧ sqrtEps ≤ r 13 → sqrtEps ≤ guess r) ∧
      (¬(sqrtEps ≤ r 9 ∧ sqrtEps ≤ r 13) → guess r = 0) := by
  have hp := sqrtEps_pos
  have hl := lower_zero h1
  have hu1 := upper_le_one hr h1
  have hu0 : 0 ≤ upper r := le_min (hr 9) (hr 13)
  have hiff : Feasible r (lower r + sqrtEps) ↔ sqrtEps ≤ r 9 ∧ sqrtEps ≤ r 13 := by
    rw [feasible_iff hr, hl, zero_add]
    unfold upper
    rw [le_min_iff]
    exact ⟨fun h => h.2, fun h => ⟨hp.le, h⟩⟩
  unfold guess
  simp only
  by_cases h : Feasible r (lower r + sqrtEps)
  · have hge : sqrtEps ≤ upper r := by have := ((feasible_iff hr).1 h).2; rwa [hl, zero_add] at this
    rw [if_neg (not_not.2 h)]
    simp only [hl, add_zero, sub_zero]
    have e1 : (2 : ℝ) ^ (25 + 1) * sqrtEps = 1 := by unfold sqrtEps; norm_num
    obtain ⟨a, b, c⟩ := bisect_spec hr hl 25 1 e1.le (by rw [e1, abs_le]; constructor <;> linarith)
    have hf : Feasible r (bisect r 25 1 / 2) := by
      rw [feasible_iff hr, hl]
      refine ⟨by linarith, ?_⟩
      by_cases hlt : upper r < 2 * sqrtEps
      · rw [c hlt e1.symm]; linarith
      · have := (abs_le.1 b).2
        linarith [not_lt.1 hlt]
    rw [shrink_of_feasible _ _ hf]
    exact ⟨hf, fun _ => by linarith, fun hn => absurd (hiff.1 h) hn⟩
  · rw [if_pos h]
    simp only [hl, add_zero, sub_zero]
    have hf : Feasible r (0 / 2 : ℝ) := by
      rw [feasible_iff hr, hl]; simpa using hu0
    rw [shrink_of_feasible _ _ hf]
    exact ⟨hf, fun hn => absurd (hiff.2 hn) h, fun _ => by norm_num⟩

lemma bisect_below {r : Fin 18 → ℝ} (hr : ∀ j, 0 ≤ r j) (n : ℕ) {s : ℝ} (h : s < lower r) : bisect r n s ≤ s := by
  have hp := sqrtEps_pos
  induction n generalizing s with
  | zero => exact le_refl s
  | succ n ih =>
    have hc : 0 < 2 ^ (n + 1) * sqrtEps := by positivity
    have hn : ¬Feasible r s := fun hf => absurd ((feasible_iff hr).1 hf).1 (not_le.2 h)
    unfold bisect
    rw [if_pos hn]
    exact (ih (by linarith)).trans (by linarith)

lemma shrink_below {r : Fin 18 → ℝ} {s0 c : ℝ} (hc : c < 0) (n : ℕ) {f s : ℝ} (hf : 0 < f) (h : s < s0) :
    shrink r s0 c n f s < s0 := by
  induction n generalizing f s with
  | zero => exact h
  | succ n ih =>
    unfold shrink
    split_ifs
    · exact ih (by linarith) (by nlinarith)
    · exact h

/-- **C66.** What the initial guess does not do: in a liquid whose components sum to more than 1.5, the carbonate
making up for the missing SiO2, there are feasible amounts of carbonate but the bisection goes down when it is
already too low, and the guess is infeasible (the code then prints a message and aborts). -/
theorem C66_initial_guess_silica_poor {r : Fin 18 → ℝ} (hr : ∀ j, 0 ≤ r j) (h1 : 3 / 2 < ∑ j, r j) (h2 : upper r < 1)
    (h3 : ∑ j, r j - 1 + sqrtEps ≤ upper r) :
    Feasible r (∑ j, r j - 1 + sqrtEps) ∧ ¬Feasible r (guess r) := by
  have hp := sqrtEps_pos
  have hl : lower r = ∑ j, r j - 1 := max_eq_left (by linarith)
  have hf : Feasible r (lower r + sqrtEps) := by
    rw [feasible_iff hr]; exact ⟨by linarith, by rw [hl]; exact h3⟩
  refine ⟨hl ▸ hf, fun hg => absurd ((feasible_iff hr).1 hg).1 (not_le.2 ?_)⟩
  have e : bisect r 25 1 ≤ 1 / 2 := by
    have hn : ¬Feasible r 1 := fun h => absurd ((feasible_iff hr).1 h).2 (not_le.2 h2)
    unfold bisect
    rw [if_pos hn]
    have e1 : (1 : ℝ) - 2 ^ (24 + 1) * sqrtEps = 1 / 2 := by unfold sqrtEps; norm_num
    rw [e1]
    exact bisect_below hr 24 (by rw [hl]; linarith)
  unfold guess
  simp only
  rw [if_neg (not_not.2 hf)]
  exact shrink_below (by rw [hl]; linarith) 26 one_pos (by rw [hl]; linarith)

/-! ### The Newton loop -/

lemma search_feasible {r : Fin 18 → ℝ} {s δ : ℝ} {n : ℕ} {l s' : ℝ} (h : search r s δ n l = some s') :
    Feasible r s' := by
  induction n generalizing l with
  | zero => exact absurd h (by simp [search])
  | succ n ih =>
    unfold search at h
    split_ifs at h with hf
    · cases h; exact hf
    · exact ih h

lemma search_zero {r : Fin 18 → ℝ} {s : ℝ} (h : Feasible r s) (n : ℕ) (l : ℝ) : search r s 0 (n + 1) l = some s := by
  unfold search
  simp [h]

lemma newton_feasible {d1 d2 : ℝ → ℝ} {r : Fin 18 → ℝ} (n : ℕ) {s : ℝ} (h : Feasible r s) :
    Feasible r (newton d1 d2 r n s).1 := by
  induction n generalizing s with
  | zero =>
    unfold newton
    cases search r s (newtonStep d1 d2 s) 1023 1 <;> exact h
  | succ n ih =>
    unfold newton
    cases e : search r s (newtonStep d1 d2 s) 1023 1 with
    | none => exact h
    | some s' =>
      simp only
      split_ifs
      · exact ih (search_feasible e)
      · exact h

lemma newton_zero {d1 d2 : ℝ → ℝ} {r : Fin 18 → ℝ} (n : ℕ) (h : Feasible r 0) :
    newton d1 d2 r (n + 1) 0 = (0, .converged) := by
  unfold newton
  have : newtonStep d1 d2 0 = 0 := by simp [newtonStep]
  rw [this, search_zero h 1022 1]
  simp

/-- When the loop reports convergence the last step was short. -/
lemma newton_converged {d1 d2 : ℝ → ℝ} {r : Fin 18 → ℝ} (n : ℕ) {s : ℝ} (h : (newton d1 d2 r n s).2 = .converged) :
    ∃ s', search r (newton d1 d2 r n s).1 (newtonStep d1 d2 (newton d1 d2 r n s).1) 1023 1 = some s' ∧
      |s' - (newton d1 d2 r n s).1| ≤ 10 * (1 / 2 ^ 52) := by
  induction n generalizing s with
  | zero =>
    exfalso
    unfold newton at h
    cases e : search r s (newtonStep d1 d2 s) 1023 1 <;> simp [e] at h
  | succ n ih =>
    cases e : search r s (newtonStep d1 d2 s) 1023 1 with
    | none =>
      exfalso
      unfold newton at h
      simp [e] at h
    | some s' =>
      by_cases hs : |s' - s| > 10 * (1 / 2 ^ 52)
      · have eq : newton d1 d2 r (n + 1) s = newton d1 d2 r n s' := by
          rw [newton]; simp only [e, if_pos hs]
        rw [eq] at h ⊢
        exact ih h
      · have eq : newton d1 d2 r (n + 1) s = (s, .converged) := by
          rw [newton]; simp only [e, if_neg hs]
        rw [eq]
        exact ⟨s', e, not_lt.1 hs⟩

/-- **C66.** Whatever the parameters, `order()` ends after at most 200 iterations with a feasible amount of carbonate:
no species has a negative mole fraction. -/
theorem C66_order_feasible (t p : ℝ) {r : Fin 18 → ℝ} (hr : ∀ j, 0 ≤ r j) (h1 : ∑ j, r j ≤ 1) :
    ∀ i, 0 ≤ sp r (order P t p r).1 i :=
  newton_feasible 199 (C66_initial_guess hr h1).1

/-- **C66.** Without CaSiO3 or without CO2 (less than `sqrt(DBL_EPSILON)` of one of them) no carbonate forms. -/
theorem C66_order_none (t p : ℝ) {r : Fin 18 → ℝ} (hr : ∀ j, 0 ≤ r j) (h1 : ∑ j, r j ≤ 1)
    (h : r 9 < sqrtEps ∨ r 13 < sqrtEps) : order P t p r = (0, .converged) := by
  have hg := C66_initial_guess hr h1
  have e : guess r = 0 := hg.2.2 (by rintro ⟨a, b⟩; rcases h with h | h <;> linarith)
  unfold order
  rw [e]
  exact newton_zero 198 (e ▸ hg.1)

/-- **C66.** When `order()` reports convergence after a full Newton step, the amount of carbonate is the equilibrium
one up to `10 DBL_EPSILON` times a condition number: the stiffness there over its lower bound. -/
theorem C66_order_accuracy {t : ℝ} (ht : 0 < t) (p : ℝ) {r : Fin 18 → ℝ} (hr : ∀ j, 0 ≤ r j)
    (hm : 0 < 2 * (P.kG t p).ss + 16 * (R * t)) (hc : (order P t p r).2 = .converged)
    (hs : Open4 r (order P t p r).1)
    (hfull : Feasible r ((order P t p r).1 - affinity P t p r (order P t p r).1 / stiffness P t p r (order P t p r).1))
    {a : ℝ} (ha : Open4 r a) (ea : affinity P t p r a = 0) :
    |(order P t p r).1 - a| ≤ 10 * (1 / 2 ^ 52)
      * (stiffness P t p r (order P t p r).1 / (2 * (P.kG t p).ss + 16 * (R * t))) := by
  obtain ⟨s', e, hs'⟩ := newton_converged 199 hc
  change search r (order P t p r).1 (newtonStep (affinity P t p r) (stiffness P t p r) (order P t p r).1) 1023 1 = some s' at e
  change |s' - (order P t p r).1| ≤ _ at hs'
  set s := (order P t p r).1 with hsd
  have hne : s ≠ 0 := by
    have := hs.2.1; rw [sp_last] at this; exact this.ne'
  have hst : newtonStep (affinity P t p r) (stiffness P t p r) s = -(affinity P t p r s / stiffness P t p r s) := by
    unfold newtonStep; rw [if_neg hne, neg_div]
  rw [hst] at e
  unfold search at e
  rw [one_mul, ← sub_eq_add_neg, if_pos hfull] at e
  injection e with e
  have hge := stiffness_ge P ht p (fun j _ _ => hr j) hs
  have hk : 0 < stiffness P t p r s := hm.trans_le hge
  have hd : |affinity P t p r s| ≤ 10 * (1 / 2 ^ 52) * stiffness P t p r s := by
    have : s' - s = -(affinity P t p r s / stiffness P t p r s) := by rw [← e]; ring
    rw [this, abs_neg, abs_div, abs_of_pos hk, div_le_iff₀ hk] at hs'
    exact hs'
  rw [← mul_div_assoc, le_div_iff₀ hm]
  refine le_trans ?_ hd
  rcases le_total s a with h | h
  · have := affinity_expand P ht p (fun j _ _ => hr j) hs ha h
    rw [ea] at this
    rw [abs_of_nonpos (sub_nonpos.2 h)]
    refine le_trans ?_ (neg_le_abs _)
    linarith
  · have := affinity_expand P ht p (fun j _ _ => hr j) ha hs h
    rw [ea] at this
    rw [abs_of_nonneg (sub_nonneg.2 h)]
    refine le_trans ?_ (le_abs_self _)
    linarith

end

end Verif.Thermo.LiquidCO2
