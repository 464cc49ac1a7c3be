import Verif.Engine.SystemProps

/-!
Model of `linearSearch`, /repo/sources/linear_search.c 165-785, without an oxygen buffer (`fo2Path == FO2_NONE`): the function
that the line search minimises along the step of the quadratic program.

Simplifications: real numbers; the moles of a solution phase (`solidComp[i][ns]`) are the sum of the moles of its end members;
mixing properties, standard states, conversions and the tests of the phases are arguments of the model, as in
`Verif/Engine/System.lean`; end members that the first liquid lacks are absent from all liquids (their standard states are
not brought to the new temperature, 362-363).
-/

namespace Magma.Engine.System

open Finset Filter Topology Magma.Thermo.Extensive Magma.Thermo.Compo
open Magma.Thermo.Mixing (Mix)
open Verif.Thermo.StdState (Std)

noncomputable section

/-! ### The code -/

/-- linear_search.c 219, 237, 247: the amounts after a step of length `lam` in the direction `x`; the increments of the end
members (`liquidDelta`, `solidDelta`) are the unknowns of their rows, and 0 for those without a row (silmin.c 1039-1099). -/
def Phase.after (ph : Phase) (k : ℕ) (x : ℕ → ℝ) (lam : ℝ) (j : Fin ph.na) : ℝ := ph.m j + lam * ph.amounts k x j

/-- linear_search.c 217-258: the tests of the phases, each with its rows beginning at `k`; `test` is `testLiq` or
`(*solids[i].test)` called with SIXTH. -/
def feasible (test : (ph : Phase) → (Fin ph.na → ℝ) → Bool) (x : ℕ → ℝ) (lam : ℝ) : ℕ → List Phase → Prop
  | _, [] => True
  | k, ph :: L =>
    (if ph.liq then test ph (ph.after k x lam) = true
     else 0 ≤ ∑ j, ph.after k x lam j ∧ (0 < ∑ j, ph.after k x lam j → ph.pure = false → test ph (ph.after k x lam) = true))
    ∧ feasible test x lam (k + ph.slots.length) L

/-- linear_search.c 207-268: what is admitted: at most twice the step, feasible phases, temperature or pressure in range;
`v` is `T + lambda*tDelta` or `P + lambda*pDelta`. -/
def admitted (mode : Mode) (test : (ph : Phase) → (Fin ph.na → ℝ) → Bool) (L : List Phase) (x : ℕ → ℝ) (lam v : ℝ) : Prop :=
  ¬ (lam < -2 ∨ lam > 2) ∧ feasible test x lam 0 L ∧
  match mode with
  | .gibbs => True
  | .isenthalpic | .isentropic => ¬ (v < 298.15 ∨ v > 3000)
  | .isochoric => ¬ (v < 1.013 ∨ v > 50000)

/-- linear_search.c 361-409, 480-519, 602-639: a quantity of the assemblage, standard-state part `q` and mixing part `p` per
mole. -/
def sumOf (q : Std → ℝ) (p : {nr : ℕ} → Mix nr → ℝ → ℝ → (Fin nr → ℝ) → ℝ) (Ts Ps T P : ℝ) (x : ℕ → ℝ) (lam : ℝ) : ℕ → List Phase → ℝ
  | _, [] => 0
  | k, ph :: L =>
    (if ph.pure then (∑ j, ph.after k x lam j * q (ph.std j Ts Ps))
     else (∑ j, ph.after k x lam j * q (ph.std j Ts Ps)) + (∑ j, ph.after k x lam j) * p ph.mix T P (ph.conv.toR (ph.after k x lam)))
    + sumOf q p Ts Ps T P x lam (k + ph.slots.length) L

/-- linear_search.c 319-419, 430-529, 548-650: the rest of the loop with `n` iterations left: `t` is `constraints->T` or `->P`,
`s` where the standard states were last evaluated, `r` the residual. -/
def loop (f : ℝ → ℝ) (upd : ℝ → ℝ → ℝ) (ref tol : ℝ) : ℕ → ℝ → ℝ → ℝ → ℝ × ℝ × ℝ
  | 0, t, s, r => (t, s, r)
  | n + 1, t, s, r => if |r| > tol * |ref| then loop f upd ref tol n (upd t (f t - ref)) t (f t - ref) else (t, s, r)

/-- linear_search.c 315-319, 426-430, 536-548: the loop; `residual` begins as `DBL_MAX`, so that the first of at most 50 iterations is always made. -/
def newton (f : ℝ → ℝ) (upd : ℝ → ℝ → ℝ) (ref tol t : ℝ) : ℝ × ℝ × ℝ :=
  loop f upd ref tol 49 (upd t (f t - ref)) t (f t - ref)

/-- `DBL_EPSILON`. -/
def dblEps : ℝ := 2⁻¹ ^ 52

/-- linear_search.c 314-657: the temperature or pressure at which the constraint holds: its value, where the standard states were last
evaluated, and the last residual. -/
def adjust (mode : Mode) (T P ref : ℝ) (L : List Phase) (x : ℕ → ℝ) (lam v : ℝ) : ℝ × ℝ × ℝ :=
  match mode with
  | .gibbs => (0, 0, 0)
  | .isenthalpic =>
    newton (fun t => sumOf Std.h (fun M => M.h) t P t P x lam 0 L)
      (fun t r => t - r / sumOf Std.cp (fun M => M.cp) t P t P x lam 0 L) ref (10 * dblEps) v
  | .isentropic =>
    newton (fun t => sumOf Std.s (fun M => M.s) t P t P x lam 0 L)
      (fun t r => t - r * t / sumOf Std.cp (fun M => M.cp) t P t P x lam 0 L) ref (10 * dblEps) v
  | .isochoric =>
    newton (fun p => sumOf Std.v (fun M => M.v) T p T p x lam 0 L)
      (fun p r => p - r / sumOf Std.dvdp (fun M => M.vp) T p T p x lam 0 L) ref (100 * dblEps) v

/-- linear_search.c 669-670, 689-760: the potential; standard states at `(Ts, Ps)`, mixing at `(T, P)`. -/
def potential (mode : Mode) (Ts Ps T P : ℝ) (L : List Phase) (x : ℕ → ℝ) (lam : ℝ) : ℝ :=
  match mode with
  | .gibbs => sumOf Std.g (fun M => M.g) Ts Ps T P x lam 0 L
  | .isenthalpic => sumOf (fun F => -F.s) (fun M T P r => -M.s T P r) Ts Ps T P x lam 0 L
  | .isentropic => sumOf Std.h (fun M => M.h) Ts Ps T P x lam 0 L
  | .isochoric => sumOf (fun F => F.g - P * F.v) (fun M T P r => M.g T P r - P * M.v T P r) Ts Ps T P x lam 0 L

/-- `linearSearch`, linear_search.c 165-785: `none` when `*notcomp` is set; the increment of temperature or pressure (`tDelta`, `pDelta`) is
the last unknown. -/
def linearSearch (mode : Mode) (test : (ph : Phase) → (Fin ph.na → ℝ) → Bool) (T P ref : ℝ) (L : List Phase) (x : ℕ → ℝ) (lam : ℝ) :
    Option ℝ := by
  classical
  exact
    let v := mode.var T P + lam * x (rows L).length
    if admitted mode test L x lam v then
      let a := adjust mode T P ref L x lam v
      some (potential mode (mode.at T P a.2.1).1 (mode.at T P a.2.1).2 (mode.at T P a.1).1 (mode.at T P a.1).2 L x lam)
    else none

/-! ### Specification -/

/-- The unknowns after a step, with `θ` for temperature or pressure. -/
def moved (y x : ℕ → ℝ) (N : ℕ) (lam θ : ℝ) (k : ℕ) : ℝ := if k = N then θ else y k + lam * x k

/-! ### Values -/

theorem after_eq (ph : Phase) {k N : ℕ} (hN : k + ph.slots.length ≤ N) (y x : ℕ → ℝ) (hm : ph.amounts k y = ph.m) (lam θ : ℝ) :
    ph.after k x lam = ph.amounts k (moved y x N lam θ) := by
  funext j
  have := congrFun hm j
  unfold Phase.after
  rw [← this]
  unfold Phase.amounts moved
  by_cases h : j ∈ ph.slots
  · have := List.idxOf_lt_length_of_mem h
    rw [if_pos h, if_pos h, if_pos h, if_neg (by omega)]
  · rw [if_neg h, if_neg h, if_neg h, mul_zero, add_zero]

theorem sumOf_total (q : Std → ℝ) (p : {nr : ℕ} → Mix nr → ℝ → ℝ → (Fin nr → ℝ) → ℝ)
    (f : (ph : Phase) → ℝ → ℝ → (Fin ph.na → ℝ) → ℝ) (mode : Mode) (T P : ℝ) (N : ℕ) (y x : ℕ → ℝ) (lam θ : ℝ) :
    ∀ (L : List Phase) (k : ℕ), k + (rows L).length ≤ N → Match N k L y →
      (∀ ph ∈ L, ∀ m, f ph (mode.at T P θ).1 (mode.at T P θ).2 m =
        if ph.pure then ∑ j, m j * q (ph.std j (mode.at T P θ).1 (mode.at T P θ).2)
        else (∑ j, m j * q (ph.std j (mode.at T P θ).1 (mode.at T P θ).2))
          + (∑ j, m j) * p ph.mix (mode.at T P θ).1 (mode.at T P θ).2 (ph.conv.toR m)) →
      sumOf q p (mode.at T P θ).1 (mode.at T P θ).2 (mode.at T P θ).1 (mode.at T P θ).2 x lam k L
        = total f mode T P N k L (moved y x N lam θ) := by
  intro L
  induction L with
  | nil => intro k _ _ _; rfl
  | cons ph L ih =>
    intro k hN hm hf
    simp only [rows, List.length_append, List.length_map] at hN
    have hθ : moved y x N lam θ N = θ := if_pos rfl
    simp only [sumOf, total, hθ]
    rw [hf ph List.mem_cons_self, ← after_eq ph (by omega) y x hm.1 lam θ,
      ih (k + ph.slots.length) (by omega) hm.2 (fun ph' h' => hf ph' (List.mem_cons_of_mem _ h'))]

/-- The enthalpies of mixing are those of Gibbs energy and entropy, at the compositions met. -/
def HMix (mode : Mode) (T P : ℝ) (N : ℕ) : ℕ → List Phase → (ℕ → ℝ) → Prop
  | _, [], _ => True
  | k, ph :: L, y => (∀ j, (ph.std j (mode.at T P (y N)).1 (mode.at T P (y N)).2).g = (ph.std j (mode.at T P (y N)).1 (mode.at T P (y N)).2).h
        - (mode.at T P (y N)).1 * (ph.std j (mode.at T P (y N)).1 (mode.at T P (y N)).2).s) ∧
      (ph.pure = false → ph.mix.h (mode.at T P (y N)).1 (mode.at T P (y N)).2 (ph.conv.toR (ph.amounts k y)) =
        ph.mix.g (mode.at T P (y N)).1 (mode.at T P (y N)).2 (ph.conv.toR (ph.amounts k y))
          + (mode.at T P (y N)).1 * ph.mix.s (mode.at T P (y N)).1 (mode.at T P (y N)).2 (ph.conv.toR (ph.amounts k y)))
      ∧ HMix mode T P N (k + ph.slots.length) L y

theorem sumOf_h (mode : Mode) (T P : ℝ) (N : ℕ) (y x : ℕ → ℝ) (lam θ : ℝ) :
    ∀ (L : List Phase) (k : ℕ), k + (rows L).length ≤ N → Match N k L y → HMix mode T P N k L (moved y x N lam θ) →
      sumOf Std.h (fun M => M.h) (mode.at T P θ).1 (mode.at T P θ).2 (mode.at T P θ).1 (mode.at T P θ).2 x lam k L
        = total (fun ph T P m => ph.G T P m + T * ph.S T P m) mode T P N k L (moved y x N lam θ) := by
  intro L
  induction L with
  | nil => intro k _ _ _; rfl
  | cons ph L ih =>
    intro k hN hm hH
    simp only [rows, List.length_append, List.length_map] at hN
    have hθ : moved y x N lam θ N = θ := if_pos rfl
    obtain ⟨h1, h2, h3⟩ := hH
    simp only [hθ] at h1 h2
    simp only [sumOf, total, hθ]
    rw [← ih (k + ph.slots.length) (by omega) hm.2 h3]
    congr 1
    rw [after_eq ph (N := N) (by omega) y x hm.1 lam θ]
    unfold Phase.G Phase.S
    have e : ∀ m : Fin ph.na → ℝ, ∑ j, m j * (ph.std j (mode.at T P θ).1 (mode.at T P θ).2).h
        = ∑ j, m j * (ph.std j (mode.at T P θ).1 (mode.at T P θ).2).g
          + (mode.at T P θ).1 * ∑ j, m j * (ph.std j (mode.at T P θ).1 (mode.at T P θ).2).s := by
      intro m
      rw [mul_sum, ← sum_add_distrib]
      refine sum_congr rfl fun j _ => ?_
      rw [h1 j]; ring
    by_cases hp : ph.pure
    · simp only [hp, if_true]
      rw [e]; ring
    · simp only [hp, Bool.false_eq_true, if_false]
      rw [h2 (by simpa using hp), e]; ring

end

end Magma.Engine.System
