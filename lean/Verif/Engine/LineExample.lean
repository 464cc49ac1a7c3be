import Verif.Engine.LineDescent
import Verif.Engine.SystemExample
import Mathlib.Analysis.SpecialFunctions.Sqrt
import Mathlib.Analysis.SpecialFunctions.Log.Deriv

/-!
Concrete cases for C76, and a case where the inner iteration does not converge.
-/

namespace Magma.Engine.System

open Finset Filter Topology Magma.Thermo.Extensive Magma.Thermo.Compo
open Magma.Thermo.Mixing (Mix)
open Verif.Thermo.StdState (Std)

noncomputable section

/-! ### Joint differentiability at given temperature and pressure -/

theorem graft_diff (N : ℕ) (y : ℕ → ℝ) (k : ℕ) (w : Fin (N + 1) → ℝ) : DifferentiableAt ℝ (fun w : Fin (N + 1) → ℝ => graft N y w k) w := by
  unfold graft
  split_ifs with h
  · exact differentiableAt_apply _ _
  · exact differentiableAt_const _

theorem amounts_diff (ph : Phase) (N k : ℕ) (y : ℕ → ℝ) (w : Fin (N + 1) → ℝ) :
    DifferentiableAt ℝ (fun w : Fin (N + 1) → ℝ => ph.amounts k (graft N y w)) w := by
  rw [differentiableAt_pi]
  intro j
  unfold Phase.amounts
  split_ifs
  · exact graft_diff _ _ _ _
  · exact differentiableAt_const _

/-- **C76.** The hypothesis of joint differentiability is met when the Gibbs energy of every phase is differentiable in the amounts of its end
members. -/
theorem C76_joint (T P : ℝ) (L : List Phase) (h : ∀ ph ∈ L, DifferentiableAt ℝ (ph.G T P) ph.m) :
    Joint (Psi .gibbs T P (rows L).length L) (rows L).length (state .gibbs T P L) := by
  have hm : Match (rows L).length 0 L (state .gibbs T P L) := match_state .gibbs T P L
  have key : ∀ (L : List Phase) (N k : ℕ) (y : ℕ → ℝ), (∀ ph ∈ L, DifferentiableAt ℝ (ph.G T P) ph.m) → Match N k L y →
      DifferentiableAt ℝ (fun w : Fin (N + 1) → ℝ => total (fun ph => ph.psi .gibbs) .gibbs T P N k L (graft N y w)) (fun i => y i) := by
    intro L N
    induction L with
    | nil => intro _ _ _ _; exact differentiableAt_const _
    | cons ph L ih =>
      intro k y h hm
      refine DifferentiableAt.add ?_ (ih _ y (fun ph' h' => h ph' (List.mem_cons_of_mem _ h')) hm.2)
      have h1 : DifferentiableAt ℝ (ph.G T P) (ph.amounts k (graft N y (fun i => y i))) := by
        rw [graft_self, hm.1]
        exact h ph List.mem_cons_self
      exact DifferentiableAt.comp (fun i : Fin (N + 1) => y i) h1 (amounts_diff ph N k y _)
  exact key L _ 0 _ h hm

theorem toR_diff (dep : Fin 2) (m0 : Fin 2 → ℝ) (h0 : ∑ i, m0 i ≠ 0) : DifferentiableAt ℝ (fun m : Fin 2 → ℝ => toR dep m) m0 := by
  have hsum : DifferentiableAt ℝ (fun m : Fin 2 → ℝ => ∑ i, m i) m0 := DifferentiableAt.fun_sum fun i _ => differentiableAt_apply i m0
  rw [differentiableAt_pi]
  intro j
  have hne : ∀ᶠ m in 𝓝 m0, (∑ i, m i : ℝ) ≠ 0 := hsum.continuousAt.eventually_ne h0
  have e : (fun m : Fin 2 → ℝ => toR dep m j) =ᶠ[𝓝 m0] fun m => m (dep.succAbove j) / ∑ i, m i := by
    filter_upwards [hne] with m h
    rw [toR, if_pos (by exact h)]
    rfl
  refine DifferentiableAt.congr_of_eventuallyEq ?_ e
  have hj : DifferentiableAt ℝ (fun m : Fin 2 → ℝ => m (dep.succAbove j)) m0 := differentiableAt_apply _ _
  simp only [div_eq_mul_inv]
  exact hj.mul (hsum.inv h0)

theorem biotite_G_diff : DifferentiableAt ℝ (biotite.G 1000 1000) biotite.m := by
  have key : ∀ (m0 : Fin 2 → ℝ) (q : Fin 2 → ℝ), 0.2 < m0 0 ∧ m0 0 < 0.4 → 0.6 < m0 1 ∧ m0 1 < 0.8 →
      DifferentiableAt ℝ (fun m : Fin 2 → ℝ => (∑ i, m i) * Magma.Thermo.Mixing.Biotite.mix.g 1000 1000 (toR Magma.Thermo.Mixing.Biotite.dep m)
        + ∑ i, m i * q i) m0 := by
    intro m0 q h0 h1
    obtain ⟨hb, hi⟩ := biotite_interior (m := m0) h0 h1
    have hg : DifferentiableAt ℝ (Magma.Thermo.Mixing.Biotite.mix.g 1000 1000) (toR Magma.Thermo.Mixing.Biotite.dep m0) :=
      (Magma.Thermo.Mixing.C24_biotite.g_r 1000 1000 _ hi).differentiableAt
    have hsum : DifferentiableAt ℝ (fun m : Fin 2 → ℝ => ∑ i, m i) m0 := DifferentiableAt.fun_sum fun i _ => differentiableAt_apply i m0
    exact (hsum.mul (hg.comp m0 (toR_diff _ m0 hb))).add (DifferentiableAt.fun_sum fun i _ => (differentiableAt_apply i m0).mul_const _)
  exact key biotite.m (fun i => (biotite.std i 1000 1000).g) (by change (0.2 : ℝ) < 0.3 ∧ (0.3 : ℝ) < 0.4; norm_num)
    (by change (0.6 : ℝ) < 0.7 ∧ (0.7 : ℝ) < 0.8; norm_num)

/-- 0.3 mol annite and 0.7 mol phlogopite in solution with corundum. -/
example : Joint (Psi .gibbs 1000 1000 (rows [biotite, corundumPhase]).length [biotite, corundumPhase])
    (rows [biotite, corundumPhase]).length (state .gibbs 1000 1000 [biotite, corundumPhase]) := by
  refine C76_joint 1000 1000 _ fun ph h => ?_
  rcases List.mem_pair.mp h with rfl | rfl
  · exact biotite_G_diff
  · have : corundumPhase.G 1000 1000 = fun m => 0 + ∑ i, m i * (corundumPhase.std i 1000 1000).g := rfl
    rw [this]
    refine DifferentiableAt.const_add _ (DifferentiableAt.fun_sum fun i _ => (differentiableAt_apply i _).mul_const _)

/-! ### A phase of constant heat capacity -/

/-- Heat capacity 100 J/K, volume 2 J/bar. -/
def plain (T P : ℝ) : Std where
  g := -1000000 + 100 * T + 2 * P - T * (100 * Real.log T)
  h := -1000000 + 100 * T + 2 * P
  s := 100 * Real.log T
  v := 2
  cp := 100
  dcpdt := 0
  dvdt := 0
  dvdp := 0
  d2vdt2 := 0
  d2vdp2 := 0
  d2vdtdp := 0

theorem plain_ok {T : ℝ} (P : ℝ) (hT : T ≠ 0) : Verif.Thermo.StdState.Consistent plain T P where
  gibbs := by simp only [plain]
  entropy := by
    have h := ((((hasDerivAt_id T).const_mul 100).const_add (-1000000)).add_const (2 * P)).sub
      ((hasDerivAt_id T).mul ((Real.hasDerivAt_log hT).const_mul 100))
    refine h.congr_deriv ?_
    simp only [plain, id]
    field_simp
    ring
  volume := by
    have h := (((hasDerivAt_id P).const_mul 2).const_add (-1000000 + 100 * T)).sub_const (T * (100 * Real.log T))
    refine h.congr_deriv ?_
    simp [plain]
  heat := by
    have h := (((hasDerivAt_id T).const_mul 100).const_add (-1000000)).add_const (2 * P)
    refine h.congr_deriv ?_
    simp [plain]
  heatS := by
    refine ((Real.hasDerivAt_log hT).const_mul 100).congr_deriv ?_
    simp [plain, div_eq_mul_inv]
  maxwell := by simp only [plain, neg_zero]; exact hasDerivAt_const _ _
  dcpdt := hasDerivAt_const _ _
  dvdt := hasDerivAt_const _ _
  dvdp := hasDerivAt_const _ _
  d2vdt2 := hasDerivAt_const _ _
  d2vdp2 := hasDerivAt_const _ _
  d2vdtdp := hasDerivAt_const _ _
  d2vdpdt := hasDerivAt_const _ _

/-- One mole of a phase of fixed composition with standard state `F`. -/
def one (F : ℝ → ℝ → Std) : Phase where
  na := 1
  nr := 1
  pure := true
  liq := false
  ox := fun _ _ => 1
  o2 := fun _ => 0
  mix := Magma.Thermo.Mixing.Biotite.mix
  conv := ⟨fun _ _ => 0, fun _ _ _ => 0, fun _ _ _ _ => 0, fun _ _ _ _ _ => 0, fun _ _ => 0, fun _ _ => 0⟩
  std := fun _ => F
  m := fun _ => 1

theorem one_slots (F : ℝ → ℝ → Std) : (one F).slots = [(0 : Fin 1)] := by
  rw [slots_all (fun j => Or.inl rfl)]
  rfl

theorem one_rows (F : ℝ → ℝ → Std) : rows [one F] = [1] := by
  simp only [rows, one_slots]
  rfl

/-- A step that changes temperature only. -/
def warm (d : ℝ) (k : ℕ) : ℝ := if k = 1 then d else 0

theorem one_sum (F : ℝ → ℝ → Std) (q : Std → ℝ) (p : {nr : ℕ} → Mix nr → ℝ → ℝ → (Fin nr → ℝ) → ℝ) (Ts Ps T P d lam : ℝ) :
    sumOf q p Ts Ps T P (warm d) lam 0 [one F] = q (F Ts Ps) := by
  have : (one F).amounts 0 (warm d) (0 : Fin 1) = 0 := by
    rw [amounts_at (one_slots F) List.mem_cons_self]
    exact if_neg (show ¬ (0 : ℕ) = 1 by decide)
  simp only [sumOf, if_pos (show (one F).pure = true from rfl)]
  change (∑ j : Fin 1, _) + 0 = _
  rw [Fin.sum_univ_one, add_zero]
  unfold Phase.after
  rw [this]
  simp [one]

/-- Heated from 1000 K to a trial temperature of 1040 K, the phase is brought back to the temperature of its enthalpy. -/
example : let L := [one plain]
    let ref : ℝ := -1000000 + 100 * 1000 + 2 * 1
    Mode.isenthalpic ≠ .gibbs ∧ (0 : ℝ) < 100 ∧ (100 : ℝ) ≤ 3 / 2 * 100 ∧ given .isenthalpic 1000 1 L (warm 40) 1 1000 = ref ∧ (100 : ℝ) * |1040 - 1000| ≤ |ref| ∧
    (∀ t, |t - 1000| ≤ |(1040 : ℝ) - 1000| → SoundAt .isenthalpic 1000 1 L (warm 40) 1 t) ∧
    (∀ t, |t - 1000| ≤ |(1040 : ℝ) - 1000| → (100 : ℝ) ≤ capacity .isenthalpic 1000 1 L (warm 40) 1 t ∧ capacity .isenthalpic 1000 1 L (warm 40) 1 t ≤ 100) := by
  intro L ref
  have hok : ∀ t, |t - 1000| ≤ |(1040 : ℝ) - 1000| → SoundAt .isenthalpic 1000 1 L (warm 40) 1 t := by
    intro t ht
    have h40 : |(1040 : ℝ) - 1000| = 40 := by norm_num
    rw [h40, abs_le] at ht
    have ht0 : t ≠ 0 := by linarith [ht.1]
    have hn : moved (state .isenthalpic 1000 1 L) (warm 40) (rows L).length 1 t (rows L).length = t := if_pos rfl
    refine ⟨?_, trivial⟩
    rw [hn]
    exact C69_pure ht0 (fun _ => plain_ok 1 ht0) rfl
  refine ⟨by decide, by norm_num, by norm_num, ?_, by simp only [ref]; norm_num, hok, fun t _ => ?_⟩
  · rw [← summed_eq _ _ _ _ _ _ (hok 1000 (by norm_num))]
    change sumOf Std.h (fun M => M.h) 1000 1 1000 1 (warm 40) 1 0 [one plain] = _
    rw [one_sum]
    rfl
  · have : capacity .isenthalpic 1000 1 L (warm 40) 1 t = 100 := by
      change sumOf Std.cp (fun M => M.cp) t 1 t 1 (warm 40) 1 0 [one plain] = _
      rw [one_sum]
      rfl
    rw [this]
    exact ⟨le_rfl, le_rfl⟩

/-- The second iteration finds it exactly. -/
example : adjust .isenthalpic 1000 1 (-1000000 + 100 * 1000 + 2 * 1) [one plain] (warm 40) 1 1040 = (1000, 1000, 0) := by
  have hf : ∀ t : ℝ, sumOf Std.h (fun M => M.h) t 1 t 1 (warm 40) 1 0 [one plain] = -1000000 + 100 * t + 2 * 1 := fun t => by rw [one_sum]; rfl
  have hc : ∀ t : ℝ, sumOf Std.cp (fun M => M.cp) t 1 t 1 (warm 40) 1 0 [one plain] = 100 := fun t => by rw [one_sum]; rfl
  simp only [adjust, newton, hf, hc]
  rw [loop, if_pos (by unfold dblEps; norm_num), loop, if_neg (by unfold dblEps; norm_num)]
  norm_num

/-! ### No convergence -/

/-- A phase whose heat capacity becomes infinite at 1000 K, as at a transition. -/
def lambdaPoint (T _P : ℝ) : Std where
  g := 0
  h := -1000 + (if 1000 ≤ T then √(T - 1000) else -√(1000 - T))
  s := 0
  v := 0
  cp := 1 / (2 * √|T - 1000|)
  dcpdt := 0
  dvdt := 0
  dvdp := 0
  d2vdt2 := 0
  d2vdp2 := 0
  d2vdtdp := 0

/-- **C76.** The inner iteration may run through its 50 rounds without approaching the given enthalpy at all, although the enthalpy increases with temperature and its
derivative is the heat capacity used; the value is then handed to the line search as if it had converged. -/
theorem C76_unconverged :
    (∀ T P, T ≠ 1000 → HasDerivAt (fun t => (lambdaPoint t P).h) (lambdaPoint T P).cp T ∧ 0 < (lambdaPoint T P).cp) ∧
    (adjust .isenthalpic 1100 1 (-1000) [one lambdaPoint] (warm 0) 1 1100).2.2 = -10 ∧
    (linearSearch .isenthalpic (fun _ _ => true) 1100 1 (-1000) [one lambdaPoint] (warm 0) 1).isSome := by
  refine ⟨fun T P hT => ⟨?_, ?_⟩, ?_, ?_⟩
  · rcases lt_or_gt_of_ne hT with h | h
    · have e : (fun t => (lambdaPoint t P).h) =ᶠ[𝓝 T] fun t => -1000 + -√(1000 - t) := by
        filter_upwards [gt_mem_nhds h] with t ht
        simp only [lambdaPoint, if_neg (not_le.mpr ht)]
      refine HasDerivAt.congr_of_eventuallyEq ?_ e
      have h1 : HasDerivAt (fun t : ℝ => 1000 - t) (-1) T := by simpa using (hasDerivAt_id T).const_sub 1000
      have h2 := ((h1.sqrt (by linarith)).neg).const_add (-1000)
      refine h2.congr_deriv ?_
      simp only [lambdaPoint, abs_of_neg (show T - 1000 < 0 by linarith), neg_sub]
      ring
    · have e : (fun t => (lambdaPoint t P).h) =ᶠ[𝓝 T] fun t => -1000 + √(t - 1000) := by
        filter_upwards [lt_mem_nhds h] with t ht
        simp only [lambdaPoint, if_pos ht.le]
      refine HasDerivAt.congr_of_eventuallyEq ?_ e
      have h1 : HasDerivAt (fun t : ℝ => t - 1000) 1 T := (hasDerivAt_id T).sub_const 1000
      have h2 := (h1.sqrt (by linarith)).const_add (-1000)
      refine h2.congr_deriv ?_
      simp only [lambdaPoint, abs_of_pos (show 0 < T - 1000 by linarith)]
  · simp only [lambdaPoint]
    have : 0 < |T - 1000| := abs_pos.mpr (sub_ne_zero.mpr hT)
    positivity
  · set f : ℝ → ℝ := fun t => sumOf Std.h (fun M => M.h) t 1 t 1 (warm 0) 1 0 [one lambdaPoint] with hfd
    set u : ℝ → ℝ → ℝ := fun t r => t - r / sumOf Std.cp (fun M => M.cp) t 1 t 1 (warm 0) 1 0 [one lambdaPoint] with hud
    have s100 : √(100 : ℝ) = 10 := by
      rw [show (100 : ℝ) = 10 ^ 2 by norm_num]
      exact Real.sqrt_sq (by norm_num)
    have f1 : f 1100 - -1000 = 10 := by
      simp only [hfd, one_sum, lambdaPoint]
      norm_num [s100]
    have f9 : f 900 - -1000 = -10 := by
      simp only [hfd, one_sum, lambdaPoint]
      norm_num [s100]
    have u1 : u 1100 10 = 900 := by
      simp only [hud, one_sum, lambdaPoint]
      norm_num [s100]
    have u9 : u 900 (-10) = 1100 := by
      simp only [hud, one_sum, lambdaPoint]
      norm_num [s100]
    have tol : (10 * dblEps) * |(-1000 : ℝ)| < 10 := by unfold dblEps; norm_num
    have key : ∀ n, loop f u (-1000) (10 * dblEps) (2 * n) 900 1100 10 = (900, 1100, 10) := by
      intro n
      induction n with
      | zero => rfl
      | succ n ih =>
        rw [show 2 * (n + 1) = 2 * n + 1 + 1 by ring, loop, if_pos (by rw [abs_of_pos (by norm_num : (0 : ℝ) < 10)]; exact tol), f9, u9, loop,
          if_pos (by rw [abs_neg, abs_of_pos (by norm_num : (0 : ℝ) < 10)]; exact tol), f1, u1]
        exact ih
    change (newton f u (-1000) (10 * dblEps) 1100).2.2 = -10
    rw [newton, f1, u1, loop, if_pos (by rw [abs_of_pos (by norm_num : (0 : ℝ) < 10)]; exact tol), f9, u9, loop,
      if_pos (by rw [abs_neg, abs_of_pos (by norm_num : (0 : ℝ) < 10)]; exact tol), f1, u1, loop,
      if_pos (by rw [abs_of_pos (by norm_num : (0 : ℝ) < 10)]; exact tol), f9, u9]
    have key2 : ∀ n, loop f u (-1000) (10 * dblEps) (2 * n) 1100 900 (-10) = (1100, 900, -10) := by
      intro n
      induction n with
      | zero => rfl
      | succ n ih =>
        rw [show 2 * (n + 1) = 2 * n + 1 + 1 by ring, loop, if_pos (by rw [abs_neg, abs_of_pos (by norm_num : (0 : ℝ) < 10)]; exact tol), f1, u1, loop,
          if_pos (by rw [abs_of_pos (by norm_num : (0 : ℝ) < 10)]; exact tol), f9, u9]
        exact ih
    rw [show (46 : ℕ) = 2 * 23 by norm_num, key2]
  · unfold linearSearch
    simp only
    rw [if_pos]
    · rfl
    · refine ⟨by norm_num, ?_, ?_⟩
      · refine ⟨?_, trivial⟩
        rw [if_neg (by simp [one])]
        refine ⟨?_, fun _ h => rfl⟩
        refine sum_nonneg fun j _ => ?_
        have : (one lambdaPoint).amounts 0 (warm 0) j = 0 := by
          unfold Phase.amounts warm
          split_ifs <;> rfl
        unfold Phase.after
        rw [this]
        simp [one]
      · simp only [Mode.var, warm, one_rows]
        norm_num

end

end Magma.Engine.System
