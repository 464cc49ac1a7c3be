import Verif.Engine.LineSearch
import Mathlib.Analysis.Calculus.MeanValue

/-!
The function minimised along a step is the potential of the constrained problem.
-/

namespace Magma.Engine.System

open Finset Filter Topology Magma.Thermo.Extensive Magma.Thermo.Compo
open Magma.Thermo.Mixing (Mix)
open Verif.Thermo.StdState (Std)
open Verif.Thermo.Ordering (ConsistentOn on mask)

noncomputable section

/-! ### Enthalpies of mixing -/

theorem hmix_of_ok (mode : Mode) (T P : ℝ) (N : ℕ) : ∀ (L : List Phase) (k : ℕ) (y : ℕ → ℝ), SysOK mode T P N k L y → HMix mode T P N k L y := by
  intro L
  induction L with
  | nil => intro _ _ _; trivial
  | cons ph L ih =>
    intro k y ok
    refine ⟨fun j => (ok.1.std j).gibbs, fun hp => ?_, ih _ y ok.2⟩
    obtain ⟨h0, hC, A, I, hM, hr, hst⟩ := ok.1.sol hp
    have hA : ∀ i ∉ A, ph.conv.toR (ph.amounts k y) i = 0 := hst _ fun j hj => amounts_off ph k y hj
    have := hM.h_eq _ _ _ hr.self_of_nhds
    rw [on_s _ _ _ A _ hA, on_g _ _ _ A _ hA] at this
    rw [← this]
    exact (on_vals ph.mix _ _ A _ hA (·.h)).symm

/-! ### The potential -/

/-- At one temperature and pressure the code's potential is that of the assemblage. -/
theorem potential_eq (mode : Mode) (T P : ℝ) (L : List Phase) (x : ℕ → ℝ) (lam θ : ℝ)
    (ok : SysOK mode T P (rows L).length 0 L (moved (state mode T P L) x (rows L).length lam θ)) :
    potential mode (mode.at T P θ).1 (mode.at T P θ).2 (mode.at T P θ).1 (mode.at T P θ).2 L x lam
      = Psi mode T P (rows L).length L (moved (state mode T P L) x (rows L).length lam θ) := by
  have hm : Match (rows L).length 0 L (state mode T P L) := match_state mode T P L
  cases mode
  · refine sumOf_total _ _ _ .gibbs T P _ _ x lam θ L 0 (by omega) hm fun ph _ m => ?_
    simp only [Phase.psi, Phase.G]
    split_ifs <;> ring
  · refine sumOf_total _ _ _ .isenthalpic T P _ _ x lam θ L 0 (by omega) hm fun ph _ m => ?_
    simp only [Phase.psi, Phase.S, mul_neg, sum_neg_distrib]
    split_ifs <;> ring
  · exact sumOf_h .isentropic T P _ _ x lam θ L 0 (by omega) hm (hmix_of_ok _ _ _ _ _ _ _ ok)
  · refine sumOf_total _ _ _ .isochoric T P _ _ x lam θ L 0 (by omega) hm fun ph _ m => ?_
    simp only [Phase.psi, Phase.G, Phase.V, mul_sub, sum_sub_distrib, mul_left_comm _ (Mode.isochoric.at T P θ).2, ← mul_sum]
    split_ifs <;> ring

/-- **C76.** At given temperature and pressure the line search sees the Gibbs energy of the assemblage after the step, at every
step of length at most 2 that leaves all phases feasible, and nothing at any other. -/
theorem C76_gibbs_value (test : (ph : Phase) → (Fin ph.na → ℝ) → Bool) (T P ref : ℝ) (L : List Phase) (x : ℕ → ℝ) (lam v : ℝ)
    (ok : SysOK .gibbs T P (rows L).length 0 L (fun k => state .gibbs T P L k + lam * x k)) :
    linearSearch .gibbs test T P ref L x lam = some v ↔
      (|lam| ≤ 2 ∧ feasible test x lam 0 L) ∧ v = Psi .gibbs T P (rows L).length L (fun k => state .gibbs T P L k + lam * x k) := by
  have em : moved (state .gibbs T P L) x (rows L).length lam (state .gibbs T P L (rows L).length + lam * x (rows L).length)
      = fun k => state .gibbs T P L k + lam * x k := by
    funext k
    unfold moved
    split_ifs with h
    · rw [h]
    · rfl
  rw [← em] at ok ⊢
  have ep := potential_eq .gibbs T P L x lam _ ok
  have ea : admitted .gibbs test L x lam (Mode.gibbs.var T P + lam * x (rows L).length) ↔ |lam| ≤ 2 ∧ feasible test x lam 0 L := by
    unfold admitted
    rw [abs_le]
    simp only [and_true, not_or, not_lt, gt_iff_lt]
  unfold linearSearch
  simp only
  split_ifs with h
  · rw [ea] at h
    simp only [Option.some.injEq, h, and_self, true_and]
    rw [← ep]
    exact eq_comm
  · rw [ea] at h
    simp only [reduceCtorEq, false_iff, not_and]
    exact fun h' => absurd h' h

/-! ### The inner iteration -/

section inner
variable {f : ℝ → ℝ} {upd : ℝ → ℝ → ℝ} {ref tol : ℝ}

/-- What the loop leaves behind: the residual belongs to the point where the standard states were evaluated, and the last point is the
update from there. -/
theorem loop_spec : ∀ (n : ℕ) (t s r : ℝ), r = f s - ref → t = upd s r →
    (loop f upd ref tol n t s r).2.2 = f (loop f upd ref tol n t s r).2.1 - ref ∧
    (loop f upd ref tol n t s r).1 = upd (loop f upd ref tol n t s r).2.1 (loop f upd ref tol n t s r).2.2
  | 0, t, s, r, h1, h2 => ⟨h1, h2⟩
  | n + 1, t, s, r, h1, h2 => by
    unfold loop
    split_ifs
    · exact loop_spec n _ _ _ rfl rfl
    · exact ⟨h1, h2⟩

theorem newton_spec (t : ℝ) : (newton f upd ref tol t).2.2 = f (newton f upd ref tol t).2.1 - ref ∧
    (newton f upd ref tol t).1 = upd (newton f upd ref tol t).2.1 (newton f upd ref tol t).2.2 :=
  loop_spec _ _ _ _ rfl rfl

/-- If every iteration at least halves the distance to the solution, the loop ends within its tolerance. -/
theorem loop_halves {ts ρ C : ℝ} (hC : 0 ≤ C) (hf : ∀ t, |t - ts| ≤ ρ → |f t - ref| ≤ C * |t - ts|)
    (hu : ∀ t, |t - ts| ≤ ρ → |upd t (f t - ref) - ts| ≤ |t - ts| / 2) :
    ∀ (n : ℕ) (t s r : ℝ), r = f s - ref → t = upd s r → |s - ts| ≤ ρ → |t - ts| ≤ |s - ts| / 2 → C * |s - ts| / 2 ^ n ≤ tol * |ref| →
      |(loop f upd ref tol n t s r).2.2| ≤ tol * |ref| ∧ |(loop f upd ref tol n t s r).2.1 - ts| ≤ ρ
  | 0, t, s, r, h1, _, h3, _, h5 => by
    refine ⟨?_, h3⟩
    change |r| ≤ _
    rw [h1]
    refine (hf s h3).trans ?_
    simpa using h5
  | n + 1, t, s, r, h1, h2, h3, h4, h5 => by
    unfold loop
    split_ifs with h
    · have ht : |t - ts| ≤ ρ := h4.trans ((half_le_self (abs_nonneg _)).trans h3)
      refine loop_halves hC hf hu n _ _ _ rfl rfl ht (hu t ht) ?_
      refine le_trans ?_ h5
      have : C * |t - ts| ≤ C * |s - ts| / 2 := by rw [mul_div_assoc]; gcongr
      calc C * |t - ts| / 2 ^ n ≤ C * |s - ts| / 2 / 2 ^ n := by gcongr
        _ = C * |s - ts| / 2 ^ (n + 1) := by rw [pow_succ, div_div, mul_comm (2 : ℝ)]
    · exact ⟨not_lt.mp h, h3⟩

theorem newton_halves {ts ρ C t : ℝ} (hC : 0 ≤ C) (hf : ∀ t, |t - ts| ≤ ρ → |f t - ref| ≤ C * |t - ts|)
    (hu : ∀ t, |t - ts| ≤ ρ → |upd t (f t - ref) - ts| ≤ |t - ts| / 2) (ht : |t - ts| ≤ ρ) (h5 : C * |t - ts| / 2 ^ 49 ≤ tol * |ref|) :
    |(newton f upd ref tol t).2.2| ≤ tol * |ref| ∧ |(newton f upd ref tol t).2.1 - ts| ≤ ρ :=
  loop_halves hC hf hu 49 _ _ _ rfl rfl ht (hu t ht) h5

/-- Newton's step for a function whose slope varies by at most one half. -/
theorem halves_pos {D : ℝ → ℝ} {ts ρ c C : ℝ} (hts : f ts = ref) (hc : 0 < c) (hCc : C ≤ 3 / 2 * c)
    (hd : ∀ t, |t - ts| ≤ ρ → HasDerivAt f (D t) t) (hD : ∀ t, |t - ts| ≤ ρ → c ≤ D t ∧ D t ≤ C) (t : ℝ) (ht : |t - ts| ≤ ρ) :
    c * |t - ts| ≤ |f t - ref| ∧ |f t - ref| ≤ C * |t - ts| ∧ |t - (f t - ref) / D t - ts| ≤ |t - ts| / 2 := by
  obtain ⟨s, h1, h2, h3⟩ : ∃ s, c ≤ s ∧ s ≤ C ∧ f t - ref = s * (t - ts) := by
    rcases lt_trichotomy t ts with h | h | h
    · have hin : ∀ u ∈ Set.Icc t ts, |u - ts| ≤ ρ := by
        intro u hu
        rw [abs_of_nonpos (by linarith [hu.2])]
        rw [abs_of_neg (by linarith)] at ht
        linarith [hu.1]
      obtain ⟨u, hu, he⟩ := exists_hasDerivAt_eq_slope f D h (fun u hu => (hd u (hin u hu)).continuousAt.continuousWithinAt)
        (fun u hu => hd u (hin u (Set.Ioo_subset_Icc_self hu)))
      have := hD u (hin u (Set.Ioo_subset_Icc_self hu))
      refine ⟨D u, this.1, this.2, ?_⟩
      rw [he, hts]
      have : ts - t ≠ 0 := by linarith
      field_simp
      ring
    · refine ⟨c, le_rfl, ?_, by rw [h, hts]; ring⟩
      have := hD t ht
      linarith
    · have hin : ∀ u ∈ Set.Icc ts t, |u - ts| ≤ ρ := by
        intro u hu
        rw [abs_of_nonneg (by linarith [hu.1])]
        rw [abs_of_pos (by linarith)] at ht
        linarith [hu.2]
      obtain ⟨u, hu, he⟩ := exists_hasDerivAt_eq_slope f D h (fun u hu => (hd u (hin u hu)).continuousAt.continuousWithinAt)
        (fun u hu => hd u (hin u (Set.Ioo_subset_Icc_self hu)))
      have := hD u (hin u (Set.Ioo_subset_Icc_self hu))
      refine ⟨D u, this.1, this.2, ?_⟩
      rw [he, hts]
      have : t - ts ≠ 0 := by linarith
      field_simp
  have hs : 0 < s := by linarith
  obtain ⟨d1, d2⟩ := hD t ht
  have hDp : 0 < D t := by linarith
  rw [h3, abs_mul, abs_of_pos hs]
  refine ⟨by gcongr, by gcongr, ?_⟩
  have e : t - s * (t - ts) / D t - ts = (1 - s / D t) * (t - ts) := by
    field_simp
    ring
  rw [e, abs_mul]
  have hb : |1 - s / D t| ≤ 1 / 2 := by
    have u1 : s / D t ≤ 3 / 2 := by rw [div_le_iff₀ hDp]; nlinarith
    have u2 : 1 / 2 ≤ s / D t := by rw [le_div_iff₀ hDp]; nlinarith
    rw [abs_le]
    constructor <;> linarith
  calc |1 - s / D t| * |t - ts| ≤ 1 / 2 * |t - ts| := by gcongr
    _ = |t - ts| / 2 := by ring

/-- The same with a slope of either sign. -/
theorem halves {D : ℝ → ℝ} {ts ρ c C : ℝ} (hts : f ts = ref) (hc : 0 < c) (hCc : C ≤ 3 / 2 * c)
    (hd : ∀ t, |t - ts| ≤ ρ → HasDerivAt f (D t) t)
    (hD : (∀ t, |t - ts| ≤ ρ → c ≤ D t ∧ D t ≤ C) ∨ (∀ t, |t - ts| ≤ ρ → c ≤ -D t ∧ -D t ≤ C)) (t : ℝ) (ht : |t - ts| ≤ ρ) :
    c * |t - ts| ≤ |f t - ref| ∧ |f t - ref| ≤ C * |t - ts| ∧ |t - (f t - ref) / D t - ts| ≤ |t - ts| / 2 := by
  rcases hD with hD | hD
  · exact halves_pos hts hc hCc hd hD t ht
  · have := halves_pos (f := fun t => -f t) (ref := -ref) (D := fun t => -D t) (by rw [hts]) hc hCc (fun t ht => (hd t ht).neg) hD t ht
    rw [show -f t - -ref = -(f t - ref) by ring, abs_neg, neg_div_neg_eq] at this
    exact this

end inner

/-! ### The given quantity along the iteration -/

/-- The derivative of the given quantity in temperature or pressure as the code computes it: heat capacity, heat capacity
over temperature, or `dV/dP`. -/
def capacity (mode : Mode) (T P : ℝ) (L : List Phase) (x : ℕ → ℝ) (lam θ : ℝ) : ℝ :=
  match mode with
  | .gibbs => 0
  | .isenthalpic => sumOf Std.cp (fun M => M.cp) θ P θ P x lam 0 L
  | .isentropic => sumOf Std.cp (fun M => M.cp) θ P θ P x lam 0 L / θ
  | .isochoric => sumOf Std.dvdp (fun M => M.vp) T θ T θ x lam 0 L

/-- The relative tolerance of the iteration. -/
def Mode.tol (mode : Mode) : ℝ := if mode = .isochoric then 100 * dblEps else 10 * dblEps

section con
variable (mode : Mode) (T P : ℝ) (L : List Phase) (x : ℕ → ℝ) (lam : ℝ)

/-- The given quantity after the step, at `θ`. -/
def given (θ : ℝ) : ℝ := Con mode T P (rows L).length L (moved (state mode T P L) x (rows L).length lam θ)

/-- The tables are consistent there. -/
def SoundAt (θ : ℝ) : Prop := SysOK mode T P (rows L).length 0 L (moved (state mode T P L) x (rows L).length lam θ)

/-- The quantity the code sums up, at one temperature and pressure. -/
def summed (θ : ℝ) : ℝ :=
  match mode with
  | .gibbs => 0
  | .isenthalpic => sumOf Std.h (fun M => M.h) θ P θ P x lam 0 L
  | .isentropic => sumOf Std.s (fun M => M.s) θ P θ P x lam 0 L
  | .isochoric => sumOf Std.v (fun M => M.v) T θ T θ x lam 0 L

theorem summed_eq {θ : ℝ} (ok : SoundAt mode T P L x lam θ) : summed mode T P L x lam θ = given mode T P L x lam θ := by
  have hm : Match (rows L).length 0 L (state mode T P L) := match_state mode T P L
  cases mode
  · have : ∀ (L : List Phase) (k : ℕ) (y : ℕ → ℝ) (N : ℕ), total (fun ph => ph.con .gibbs) .gibbs T P N k L y = 0 := by
      intro L
      induction L with
      | nil => intro _ _ _; rfl
      | cons ph L ih => intro k y N; simp only [total, ih]; simp [Phase.con]
    exact (this _ _ _ _).symm
  · exact sumOf_h .isenthalpic T P _ _ x lam θ L 0 (by omega) hm (hmix_of_ok _ _ _ _ _ _ _ ok)
  · refine sumOf_total _ _ _ .isentropic T P _ _ x lam θ L 0 (by omega) hm fun ph _ m => ?_
    simp only [Phase.con, Phase.S]
    split_ifs <;> ring
  · refine sumOf_total _ _ _ .isochoric T P _ _ x lam θ L 0 (by omega) hm fun ph _ m => ?_
    simp only [Phase.con, Phase.V]
    split_ifs <;> ring

theorem adjust_eq (hmode : mode ≠ .gibbs) (ref v : ℝ) :
    adjust mode T P ref L x lam v = newton (summed mode T P L x lam) (fun t r => t - r / capacity mode T P L x lam t) ref mode.tol v := by
  cases mode
  · exact absurd rfl hmode
  · rfl
  · simp only [adjust, summed, capacity, Mode.tol, reduceCtorEq, if_false]
    congr 1
    funext t r
    rw [div_div_eq_mul_div]
  · rfl

theorem sumD_N (k : ℕ) (y : ℕ → ℝ) (N : ℕ) (hN : k + (rows L).length ≤ N) :
    sumD (conJet mode) mode T P N k L y N = total (fun ph T P m => mode.kcon T * (ph.vals mode T P m).p) mode T P N k L y := by
  induction L generalizing k with
  | nil => rfl
  | cons ph L ih =>
    simp only [rows, List.length_append, List.length_map] at hN
    simp only [sumD, total]
    rw [ih _ (by omega)]
    congr 1
    unfold Jet.D
    rw [dif_neg (by omega), if_pos rfl]
    rfl

theorem total_mul (c : ℝ) (f : (ph : Phase) → ℝ → ℝ → (Fin ph.na → ℝ) → ℝ) (N : ℕ) (y : ℕ → ℝ) (k : ℕ) :
    total (fun ph _ _ m => c * f ph (mode.at T P (y N)).1 (mode.at T P (y N)).2 m) mode T P N k L y = c * total f mode T P N k L y := by
  induction L generalizing k with
  | nil => simp [total]
  | cons ph L ih => simp only [total, ih]; ring

theorem given_deriv {θ : ℝ} (ok : SoundAt mode T P L x lam θ) :
    HasDerivAt (given mode T P L x lam) (capacity mode T P L x lam θ) θ := by
  have h := all_first L 0 _ (all_ok L 0 _ ok).2 (by omega : 0 + (rows L).length ≤ (rows L).length) (rows L).length
  rw [sumD_N mode T P L 0 _ _ (by omega)] at h
  have e : ∀ h, shift (moved (state mode T P L) x (rows L).length lam θ) (rows L).length h
      = moved (state mode T P L) x (rows L).length lam (θ + h) := by
    intro h
    funext k
    unfold shift moved
    split_ifs <;> simp
  simp only [e] at h
  have h2 : HasDerivAt (given mode T P L x lam) (total (fun ph T P m => mode.kcon T * (ph.vals mode T P m).p) mode T P (rows L).length 0 L
      (moved (state mode T P L) x (rows L).length lam θ)) θ := by
    have h3 : HasDerivAt (fun t => given mode T P L x lam (θ + (t - θ))) _ θ :=
      HasDerivAt.comp_of_eq (x := θ) (h := fun t => t - θ) (h₂ := fun h => given mode T P L x lam (θ + h)) (by exact h)
        ((hasDerivAt_id θ).sub_const θ) (by simp)
    simpa using h3
  refine h2.congr_deriv ?_
  have hm : Match (rows L).length 0 L (state mode T P L) := match_state mode T P L
  have hθ : moved (state mode T P L) x (rows L).length lam θ (rows L).length = θ := if_pos rfl
  have hk := total_mul mode T P L (mode.kcon (mode.at T P θ).1) (fun ph T P m => (ph.vals mode T P m).p) (rows L).length
    (moved (state mode T P L) x (rows L).length lam θ) 0
  rw [hθ] at hk
  have ec : total (fun ph T P m => mode.kcon T * (ph.vals mode T P m).p) mode T P (rows L).length 0 L
      (moved (state mode T P L) x (rows L).length lam θ) = mode.kcon (mode.at T P θ).1 *
        total (fun ph T P m => (ph.vals mode T P m).p) mode T P (rows L).length 0 L (moved (state mode T P L) x (rows L).length lam θ) := by
    rw [← hk]
    have : ∀ (L' : List Phase) (k : ℕ) (y : ℕ → ℝ) (N : ℕ), y N = θ →
        total (fun ph T P m => mode.kcon T * (ph.vals mode T P m).p) mode T P N k L' y
        = total (fun ph _ _ m => mode.kcon (mode.at T P θ).1 * (ph.vals mode (mode.at T P θ).1 (mode.at T P θ).2 m).p) mode T P N k L' y := by
      intro L'
      induction L' with
      | nil => intro _ _ _ _; rfl
      | cons ph L' ih => intro k y N hy; simp only [total, ih _ y N hy, hy]
    exact this L 0 _ _ hθ
  rw [ec]
  cases mode
  · simp [Mode.kcon, capacity]
  · rw [Mode.kcon, one_mul]
    refine (sumOf_total _ _ _ .isenthalpic T P _ _ x lam θ L 0 (by omega) hm fun ph _ m => ?_).symm
    unfold Phase.vals
    split_ifs <;> simp only [val, capM] <;> ring
  · have := sumOf_total Std.cp (fun M => M.cp) (fun ph T P m => (ph.vals .isentropic T P m).p) .isentropic T P _ _ x lam θ L 0
      (by omega) hm (fun ph _ m => by
        unfold Phase.vals
        split_ifs <;> simp only [val, capM] <;> ring)
    rw [← this]
    simp only [Mode.kcon, capacity, Mode.at]
    ring
  · rw [Mode.kcon, one_mul]
    refine (sumOf_total _ _ _ .isochoric T P _ _ x lam θ L 0 (by omega) hm fun ph _ m => ?_).symm
    unfold Phase.vals
    split_ifs <;> simp only [val, capM] <;> ring

/-- **C76.** The inner iteration meets its tolerance: if after the step there is a temperature (pressure) `θ` at which the given quantity has the
required value `ref`, and between there and the starting point, and as far on the other side, the heat capacity (compressibility) varies by
no more than one half of its least value, then the 50 iterations suffice, the enthalpy (entropy, volume) is met within the tolerance, and the temperature
found is as near to `θ` as that tolerance implies. -/
theorem C76_inner_converges (hmode : mode ≠ .gibbs) (ref v θ c C : ℝ) (hc : 0 < c) (hCc : C ≤ 3 / 2 * c)
    (hsol : given mode T P L x lam θ = ref) (hfar : C * |v - θ| ≤ |ref|)
    (hok : ∀ t, |t - θ| ≤ |v - θ| → SoundAt mode T P L x lam t)
    (hD : (∀ t, |t - θ| ≤ |v - θ| → c ≤ capacity mode T P L x lam t ∧ capacity mode T P L x lam t ≤ C) ∨
      (∀ t, |t - θ| ≤ |v - θ| → c ≤ -capacity mode T P L x lam t ∧ -capacity mode T P L x lam t ≤ C)) :
    let a := adjust mode T P ref L x lam v
    |given mode T P L x lam a.2.1 - ref| ≤ mode.tol * |ref| ∧ |a.1 - θ| ≤ mode.tol * |ref| / (2 * c) := by
  intro a
  have key := halves (ref := ref) (ρ := |v - θ|) hsol hc hCc (fun t ht => given_deriv mode T P L x lam (hok t ht)) hD
  have hC : 0 ≤ C := by
    rcases hD with h | h
    · have := h θ (by simp); linarith
    · have := h θ (by simp); linarith
  have hs : ∀ t, |t - θ| ≤ |v - θ| → summed mode T P L x lam t = given mode T P L x lam t := fun t ht => summed_eq mode T P L x lam (hok t ht)
  have htol : (2 : ℝ)⁻¹ ^ 49 ≤ mode.tol := by
    unfold Mode.tol dblEps
    split_ifs <;> norm_num
  have hn : |a.2.2| ≤ mode.tol * |ref| ∧ |a.2.1 - θ| ≤ |v - θ| := by
    change |(adjust mode T P ref L x lam v).2.2| ≤ _ ∧ |(adjust mode T P ref L x lam v).2.1 - θ| ≤ _
    rw [adjust_eq mode T P L x lam hmode]
    refine newton_halves (C := C) hC (fun t ht => ?_) (fun t ht => ?_) le_rfl ?_
    · rw [hs t ht]; exact (key t ht).2.1
    · rw [hs t ht]; exact (key t ht).2.2
    · calc C * |v - θ| / 2 ^ 49 ≤ |ref| / 2 ^ 49 := by gcongr
        _ = 2⁻¹ ^ 49 * |ref| := by rw [inv_pow]; ring
        _ ≤ mode.tol * |ref| := by gcongr
  have hsp := newton_spec (f := summed mode T P L x lam) (upd := fun t r => t - r / capacity mode T P L x lam t) (ref := ref) (tol := mode.tol) v
  rw [← adjust_eq mode T P L x lam hmode] at hsp
  change a.2.2 = summed mode T P L x lam a.2.1 - ref ∧ a.1 = a.2.1 - a.2.2 / capacity mode T P L x lam a.2.1 at hsp
  rw [hs _ hn.2] at hsp
  have h1 : |given mode T P L x lam a.2.1 - ref| ≤ mode.tol * |ref| := by rw [← hsp.1]; exact hn.1
  refine ⟨h1, ?_⟩
  rw [hsp.2, hsp.1]
  obtain ⟨k1, -, k3⟩ := key _ hn.2
  refine k3.trans ?_
  rw [div_le_div_iff₀ (by norm_num) (by positivity)]
  nlinarith

/-- **C76.** When the inner iteration ends with the given quantity exactly met, the line search sees the potential of the assemblage after the step at the
temperature (pressure) where the given quantity has its required value. -/
theorem C76_constrained_value (hmode : mode ≠ .gibbs) (test : (ph : Phase) → (Fin ph.na → ℝ) → Bool) (ref : ℝ) (p : ℝ)
    (hp : linearSearch mode test T P ref L x lam = some p)
    (hex : (adjust mode T P ref L x lam (mode.var T P + lam * x (rows L).length)).2.2 = 0)
    (ok : SoundAt mode T P L x lam (adjust mode T P ref L x lam (mode.var T P + lam * x (rows L).length)).1) :
    ∃ θ, given mode T P L x lam θ = ref ∧ p = Psi mode T P (rows L).length L (moved (state mode T P L) x (rows L).length lam θ) := by
  have hsp := newton_spec (f := summed mode T P L x lam) (upd := fun t r => t - r / capacity mode T P L x lam t) (ref := ref) (tol := mode.tol)
    (mode.var T P + lam * x (rows L).length)
  rw [← adjust_eq mode T P L x lam hmode] at hsp
  set a := adjust mode T P ref L x lam (mode.var T P + lam * x (rows L).length) with ha
  have hst : a.1 = a.2.1 := by rw [hsp.2, hex]; simp
  refine ⟨a.1, ?_, ?_⟩
  · rw [← summed_eq mode T P L x lam ok, hst]
    have := hsp.1
    rw [hex] at this
    linarith
  · have ep := potential_eq mode T P L x lam a.1 ok
    unfold linearSearch at hp
    simp only at hp
    split_ifs at hp with h
    · rw [← ha, ← hst] at hp
      simp only [Option.some.injEq] at hp
      rw [← hp]
      exact ep

end con

end

end Magma.Engine.System
