import Verif.Engine.LineSearchProps

/-!
The step of the quadratic program is a direction of descent for the function that the line search minimises.
-/

namespace Magma.Engine.System

open Finset Filter Topology Magma.Thermo.Extensive Magma.Thermo.Compo
open Magma.Thermo.Mixing (Mix)
open Verif.Thermo.StdState (Std)

noncomputable section

/-! ### Specification -/

/-- The unknowns with the first `N + 1` replaced by `w`. -/
def graft (N : ℕ) (y : ℕ → ℝ) (w : Fin (N + 1) → ℝ) (k : ℕ) : ℝ := if h : k < N + 1 then w ⟨k, h⟩ else y k

/-- A function of the unknowns is differentiable in the first `N + 1` of them together. -/
def Joint (F : (ℕ → ℝ) → ℝ) (N : ℕ) (y : ℕ → ℝ) : Prop :=
  DifferentiableAt ℝ (fun w : Fin (N + 1) → ℝ => F (graft N y w)) (fun i => y i)

/-! ### Chain rule -/

theorem graft_self (N : ℕ) (y : ℕ → ℝ) : graft N y (fun i => y i) = y := by
  funext k
  unfold graft
  split_ifs <;> rfl

theorem graft_shift (N : ℕ) (y : ℕ → ℝ) (i : Fin (N + 1)) (h : ℝ) : graft N y ((fun i : Fin (N + 1) => y i) + h • (Pi.single i (1 : ℝ) : Fin (N + 1) → ℝ)) = shift y i h := by
  funext k
  unfold graft shift
  split_ifs with h1 h2 h2
  · subst h2
    simp
  · have : (⟨k, h1⟩ : Fin (N + 1)) ≠ i := fun e => h2 (congrArg Fin.val e)
    simp [Pi.single_eq_of_ne this]
  · omega
  · simp

theorem fderiv_single {F : (ℕ → ℝ) → ℝ} {N : ℕ} {y : ℕ → ℝ} (hF : Joint F N y) (i : Fin (N + 1)) :
    fderiv ℝ (fun w : Fin (N + 1) → ℝ => F (graft N y w)) (fun i => y i) (Pi.single i 1) = slope F i y := by
  have h1 : HasDerivAt (fun h : ℝ => (fun i : Fin (N + 1) => y i) + h • (Pi.single i (1 : ℝ) : Fin (N + 1) → ℝ)) (Pi.single i 1) 0 := by
    simpa using ((hasDerivAt_id (0 : ℝ)).smul_const (Pi.single i (1 : ℝ) : Fin (N + 1) → ℝ)).const_add (fun i : Fin (N + 1) => y i)
  have h2 := hF.hasFDerivAt.comp_hasDerivAt_of_eq (0 : ℝ) h1 (by simp)
  have e : (fun w : Fin (N + 1) → ℝ => F (graft N y w)) ∘ (fun h : ℝ => (fun i : Fin (N + 1) => y i) + h • (Pi.single i (1 : ℝ) : Fin (N + 1) → ℝ))
      = fun h => F (shift y i h) := by
    funext h
    exact congrArg F (graft_shift N y i h)
  rw [e] at h2
  exact h2.deriv.symm

/-- Along a curve through `y` the slope is the sum of the partial derivatives times the velocities. -/
theorem chain {F : (ℕ → ℝ) → ℝ} {N : ℕ} {y : ℕ → ℝ} (hF : Joint F N y) (c : ℝ → ℕ → ℝ) (c' : ℕ → ℝ) (h0 : c 0 = y)
    (hc : ∀ k ≤ N, HasDerivAt (fun t => c t k) (c' k) 0) (hout : ∀ t, ∀ k > N, c t k = y k) :
    HasDerivAt (fun t => F (c t)) (∑ k ∈ range (N + 1), slope F k y * c' k) 0 := by
  have h1 : HasDerivAt (fun t => fun i : Fin (N + 1) => c t i) (fun i => c' i) 0 :=
    hasDerivAt_pi.2 fun i => hc i (by omega)
  have h2 := hF.hasFDerivAt.comp_hasDerivAt_of_eq (0 : ℝ) h1 (by rw [h0])
  have e : (fun w : Fin (N + 1) → ℝ => F (graft N y w)) ∘ (fun t => fun i : Fin (N + 1) => c t i) = fun t => F (c t) := by
    funext t
    refine congrArg F (funext fun k => ?_)
    unfold graft
    split_ifs with h
    · rfl
    · exact (hout t k (by omega)).symm
  rw [e] at h2
  refine h2.congr_deriv ?_
  have e2 : (fun i : Fin (N + 1) => c' i) = ∑ i : Fin (N + 1), c' i • (Pi.single i (1 : ℝ) : Fin (N + 1) → ℝ) := by
    funext k
    simp [Finset.sum_apply, Pi.single_apply]
  rw [e2, map_sum, ← Fin.sum_univ_eq_sum_range (fun k => slope F k y * c' k)]
  refine sum_congr rfl fun i _ => ?_
  rw [map_smul, fderiv_single hF i, smul_eq_mul, mul_comm]

/-- A negative slope means that short steps go down. -/
theorem goes_down {φ : ℝ → ℝ} {d : ℝ} (h : HasDerivAt φ d 0) (hd : d < 0) : ∃ δ > 0, ∀ t, 0 < t → t < δ → φ t < φ 0 := by
  have h1 := (hasDerivAt_iff_tendsto_slope.1 h).eventually (gt_mem_nhds hd)
  rw [eventually_nhdsWithin_iff, Metric.eventually_nhds_iff] at h1
  obtain ⟨δ, hδ, h2⟩ := h1
  refine ⟨δ, hδ, fun t ht htd => ?_⟩
  have := h2 (y := t) (by simpa [abs_of_pos ht] using htd) ht.ne'
  simp only [slope_def_field, sub_zero] at this
  rw [div_lt_iff₀ ht, zero_mul] at this
  linarith

/-- The unknowns after a step agree with the present ones beyond the last. -/
def cutAt (N : ℕ) (x : ℕ → ℝ) (k : ℕ) : ℝ := if k ≤ N then x k else 0

theorem amounts_cut (ph : Phase) {k N : ℕ} (hN : k + ph.slots.length ≤ N) (x y : ℕ → ℝ) (h : ∀ i < N, x i = y i) : ph.amounts k x = ph.amounts k y := by
  funext j
  unfold Phase.amounts
  by_cases hj : j ∈ ph.slots
  · have := List.idxOf_lt_length_of_mem hj
    rw [if_pos hj, if_pos hj, h _ (by omega)]
  · rw [if_neg hj, if_neg hj]

theorem total_cut (f : (ph : Phase) → ℝ → ℝ → (Fin ph.na → ℝ) → ℝ) (mode : Mode) (T P : ℝ) (N : ℕ) (x y : ℕ → ℝ) (h : ∀ i ≤ N, x i = y i) :
    ∀ (L : List Phase) (k : ℕ), k + (rows L).length ≤ N → total f mode T P N k L x = total f mode T P N k L y := by
  intro L
  induction L with
  | nil => intro _ _; rfl
  | cons ph L ih =>
    intro k hN
    simp only [rows, List.length_append, List.length_map] at hN
    simp only [total]
    rw [h N le_rfl, amounts_cut ph (N := N) (by omega) x y (fun i hi => h i hi.le), ih _ (by omega)]

/-! ### Given temperature and pressure -/

/-- **C76.** The slope of the function the line search minimises, at the start of the step, is the gradient of the Gibbs energy along the
step. -/
theorem C76_slope (T P : ℝ) (L : List Phase) (x : ℕ → ℝ) (hj : Joint (Psi .gibbs T P (rows L).length L) (rows L).length (state .gibbs T P L)) :
    HasDerivAt (fun lam => Psi .gibbs T P (rows L).length L (fun k => state .gibbs T P L k + lam * x k))
      (∑ k ∈ range (rows L).length, Magma.Engine.System.slope (Psi .gibbs T P (rows L).length L) k (state .gibbs T P L) * x k) 0 := by
  set N := (rows L).length
  set y := state .gibbs T P L
  have h := chain hj (fun lam k => y k + lam * cutAt N x k) (cutAt N x) (by funext k; simp)
    (fun k _ => by simpa using ((hasDerivAt_id (0 : ℝ)).mul_const (cutAt N x k)).const_add (y k))
    (fun t k hk => by simp [cutAt, not_le.mpr hk])
  have e : (fun lam => Psi .gibbs T P N L (fun k => y k + lam * cutAt N x k)) = fun lam => Psi .gibbs T P N L (fun k => y k + lam * x k) := by
    funext lam
    exact total_cut _ _ _ _ _ _ _ (fun i hi => by simp [cutAt, hi]) L 0 (by omega)
  rw [e] at h
  refine h.congr_deriv ?_
  rw [sum_range_succ]
  have hz : Magma.Engine.System.slope (Psi .gibbs T P N L) N y = 0 := by
    unfold slope
    have : (fun h => Psi .gibbs T P N L (shift y N h)) = fun _ => Psi .gibbs T P N L y := by
      funext h
      have : ∀ (L : List Phase) (k : ℕ), k + (rows L).length ≤ N →
          total (fun ph => ph.psi .gibbs) .gibbs T P N k L (shift y N h) = total (fun ph => ph.psi .gibbs) .gibbs T P N k L y := by
        intro L
        induction L with
        | nil => intro _ _; rfl
        | cons ph L ih =>
          intro k hN
          simp only [rows, List.length_append, List.length_map] at hN
          simp only [total, Mode.at]
          rw [amounts_cut ph (N := N) (by omega) (shift y N h) y (fun i hi => shift_ne _ _ hi.ne), ih _ (by omega)]
      exact this L 0 (by omega)
    rw [this, deriv_const]
  rw [hz, zero_mul, add_zero]
  refine sum_congr rfl fun k hk => ?_
  rw [cutAt, if_pos (mem_range.mp hk).le]

open Magma.Num.Householder Magma.Num.Constraint Magma.Num.Hfti Magma.Num in
/-- **C76.** At given temperature and pressure: when the solver reports full rank, the composition meets the mass balance, and the Hessian is positive
along the computed step, every sufficiently short feasible step lowers what the line search minimises. -/
theorem C76_descent (test : (ph : Phase) → (Fin ph.na → ℝ) → Bool) (T P ref : ℝ) (L : List Phase) (comps : List ℕ) (bulk h0 g0 h0' : ℕ → ℝ) (p0 : ℕ → ℕ)
    (hrc : comps.length < (rows L).length)
    (hind : ∀ a : ℕ → ℝ, (∀ j < (rows L).length, ∑ i ∈ range comps.length, a i * conMatrix .gibbs T P comps L i j = 0) →
      ∀ i < comps.length, a i = 0)
    (hb : ∀ k (hk : k < comps.length), content comps[k] 0 L (state .gibbs T P L) = bulk comps[k])
    (ok : ∀ᶠ z in 𝓝 (state .gibbs T P L), SysOK .gibbs T P (rows L).length 0 L z)
    (hj : Joint (Psi .gibbs T P (rows L).length L) (rows L).length (state .gibbs T P L)) :
    let N := (rows L).length
    let y := state .gibbs T P L
    let S := assemble .gibbs (hasNlCon .gibbs false) T P N 0 L Mats.zero
    let C := conMatrix .gibbs T P comps L
    let d := conVector .gibbs bulk comps
    let F := decomp comps.length N comps.length (C, h0)
    let r := quad (N - comps.length) (fun i j => Reduced.hat F comps.length N S.e (comps.length + i) (comps.length + j))
      (fun i => Reduced.rhs F comps.length N S.e S.b (fwd F.1 d comps.length) (comps.length + i)) g0 h0' p0
    let xnew := solve comps.length N C d (fun j => r.2.2 (j - comps.length)) h0
    let x := fun k => xnew k - y k
    r.1 = N - comps.length → 0 < ∑ k ∈ range N, x k * ∑ j ∈ range N, S.e k j * x j →
    ∃ δ > 0, ∀ lam v v0, 0 < lam → lam < δ → linearSearch .gibbs test T P ref L x lam = some v →
      linearSearch .gibbs test T P ref L x 0 = some v0 → v < v0 := by
  intro N y S C d F r xnew x hr hpos
  have hN : 0 + (rows L).length ≤ N := by omega
  have ok0 : SysOK .gibbs T P N 0 L y := ok.self_of_nhds
  obtain ⟨n1, n2⟩ := C69_newton T P L comps bulk h0 g0 h0' p0 hrc hind ok0 hr
  have hkeep : ∀ i ∈ comps, content i 0 L x = 0 := by
    intro i hi
    obtain ⟨k, hk, rfl⟩ := List.getElem_of_mem hi
    have e1 := conMatrix_content .gibbs T P comps L hk (le_refl N) x
    have e2 := conMatrix_content .gibbs T P comps L hk (le_refl N) xnew
    have e3 := conMatrix_content .gibbs T P comps L hk (le_refl N) y
    rw [← e1]
    simp only [x, mul_sub, sum_sub_distrib]
    rw [e2, e3, n1 k hk, hb k hk, sub_self]
  have hn := n2 x hkeep
  have hs := C76_slope T P L x hj
  have hneg : ∑ k ∈ range N, Magma.Engine.System.slope (Psi .gibbs T P N L) k y * x k < 0 := by
    have : ∑ k ∈ range N, x k * (Magma.Engine.System.slope (Psi .gibbs T P N L) k y + ∑ j ∈ range N, S.e k j * x j) = 0 := hn
    simp only [mul_add, sum_add_distrib] at this
    have e : ∑ k ∈ range N, Magma.Engine.System.slope (Psi .gibbs T P N L) k y * x k = ∑ k ∈ range N, x k * Magma.Engine.System.slope (Psi .gibbs T P N L) k y :=
      sum_congr rfl fun k _ => mul_comm _ _
    rw [e]
    linarith
  obtain ⟨δ, hδ, hdown⟩ := goes_down hs hneg
  have okl : ∀ᶠ lam in 𝓝 (0 : ℝ), SysOK .gibbs T P N 0 L (fun k => y k + lam * x k) := by
    have hcont : ContinuousAt (fun lam : ℝ => (fun k => y k + lam * x k : ℕ → ℝ)) 0 :=
      (continuous_pi fun k => continuous_const.add (continuous_id.mul continuous_const)).continuousAt
    exact hcont.eventually (by simp only [zero_mul, add_zero]; exact ok)
  have ok00 := okl.self_of_nhds
  rw [Metric.eventually_nhds_iff] at okl
  obtain ⟨ε, hε, okl⟩ := okl
  refine ⟨min δ ε, lt_min hδ hε, fun lam v v0 hl hl2 hv hv0 => ?_⟩
  have okk := okl (y := lam) (by simpa [abs_of_pos hl] using hl2.trans_le (min_le_right _ _))
  rw [((C76_gibbs_value test T P ref L x lam v okk).1 hv).2, ((C76_gibbs_value test T P ref L x 0 v0 ok00).1 hv0).2]
  exact hdown lam hl (hl2.trans_le (min_le_left _ _))

/-! ### Given enthalpy, entropy or volume -/

/-- **C76.** Let `θ` be the temperature (pressure) at which the given quantity keeps its value along the step. Its rate of change is the
increment the quadratic program computed, and the slope of the potential along the step is the potential's gradient along the whole step, including the
increment of temperature (pressure). -/
theorem C76_constrained_slope (mode : Mode) (T P : ℝ) (L : List Phase) (x : ℕ → ℝ) (θ : ℝ → ℝ) (θ' : ℝ)
    (hp : Joint (Psi mode T P (rows L).length L) (rows L).length (state mode T P L))
    (hc : Joint (Con mode T P (rows L).length L) (rows L).length (state mode T P L))
    (hkeep : ∑ k ∈ range ((rows L).length + 1), Magma.Engine.System.slope (Con mode T P (rows L).length L) k (state mode T P L) * x k = 0)
    (hcap : Magma.Engine.System.slope (Con mode T P (rows L).length L) (rows L).length (state mode T P L) ≠ 0)
    (h0 : θ 0 = mode.var T P) (hθ : HasDerivAt θ θ' 0)
    (hg : ∀ᶠ lam in 𝓝 (0 : ℝ), given mode T P L x lam (θ lam) = given mode T P L x 0 (θ 0)) :
    θ' = x (rows L).length ∧
    HasDerivAt (fun lam => Psi mode T P (rows L).length L (moved (state mode T P L) x (rows L).length lam (θ lam)))
      (∑ k ∈ range ((rows L).length + 1), Magma.Engine.System.slope (Psi mode T P (rows L).length L) k (state mode T P L) * x k) 0 := by
  set N := (rows L).length
  set y := state mode T P L
  have hyN : y N = mode.var T P := if_pos rfl
  have curve : ∀ F : (ℕ → ℝ) → ℝ, Joint F N y → (∀ z z' : ℕ → ℝ, (∀ i ≤ N, z i = z' i) → F z = F z') →
      HasDerivAt (fun lam => F (moved y x N lam (θ lam))) (∑ k ∈ range (N + 1), slope F k y * (if k = N then θ' else x k)) 0 := by
    intro F hF hloc
    have h := chain hF (fun lam k => if k ≤ N then moved y x N lam (θ lam) k else y k) (fun k => if k = N then θ' else x k)
      (by
        funext k
        unfold moved
        split_ifs with h1 h2
        · rw [h2, h0, hyN]
        · simp
        · rfl)
      (fun k hk => by
        simp only [hk, if_true]
        unfold moved
        split_ifs with h
        · exact hθ
        · simpa using ((hasDerivAt_id (0 : ℝ)).mul_const (x k)).const_add (y k))
      (fun t k hk => by simp [not_le.mpr hk])
    have e : (fun lam => F (fun k => if k ≤ N then moved y x N lam (θ lam) k else y k)) = fun lam => F (moved y x N lam (θ lam)) := by
      funext lam
      exact hloc _ _ fun i hi => by simp [hi]
    rwa [e] at h
  have hC := curve _ hc (fun z z' h => total_cut _ _ _ _ _ _ _ h L 0 (by omega))
  have hP := curve _ hp (fun z z' h => total_cut _ _ _ _ _ _ _ h L 0 (by omega))
  have hconst : HasDerivAt (fun lam => Con mode T P N L (moved y x N lam (θ lam))) 0 0 :=
    (hasDerivAt_const (0 : ℝ) (given mode T P L x 0 (θ 0))).congr_of_eventuallyEq hg
  have hz := hC.unique hconst
  have hx : θ' = x N := by
    rw [sum_range_succ, if_pos rfl] at hz
    rw [sum_range_succ] at hkeep
    have e : ∑ k ∈ range N, slope (Con mode T P N L) k y * (if k = N then θ' else x k) = ∑ k ∈ range N, slope (Con mode T P N L) k y * x k :=
      sum_congr rfl fun k hk => by rw [if_neg (mem_range.mp hk).ne]
    rw [e] at hz
    have : slope (Con mode T P N L) N y * (θ' - x N) = 0 := by linarith
    rcases mul_eq_zero.mp this with h | h
    · exact absurd h hcap
    · linarith
  refine ⟨hx, hP.congr_deriv (sum_congr rfl fun k _ => ?_)⟩
  split_ifs with h
  · rw [h, hx]
  · rfl

open Magma.Num.Householder Magma.Num.Constraint Magma.Num.Hfti Magma.Num in
/-- **C76.** At given enthalpy, entropy or volume: when the solver reports full rank and the Hessian of the Lagrangian is positive along the computed step, the
potential of the assemblage that keeps the given quantity decreases along the step. -/
theorem C76_constrained_descent (mode : Mode) (hmode : mode ≠ .gibbs) (T P lambda : ℝ) (L : List Phase) (comps : List ℕ)
    (bulk h0 g0 h0' : ℕ → ℝ) (p0 : ℕ → ℕ) (hrc : comps.length < (rows L).length)
    (hl : ∀ ph ∈ L.tail, ph.liq = false)
    (hind : ∀ a : ℕ → ℝ, (∀ j < (rows L).length + 1, ∑ i ∈ range (comps.length + 1), a i * conMatrix mode T P comps L i j = 0) →
      ∀ i < comps.length + 1, a i = 0)
    (ok : SysOK mode T P (rows L).length 0 L (state mode T P L))
    (hp : Joint (Psi mode T P (rows L).length L) (rows L).length (state mode T P L))
    (hc : Joint (Con mode T P (rows L).length L) (rows L).length (state mode T P L))
    (hcap : Magma.Engine.System.slope (Con mode T P (rows L).length L) (rows L).length (state mode T P L) ≠ 0) :
    let N := (rows L).length
    let S := assemble mode (hasNlCon mode false) T P N 0 L Mats.zero
    let E := corrected mode lambda S
    let C := conMatrix mode T P comps L
    let d := conVector mode bulk comps
    let q := comps.length + 1
    let F := decomp q (N + 1) q (C, h0)
    let r := quad (N + 1 - q) (fun i j => Reduced.hat F q (N + 1) E (q + i) (q + j))
      (fun i => Reduced.rhs F q (N + 1) E S.b (fwd F.1 d q) (q + i)) g0 h0' p0
    let x := solve q (N + 1) C d (fun j => r.2.2 (j - q)) h0
    r.1 = N + 1 - q → 0 < ∑ k ∈ range (N + 1), x k * ∑ j ∈ range (N + 1), E k j * x j →
    ∀ (θ : ℝ → ℝ) (θ' : ℝ), θ 0 = mode.var T P → HasDerivAt θ θ' 0 →
      (∀ᶠ lam in 𝓝 (0 : ℝ), given mode T P L x lam (θ lam) = given mode T P L x 0 (θ 0)) →
    ∃ δ > 0, ∀ lam, 0 < lam → lam < δ →
      Psi mode T P N L (moved (state mode T P L) x N lam (θ lam)) < Psi mode T P N L (state mode T P L) := by
  intro N S E C d q F r x hr hpos θ θ' hθ0 hθ hg
  obtain ⟨hk, hn⟩ := C69_constrained_newton mode hmode T P lambda L comps bulk h0 g0 h0' p0 hrc hl hind ok hr
  obtain ⟨-, hs⟩ := C76_constrained_slope mode T P L x θ θ' hp hc hk.2 hcap hθ0 hθ hg
  have h := hn x hk
  have hneg : ∑ k ∈ range (N + 1), Magma.Engine.System.slope (Psi mode T P N L) k (state mode T P L) * x k < 0 := by
    have h' : ∑ k ∈ range (N + 1), x k * (Magma.Engine.System.slope (Psi mode T P N L) k (state mode T P L) + ∑ j ∈ range (N + 1), E k j * x j) = 0 := h
    simp only [mul_add, sum_add_distrib] at h'
    have e : ∑ k ∈ range (N + 1), Magma.Engine.System.slope (Psi mode T P N L) k (state mode T P L) * x k
        = ∑ k ∈ range (N + 1), x k * Magma.Engine.System.slope (Psi mode T P N L) k (state mode T P L) := sum_congr rfl fun k _ => mul_comm _ _
    rw [e]
    linarith
  obtain ⟨δ, hδ, hd⟩ := goes_down hs hneg
  refine ⟨δ, hδ, fun lam h1 h2 => (hd lam h1 h2).trans_eq ?_⟩
  congr 1
  funext k
  unfold moved
  split_ifs with h
  · rw [h, hθ0]; exact (if_pos rfl).symm
  · simp

end

end Magma.Engine.System
