import Verif.Engine.LineBuffer
import Verif.Engine.LineExample

/-!
The step computed under an oxygen buffer is a direction of descent for what the line search sees.
-/

namespace Magma.Engine.System

open Finset Filter Topology Magma.Thermo.Extensive Magma.Thermo.Redox Magma.Thermo.Buffers
open Magma.Thermo.MuO2 (oxides lin)
open Verif.Thermo.StdState (Std)

noncomputable section

variable {nc : ℕ}

/-! ### Unknowns of the corrected assemblage -/

/-- The rows of the first phase, a liquid, moved along the oxidation of its iron. -/
def nuRow (M : Melt nc) (l : Phase) (k : ℕ) : ℝ := if h : k < l.slots.length then M.nu l l.slots[k] else 0

/-- The unknowns after the step and the correction. -/
def track (M : Melt nc) (T P f : ℝ) (l : Phase) (y x : ℕ → ℝ) (lam : ℝ) (k : ℕ) : ℝ :=
  y k + lam * x k + M.ferric T P f l (l.after 0 x lam) * nuRow M l k

/-- Amounts that are those of the unknowns `z`. -/
def Fits (amt : ℕ → (ph : Phase) → Fin ph.na → ℝ) (z : ℕ → ℝ) : ℕ → List Phase → Prop
  | _, [] => True
  | k, ph :: L => ph.amounts k z = amt k ph ∧ Fits amt z (k + ph.slots.length) L

theorem sumAt_total (F : (ph : Phase) → (Fin ph.na → ℝ) → ℝ) (G : (ph : Phase) → ℝ → ℝ → (Fin ph.na → ℝ) → ℝ) (T P : ℝ) (N : ℕ) (amt : ℕ → (ph : Phase) → Fin ph.na → ℝ) (z : ℕ → ℝ)
    (hG : ∀ ph m, G ph T P m = F ph m) :
    ∀ (L : List Phase) (k : ℕ), Fits amt z k L → sumAt (fun k ph => F ph (amt k ph)) k L = total G .gibbs T P N k L z := by
  intro L
  induction L with
  | nil => intro _ _; rfl
  | cons ph L ih =>
    intro k h
    simp only [sumAt, total, Mode.at]
    rw [hG, h.1, ih _ h.2]

theorem nuRow_at (M : Melt nc) (l : Phase) {j : Fin l.na} (hj : j ∈ l.slots) : nuRow M l (l.slots.idxOf j) = M.nu l j := by
  have h := List.idxOf_lt_length_of_mem hj
  rw [nuRow, dif_pos h, List.getElem_idxOf]

theorem fits_track (M : Melt nc) (T P f : ℝ) (l : Phase) (sols : List Phase) (x : ℕ → ℝ) (lam : ℝ) (hl : l.liq = true) (h : M.Inverse l)
    (hne : M.fe2 ≠ M.fe3) (hsol : ∀ ph ∈ sols, ph.liq = false) (hnu : ∀ j ∉ l.slots, M.nu l j = 0) :
    Fits (M.settled T P f x lam) (track M T P f l (state .gibbs T P (l :: sols)) x lam) 0 (l :: sols) := by
  have hm : Match (rows (l :: sols)).length 0 (l :: sols) (state .gibbs T P (l :: sols)) := match_state .gibbs T P (l :: sols)
  set y := state .gibbs T P (l :: sols)
  refine ⟨?_, ?_⟩
  · funext j
    unfold Melt.settled
    rw [if_pos hl, M.set_line T P f l _ h hne]
    have hmj := congrFun hm.1 j
    unfold Phase.amounts at hmj ⊢
    unfold Phase.after
    by_cases hj : j ∈ l.slots
    · rw [if_pos hj] at hmj ⊢
      unfold track
      rw [Nat.zero_add] at hmj ⊢
      rw [hmj, nuRow_at M l hj]
      unfold Phase.amounts
      rw [if_pos hj, Nat.zero_add]
      rfl
    · rw [if_neg hj, hnu j hj, m_off l hj, Phase.amounts, if_neg hj]
      ring
  · have key : ∀ (L : List Phase) (k : ℕ), l.slots.length ≤ k → (∀ ph ∈ L, ph.liq = false) → Match (rows (l :: sols)).length k L y →
        Fits (M.settled T P f x lam) (track M T P f l y x lam) k L := by
      intro L
      induction L with
      | nil => intro _ _ _ _; trivial
      | cons ph L ih =>
        intro k hk hL hM
        refine ⟨?_, ih _ (by omega) (fun p hp => hL p (List.mem_cons_of_mem _ hp)) hM.2⟩
        funext j
        have hmj := congrFun hM.1 j
        unfold Melt.settled
        rw [if_neg (by simp [hL ph List.mem_cons_self])]
        unfold Phase.after
        unfold Phase.amounts at hmj ⊢
        by_cases hj : j ∈ ph.slots
        · rw [if_pos hj] at hmj ⊢
          rw [if_pos hj, track, nuRow, dif_neg (by omega), hmj]
          ring
        · rw [if_neg hj, if_neg hj, m_off ph hj]
          ring
    exact key sols _ (by omega) hsol hm.2

/-- What the line search sees is the potential of the open system at the corrected unknowns. -/
theorem buffered_phi (M : Melt nc) (o : ℝ → ℝ → Std) (test : (ph : Phase) → (Fin ph.na → ℝ) → Bool) (T P f : ℝ) (E : Ext) (l : Phase) (sols : List Phase)
    (x : ℕ → ℝ) (lam v : ℝ) (hl : l.liq = true) (h : M.Inverse l) (hne : M.fe2 ≠ M.fe3) (hsol : ∀ ph ∈ sols, ph.liq = false)
    (hnu : ∀ j ∉ l.slots, M.nu l j = 0) (hv : bufferedSearch M o test T P f l sols x lam = some v) :
    v = Phi .gibbs T P (rows (l :: sols)).length E ((Oxy.melts M.capped M.fe2 M.fe3 M.coeff (M.toOx l)).std o) (l :: sols)
      (track M T P f l (state .gibbs T P (l :: sols)) x lam) := by
  have hf := fits_track M T P f l sols x lam hl h hne hsol hnu
  unfold bufferedSearch at hv
  split_ifs at hv
  simp only [Option.some.injEq] at hv
  rw [← hv]
  have e1 : gibbsOf T P (M.settled T P f x lam) = fun k ph => ph.G T P (M.settled T P f x lam k ph) := by
    funext k ph
    exact gibbsOf_eq T P _ k ph
  have e2 : oxyOf (M.settled T P f x lam) = fun k ph => ∑ j, M.settled T P f x lam k ph j * ph.o2 j := by
    funext k ph
    exact sum_congr rfl fun j _ => mul_comm _ _
  rw [e1, e2, sumAt_total (fun ph m => ph.G T P m) (fun ph => ph.psi .gibbs) T P (rows (l :: sols)).length _ _ (fun ph m => rfl) _ 0 hf,
    sumAt_total (fun ph m => ∑ j, m j * ph.o2 j) (fun ph _ _ m => ∑ j, m j * ph.o2 j) T P (rows (l :: sols)).length _ _ (fun ph m => rfl) _ 0 hf]
  simp only [Phi, Psi, oxygenOf, potL, Oxy.std, Mode.at]
  rw [hf.1]

/-! ### The oxidation -/

theorem oxides_add (A : Fin n → Fin nc → ℝ) (a b : Fin n → ℝ) (t : ℝ) (i : Fin nc) :
    oxides A (fun j => a j + t * b j) i = oxides A a i + t * oxides A b i := by
  unfold oxides
  rw [mul_sum, ← sum_add_distrib]
  exact sum_congr rfl fun j _ => by ring

theorem nu_oxides (M : Melt nc) (l : Phase) (h : M.Inverse l) (i : Fin nc) :
    oxides (M.toOx l) (M.nu l) i = (if i = M.fe3 then 1 else 0) - 2 * (if i = M.fe2 then 1 else 0) := by
  have h3 := h.1 (fun k => if k = M.fe3 then 1 else 0) i
  have h2 := h.1 (fun k => if k = M.fe2 then 1 else 0) i
  simp only [mul_ite, mul_one, mul_zero, sum_ite_eq', mem_univ, if_true] at h2 h3
  rw [← h3, ← h2]
  unfold oxides Melt.nu
  rw [mul_sum, ← sum_sub_distrib]
  exact sum_congr rfl fun j _ => by ring

/-- The Fe2O3 made by the correction varies smoothly along a step. -/
theorem ferric_diff (M : Melt nc) (T P f : ℝ) (l : Phase) (m d : Fin l.na → ℝ) (hne : M.fe2 ≠ M.fe3)
    (hfe : IronBearing M.fe2 M.fe3 (oxides (M.toOx l) m)) :
    DifferentiableAt ℝ (fun t : ℝ => M.ferric T P f l (fun j => m j + t * d j)) 0 := by
  set a := oxides (M.toOx l) m with ha
  set b := oxides (M.toOx l) d with hb
  have ho : ∀ t : ℝ, oxides (M.toOx l) (fun j => m j + t * d j) = fun i => a i + t * b i := by
    intro t
    funext i
    exact oxides_add _ _ _ _ _
  have dl : ∀ u v : ℝ, DifferentiableAt ℝ (fun t : ℝ => u + t * v) 0 := fun u v =>
    (differentiableAt_const _).add (differentiableAt_id.mul (differentiableAt_const _))
  have hall : ∀ (t : ℝ) i, allFeO M.fe2 M.fe3 (fun i => a i + t * b i) i = allFeO M.fe2 M.fe3 a i + t * allFeO M.fe2 M.fe3 b i := by
    intro t i
    unfold allFeO
    simp only [Function.update_apply]
    split_ifs <;> ring
  have hiron : ∀ t : ℝ, iron M.fe2 M.fe3 (fun i => a i + t * b i) = iron M.fe2 M.fe3 a + t * iron M.fe2 M.fe3 b := by
    intro t
    unfold iron
    ring
  have hsum : ∀ t : ℝ, ∑ i, allFeO M.fe2 M.fe3 (fun i => a i + t * b i) i = (∑ i, allFeO M.fe2 M.fe3 a i) + t * ∑ i, allFeO M.fe2 M.fe3 b i := by
    intro t
    rw [mul_sum, ← sum_add_distrib]
    exact sum_congr rfl fun i _ => hall t i
  have n1 : ∀ᶠ t in 𝓝 (0 : ℝ), iron M.fe2 M.fe3 a + t * iron M.fe2 M.fe3 b ≠ 0 :=
    (dl _ _).continuousAt.eventually_ne (by simpa using hfe.2.ne')
  have n2 : ∀ᶠ t in 𝓝 (0 : ℝ), (∑ i, allFeO M.fe2 M.fe3 a i) + t * ∑ i, allFeO M.fe2 M.fe3 b i ≠ 0 :=
    (dl _ _).continuousAt.eventually_ne (by simpa using (hfe.sum_pos hne).ne')
  set K : ℝ → ℝ := fun t => Real.exp (cA * Real.log 10 * f + tpTerm M.capped T P +
    ∑ i, M.coeff i * ((allFeO M.fe2 M.fe3 a i + t * allFeO M.fe2 M.fe3 b i) / ((∑ i, allFeO M.fe2 M.fe3 a i) + t * ∑ i, allFeO M.fe2 M.fe3 b i))) with hK
  have e : (fun t : ℝ => M.ferric T P f l (fun j => m j + t * d j)) =ᶠ[𝓝 0]
      fun t => K t * (iron M.fe2 M.fe3 a + t * iron M.fe2 M.fe3 b) / (1 + 2 * K t) - (a M.fe3 + t * b M.fe3) := by
    filter_upwards [n1, n2] with t h1 h2
    unfold Melt.ferric
    rw [ho t]
    obtain ⟨k, hk, e3, -, -⟩ := setRedox_eq M.capped M.fe2 M.fe3 hne M.coeff T P f (fun i => a i + t * b i) (by rw [hiron]; exact h1) (by rw [hsum]; exact h2)
    rw [e3, hiron]
    have : k = K t := by
      rw [hk, hK, hsum]
      simp only [hall]
    rw [this]
  refine DifferentiableAt.congr_of_eventuallyEq ?_ e
  have dK : DifferentiableAt ℝ K 0 := by
    refine DifferentiableAt.exp (DifferentiableAt.const_add _ (DifferentiableAt.fun_sum fun i _ => ?_))
    exact DifferentiableAt.const_mul ((dl _ _).div (dl _ _) (by simpa using (hfe.sum_pos hne).ne')) _
  have hpos : (1 : ℝ) + 2 * K 0 ≠ 0 := by
    have : 0 < K 0 := Real.exp_pos _
    positivity
  exact ((dK.mul (dl _ _)).div ((dK.const_mul 2).const_add 1) hpos).sub (dl _ _)

/-- Oxidation raises the potential of oxygen in the liquid. -/
theorem mu_nu (M : Melt nc) (T P : ℝ) (l : Phase) (m : Fin l.na → ℝ) (h : M.Inverse l) (hne : M.fe2 ≠ M.fe3)
    (h2 : 0 < oxides (M.toOx l) m M.fe2) (h3 : 0 < oxides (M.toOx l) m M.fe3) (h0 : ∀ i, 0 ≤ oxides (M.toOx l) m i) :
    HasDerivAt (fun t : ℝ => Magma.Thermo.MuO2.mu M.capped M.fe2 M.fe3 M.coeff (M.toOx l) T P (fun j => m j + t * M.nu l j))
      (Magma.Thermo.MuO2.R * T * (1 / oxides (M.toOx l) m M.fe3 + 2 / oxides (M.toOx l) m M.fe2) / cA) 0 := by
  set a := oxides (M.toOx l) m with ha
  have ho : ∀ t : ℝ, oxides (M.toOx l) (fun j => m j + t * M.nu l j)
      = fun i => a i + t * ((if i = M.fe3 then 1 else 0) - 2 * (if i = M.fe2 then 1 else 0)) := by
    intro t
    funext i
    rw [oxides_add, nu_oxides M l h]
  have o3 : ∀ t : ℝ, oxides (M.toOx l) (fun j => m j + t * M.nu l j) M.fe3 = a M.fe3 + t := by
    intro t
    rw [ho]
    simp [hne.symm]
  have o2 : ∀ t : ℝ, oxides (M.toOx l) (fun j => m j + t * M.nu l j) M.fe2 = a M.fe2 - 2 * t := by
    intro t
    rw [ho]
    simp [hne]
    ring
  have htot : ∀ t : ℝ, Magma.Thermo.MuO2.total M.fe3 (oxides (M.toOx l) (fun j => m j + t * M.nu l j)) = Magma.Thermo.MuO2.total M.fe3 a := by
    intro t
    unfold Magma.Thermo.MuO2.total
    rw [o3, ho]
    simp only [mul_sub, sum_add_distrib, sum_sub_distrib, mul_ite, mul_one, mul_zero, sum_ite_eq', mem_univ, if_true]
    ring
  have hlin : ∀ t : ℝ, lin M.fe2 M.fe3 M.coeff (oxides (M.toOx l) (fun j => m j + t * M.nu l j)) = lin M.fe2 M.fe3 M.coeff a := by
    intro t
    unfold lin
    rw [o3, ho]
    simp only [mul_add, mul_sub, sum_add_distrib, sum_sub_distrib, mul_ite, mul_one, mul_zero, sum_ite_eq', mem_univ, if_true]
    ring
  have ht : Magma.Thermo.MuO2.total M.fe3 a ≠ 0 := by
    unfold Magma.Thermo.MuO2.total
    have : a M.fe3 ≤ ∑ i, a i := single_le_sum (fun i _ => h0 i) (mem_univ M.fe3)
    linarith
  have n3 : ∀ᶠ t in 𝓝 (0 : ℝ), a M.fe3 + t ≠ 0 :=
    (continuous_const.add continuous_id).continuousAt.eventually_ne (by simpa using h3.ne')
  have n2 : ∀ᶠ t in 𝓝 (0 : ℝ), a M.fe2 - 2 * t ≠ 0 :=
    (continuous_const.sub (continuous_const.mul continuous_id)).continuousAt.eventually_ne (by simpa using h2.ne')
  have e : (fun t : ℝ => Magma.Thermo.MuO2.mu M.capped M.fe2 M.fe3 M.coeff (M.toOx l) T P (fun j => m j + t * M.nu l j)) =ᶠ[𝓝 0]
      fun t => Magma.Thermo.MuO2.R * T * (Real.log ((a M.fe3 + t) / (a M.fe2 - 2 * t))
        - (tpTerm M.capped T P + lin M.fe2 M.fe3 M.coeff a / Magma.Thermo.MuO2.total M.fe3 a)) / cA := by
    filter_upwards [n2, n3] with t h2 h3
    unfold Magma.Thermo.MuO2.mu
    rw [Magma.Thermo.MuO2.guarded_of, Magma.Thermo.MuO2.temp_eq, htot, hlin, o3, o2]
    unfold Magma.Thermo.MuO2.Absent
    rw [htot, o3, o2]
    push Not
    exact ⟨ht, h2, h3⟩
  refine HasDerivAt.congr_of_eventuallyEq ?_ e
  have d3 : HasDerivAt (fun t : ℝ => a M.fe3 + t) 1 0 := (hasDerivAt_id 0).const_add _
  have d2 : HasDerivAt (fun t : ℝ => a M.fe2 - 2 * t) (-2) 0 := by
    simpa using ((hasDerivAt_id (0 : ℝ)).const_mul 2).const_sub (a M.fe2)
  have d := (((d3.div d2 (by simpa using h2.ne')).log (by simp [h2.ne', h3.ne'])).sub_const
    (tpTerm M.capped T P + lin M.fe2 M.fe3 M.coeff a / Magma.Thermo.MuO2.total M.fe3 a)).const_mul (Magma.Thermo.MuO2.R * T) |>.div_const cA
  refine d.congr_deriv ?_
  simp only [Pi.div_apply, add_zero, mul_zero, sub_zero]
  have := h2.ne'
  have := h3.ne'
  field_simp
  ring

/-! ### Joint differentiability -/

theorem oxides_diff {n : ℕ} (A : Fin n → Fin nc → ℝ) (i : Fin nc) (m : Fin n → ℝ) : DifferentiableAt ℝ (fun m : Fin n → ℝ => oxides A m i) m :=
  DifferentiableAt.fun_sum fun j _ => (differentiableAt_apply j m).const_mul _

theorem mu_diff {n : ℕ} (capped : Bool) (fe2 fe3 : Fin nc) (coeff : Fin nc → ℝ) (A : Fin n → Fin nc → ℝ) (T P : ℝ) (m : Fin n → ℝ)
    (hp : ¬ Magma.Thermo.MuO2.Absent fe2 fe3 (oxides A m)) :
    DifferentiableAt ℝ (fun m : Fin n → ℝ => Magma.Thermo.MuO2.mu capped fe2 fe3 coeff A T P m) m := by
  have hp' := hp
  unfold Magma.Thermo.MuO2.Absent at hp'
  push Not at hp'
  obtain ⟨h0, h2, h3⟩ := hp'
  have dt : DifferentiableAt ℝ (fun m : Fin n → ℝ => Magma.Thermo.MuO2.total fe3 (oxides A m)) m :=
    (DifferentiableAt.fun_sum fun i _ => oxides_diff A i m).add (oxides_diff A fe3 m)
  have dn : DifferentiableAt ℝ (fun m : Fin n → ℝ => lin fe2 fe3 coeff (oxides A m)) m :=
    (DifferentiableAt.fun_sum fun i _ => (oxides_diff A i m).const_mul _).sub ((oxides_diff A fe3 m).const_mul _)
  have e : (fun m : Fin n → ℝ => Magma.Thermo.MuO2.mu capped fe2 fe3 coeff A T P m) =ᶠ[𝓝 m]
      fun m => Magma.Thermo.MuO2.R * T * (Real.log (oxides A m fe3 / oxides A m fe2)
        - (tpTerm capped T P + lin fe2 fe3 coeff (oxides A m) / Magma.Thermo.MuO2.total fe3 (oxides A m))) / cA := by
    filter_upwards [dt.continuousAt.eventually_ne h0, (oxides_diff A fe2 m).continuousAt.eventually_ne h2,
      (oxides_diff A fe3 m).continuousAt.eventually_ne h3] with m' a b c
    unfold Magma.Thermo.MuO2.mu
    rw [Magma.Thermo.MuO2.guarded_of, Magma.Thermo.MuO2.temp_eq]
    unfold Magma.Thermo.MuO2.Absent
    push Not
    exact ⟨a, b, c⟩
  refine DifferentiableAt.congr_of_eventuallyEq ?_ e
  simp only [div_eq_mul_inv]
  have dq : DifferentiableAt ℝ (fun m : Fin n → ℝ => Real.log (oxides A m fe3 * (oxides A m fe2)⁻¹)) m :=
    ((oxides_diff A fe3 m).mul ((oxides_diff A fe2 m).inv h2)).log (mul_ne_zero h3 (inv_ne_zero h2))
  exact ((dq.sub ((dn.mul (dt.inv h0)).const_add _)).const_mul _).mul_const _

section joint
variable (M : Melt nc) (o : ℝ → ℝ → Std) (T P : ℝ) (E : Ext) (l : Phase) (sols : List Phase)

theorem joint_potL (hp : ¬ Magma.Thermo.MuO2.Absent M.fe2 M.fe3 (oxides (M.toOx l) l.m)) :
    Joint (potL .gibbs T P (rows (l :: sols)).length ((Oxy.melts M.capped M.fe2 M.fe3 M.coeff (M.toOx l)).std o)) (rows (l :: sols)).length
      (state .gibbs T P (l :: sols)) := by
  have hm : Match (rows (l :: sols)).length 0 (l :: sols) (state .gibbs T P (l :: sols)) := match_state .gibbs T P (l :: sols)
  unfold Joint
  set N := (rows (l :: sols)).length
  set y := state .gibbs T P (l :: sols)
  have h1 : DifferentiableAt ℝ (fun m => Magma.Thermo.MuO2.mu M.capped M.fe2 M.fe3 M.coeff (M.toOx l) T P m) (l.amounts 0 (graft N y (fun i => y i))) := by
    rw [graft_self, hm.1]
    exact mu_diff _ _ _ _ _ _ _ _ hp
  exact (DifferentiableAt.comp (fun i : Fin (N + 1) => y i) h1 (amounts_diff l N 0 y _)).add_const (o T P).g

theorem joint_gap (hp : ¬ Magma.Thermo.MuO2.Absent M.fe2 M.fe3 (oxides (M.toOx l) l.m)) :
    Joint (gap .gibbs T P (rows (l :: sols)).length E ((Oxy.melts M.capped M.fe2 M.fe3 M.coeff (M.toOx l)).std o)) (rows (l :: sols)).length
      (state .gibbs T P (l :: sols)) :=
  DifferentiableAt.sub_const (joint_potL M o T P l sols hp) (E.e T P)

theorem joint_phi (hp : ¬ Magma.Thermo.MuO2.Absent M.fe2 M.fe3 (oxides (M.toOx l) l.m)) (hG : ∀ ph ∈ l :: sols, DifferentiableAt ℝ (ph.G T P) ph.m) :
    Joint (Phi .gibbs T P (rows (l :: sols)).length E ((Oxy.melts M.capped M.fe2 M.fe3 M.coeff (M.toOx l)).std o) (l :: sols)) (rows (l :: sols)).length
      (state .gibbs T P (l :: sols)) := by
  have h1 := C76_joint T P (l :: sols) hG
  have h2 := joint_potL M o T P l sols hp
  have h3 : Joint (oxygenOf .gibbs T P (rows (l :: sols)).length (l :: sols)) (rows (l :: sols)).length (state .gibbs T P (l :: sols)) := by
    have key : ∀ (L : List Phase) (N k : ℕ) (y : ℕ → ℝ) (w : Fin (N + 1) → ℝ),
        DifferentiableAt ℝ (fun w : Fin (N + 1) → ℝ => total (fun ph _ _ m => ∑ j, m j * ph.o2 j) .gibbs T P N k L (graft N y w)) w := by
      intro L N
      induction L with
      | nil => intro _ _ _; exact differentiableAt_const _
      | cons ph L ih =>
        intro k y w
        refine DifferentiableAt.add (DifferentiableAt.fun_sum fun j _ => ?_) (ih _ y w)
        exact (differentiableAt_pi.1 (amounts_diff ph N k y w) j).mul_const _
    exact key _ _ _ _ _
  exact DifferentiableAt.sub h1 (DifferentiableAt.mul h3 h2)

end joint

/-! ### The slope -/

theorem total_far (f : (ph : Phase) → ℝ → ℝ → (Fin ph.na → ℝ) → ℝ) (T P : ℝ) (N : ℕ) (x y : ℕ → ℝ) (h : ∀ i < N, x i = y i) :
    ∀ (L : List Phase) (k : ℕ), k + (rows L).length ≤ N → total f .gibbs T P N k L x = total f .gibbs T P N k L y := by
  intro L
  induction L with
  | nil => intro _ _; rfl
  | cons ph L ih =>
    intro k hN
    simp only [rows, List.length_append, List.length_map] at hN
    simp only [total, Mode.at]
    rw [amounts_cut ph (N := N) (by omega) x y h, ih _ (by omega)]

/-- Along a curve in the unknowns that matter. -/
theorem chain_far {F : (ℕ → ℝ) → ℝ} {N : ℕ} {y : ℕ → ℝ} (hF : Joint F N y) (hloc : ∀ z z' : ℕ → ℝ, (∀ i < N, z i = z' i) → F z = F z')
    (c : ℝ → ℕ → ℝ) (c' : ℕ → ℝ) (h0 : ∀ k < N, c 0 k = y k) (hc : ∀ k < N, HasDerivAt (fun t => c t k) (c' k) 0) :
    HasDerivAt (fun t => F (c t)) (∑ k ∈ range N, slope F k y * c' k) 0 := by
  have h := chain hF (fun t k => if k < N then c t k else y k) (fun k => if k < N then c' k else 0)
    (by
      funext k
      by_cases hk : k < N
      · rw [if_pos hk, h0 k hk]
      · rw [if_neg hk])
    (fun k _ => by
      by_cases hk : k < N
      · simpa only [hk, if_true] using hc k hk
      · simpa only [hk, if_false] using hasDerivAt_const (0 : ℝ) (y k))
    (fun t k hk => by rw [if_neg (by omega)])
  have e : (fun t => F (fun k => if k < N then c t k else y k)) = fun t => F (c t) := by
    funext t
    exact hloc _ _ fun i hi => if_pos hi
  rw [e] at h
  refine h.congr_deriv ?_
  rw [sum_range_succ, if_neg (lt_irrefl N), mul_zero, add_zero]
  exact sum_congr rfl fun k hk => by rw [if_pos (mem_range.mp hk)]

section slope
variable (M : Melt nc) (o : ℝ → ℝ → Std) (T P delta : ℝ) (b : Buffer) (l : Phase) (sols : List Phase) (x : ℕ → ℝ)

/-- A liquid on the buffer, with both iron oxides, in which all components taking part in the oxidation of iron are present. -/
structure OnBuffer (f : ℝ) : Prop where
  liq : l.liq = true
  inv : M.Inverse l
  ne : M.fe2 ≠ M.fe3
  sols : ∀ ph ∈ sols, ph.liq = false
  nu : ∀ j ∉ l.slots, M.nu l j = 0
  pos : ∀ i, 0 ≤ oxides (M.toOx l) l.m i
  fe2 : 0 < oxides (M.toOx l) l.m M.fe2
  fe3 : 0 < oxides (M.toOx l) l.m M.fe3
  read : readRedox M.capped M.fe2 M.fe3 M.coeff T P (oxides (M.toOx l) l.m) = f

variable {M T P l sols}

theorem OnBuffer.absent {f : ℝ} (hB : OnBuffer M T P l sols f) : ¬ Magma.Thermo.MuO2.Absent M.fe2 M.fe3 (oxides (M.toOx l) l.m) := by
  unfold Magma.Thermo.MuO2.Absent Magma.Thermo.MuO2.total
  push Not
  have : oxides (M.toOx l) l.m M.fe3 ≤ ∑ i, oxides (M.toOx l) l.m i := single_le_sum (fun i _ => hB.pos i) (mem_univ M.fe3)
  exact ⟨by linarith [hB.fe3], hB.fe2.ne', hB.fe3.ne'⟩

theorem OnBuffer.ferric_zero {f : ℝ} (hB : OnBuffer M T P l sols f) : M.ferric T P f l l.m = 0 := by
  unfold Melt.ferric
  rw [← hB.read, C51_set_after_read M.capped M.fe2 M.fe3 hB.ne M.coeff T P _ hB.pos hB.fe2 hB.fe3, sub_self]

theorem after_zero (ph : Phase) (k : ℕ) (x : ℕ → ℝ) : ph.after k x 0 = ph.m := by
  funext j
  unfold Phase.after
  ring

/-- **C76.** On a buffer at given temperature and pressure: along a step that keeps, to first order, the distance from the buffer, the correction of the liquid is of
second order, and the slope of what the line search sees is the gradient of the potential of the open system along the step. -/
theorem C76_buffered_slope (hB : OnBuffer M T P l sols (log10fo2 delta T P b)) (hT : 0 < T)
    (hG : ∀ ph ∈ l :: sols, DifferentiableAt ℝ (ph.G T P) ph.m)
    (hfe : ∀ᶠ lam in 𝓝 (0 : ℝ), IronBearing M.fe2 M.fe3 (oxides (M.toOx l) (l.after 0 x lam)))
    (hx : ∑ k ∈ range (rows (l :: sols)).length, slope (gap .gibbs T P (rows (l :: sols)).length (Ext.of o delta b)
      ((Oxy.melts M.capped M.fe2 M.fe3 M.coeff (M.toOx l)).std o)) k (state .gibbs T P (l :: sols)) * x k = 0) :
    HasDerivAt (fun lam => M.ferric T P (log10fo2 delta T P b) l (l.after 0 x lam)) 0 0 ∧
    HasDerivAt (fun lam => Phi .gibbs T P (rows (l :: sols)).length (Ext.of o delta b) ((Oxy.melts M.capped M.fe2 M.fe3 M.coeff (M.toOx l)).std o) (l :: sols)
        (track M T P (log10fo2 delta T P b) l (state .gibbs T P (l :: sols)) x lam))
      (∑ k ∈ range (rows (l :: sols)).length, slope (Phi .gibbs T P (rows (l :: sols)).length (Ext.of o delta b)
        ((Oxy.melts M.capped M.fe2 M.fe3 M.coeff (M.toOx l)).std o) (l :: sols)) k (state .gibbs T P (l :: sols)) * x k) 0 := by
  set f := log10fo2 delta T P b with hf
  set N := (rows (l :: sols)).length with hN
  set y := state .gibbs T P (l :: sols) with hy
  set X := (Oxy.melts M.capped M.fe2 M.fe3 M.coeff (M.toOx l)).std o with hX
  set E := Ext.of o delta b with hE
  have hlN : l.slots.length ≤ N := by rw [hN, rows]; simp
  have hm : Match N 0 (l :: sols) y := match_state .gibbs T P (l :: sols)
  set s : ℝ → ℝ := fun lam => M.ferric T P f l (l.after 0 x lam) with hs
  have hs0 : s 0 = 0 := by
    simp only [hs, after_zero]
    exact hB.ferric_zero
  have hsd : DifferentiableAt ℝ s 0 :=
    ferric_diff M T P f l l.m (l.amounts 0 x) hB.ne ⟨hB.pos, by unfold iron; linarith [hB.fe2, hB.fe3]⟩
  have gloc : ∀ z z' : ℕ → ℝ, (∀ i < N, z i = z' i) → gap .gibbs T P N E X z = gap .gibbs T P N E X z' := by
    intro z z' h
    unfold gap potL potE
    simp only [Mode.at]
    rw [amounts_cut l (N := N) (by omega) z z' h]
  have ploc : ∀ z z' : ℕ → ℝ, (∀ i < N, z i = z' i) → Phi .gibbs T P N E X (l :: sols) z = Phi .gibbs T P N E X (l :: sols) z' := by
    intro z z' h
    unfold Phi Psi oxygenOf potL
    simp only [Mode.at]
    rw [amounts_cut l (N := N) (by omega) z z' h, total_far _ T P N z z' h _ 0 (by omega), total_far _ T P N z z' h _ 0 (by omega)]
  have jg := joint_gap M o T P E l sols hB.absent
  have jp := joint_phi M o T P E l sols hB.absent hG
  rw [← hX, ← hN, ← hy] at jg jp
  have hcurve : ∀ k, HasDerivAt (fun lam => track M T P f l y x lam k) (x k + deriv s 0 * nuRow M l k) 0 := by
    intro k
    have h1 : HasDerivAt (fun lam : ℝ => y k + lam * x k) (x k) 0 := by
      simpa using ((hasDerivAt_id (0 : ℝ)).mul_const (x k)).const_add (y k)
    exact h1.add (hsd.hasDerivAt.mul_const _)
  have h00 : ∀ k < N, track M T P f l y x 0 k = y k := by
    intro k _
    change y k + 0 * x k + s 0 * nuRow M l k = y k
    rw [hs0]
    ring
  have hg := chain_far jg gloc (track M T P f l y x) _ h00 (fun k _ => hcurve k)
  have hp := chain_far jp ploc (track M T P f l y x) _ h00 (fun k _ => hcurve k)
  have hconst : HasDerivAt (fun lam => gap .gibbs T P N E X (track M T P f l y x lam)) 0 0 := by
    refine (hasDerivAt_const (0 : ℝ) (0 : ℝ)).congr_of_eventuallyEq ?_
    filter_upwards [hfe] with lam hfe
    have hfit := fits_track M T P f l sols x lam hB.liq hB.inv hB.ne hB.sols hB.nu
    unfold gap potL potE
    simp only [Mode.at]
    rw [hfit.1, hX, hE]
    simp only [Oxy.std, Ext.of]
    rw [settled_mu M T P f l x lam hB.liq hB.inv hB.ne hfe, ← hf]
    ring
  have hz := hg.unique hconst
  have hn : HasDerivAt (fun t => gap .gibbs T P N E X (fun k => y k + t * nuRow M l k))
      (∑ k ∈ range N, slope (gap .gibbs T P N E X) k y * nuRow M l k) 0 := by
    refine chain_far jg gloc (fun t k => y k + t * nuRow M l k) _ (fun k _ => by ring) fun k _ => ?_
    simpa using ((hasDerivAt_id (0 : ℝ)).mul_const (nuRow M l k)).const_add (y k)
  have hn2 : HasDerivAt (fun t => gap .gibbs T P N E X (fun k => y k + t * nuRow M l k))
      (Magma.Thermo.MuO2.R * T * (1 / oxides (M.toOx l) l.m M.fe3 + 2 / oxides (M.toOx l) l.m M.fe2) / cA) 0 := by
    have h1 := ((mu_nu M T P l l.m hB.inv hB.ne hB.fe2 hB.fe3 hB.pos).add_const (o T P).g).sub_const (E.e T P)
    refine h1.congr_of_eventuallyEq (Eventually.of_forall fun t => ?_)
    unfold gap potL potE
    simp only [Mode.at, hX, Oxy.std]
    have : l.amounts 0 (fun k => y k + t * nuRow M l k) = fun j => l.m j + t * M.nu l j := by
      funext j
      have hmj := congrFun hm.1 j
      unfold Phase.amounts at hmj ⊢
      by_cases hj : j ∈ l.slots
      · rw [if_pos hj] at hmj ⊢
        rw [Nat.zero_add] at hmj ⊢
        change y _ + t * nuRow M l _ = _
        rw [hmj, nuRow_at M l hj]
      · rw [if_neg hj, m_off l hj, hB.nu j hj]
        ring
    rw [this]
    rfl
  have hpos : ∑ k ∈ range N, slope (gap .gibbs T P N E X) k y * nuRow M l k ≠ 0 := by
    rw [hn.unique hn2]
    have h2 := hB.fe2
    have h3 := hB.fe3
    unfold Magma.Thermo.MuO2.R cA
    positivity
  have hsplit : ∀ F : (ℕ → ℝ) → ℝ, ∑ k ∈ range N, slope F k y * (x k + deriv s 0 * nuRow M l k)
      = ∑ k ∈ range N, slope F k y * x k + deriv s 0 * ∑ k ∈ range N, slope F k y * nuRow M l k := by
    intro F
    rw [mul_sum, ← sum_add_distrib]
    exact sum_congr rfl fun k _ => by ring
  rw [hsplit, hx, zero_add] at hz
  have hs' : deriv s 0 = 0 := (mul_eq_zero.mp hz).resolve_right hpos
  rw [hsplit, hs', zero_mul, add_zero] at hp
  refine ⟨?_, hp⟩
  have := hsd.hasDerivAt
  rwa [hs'] at this

end slope

section descent
variable (M : Melt nc) (o : ℝ → ℝ → Std) (test : (ph : Phase) → (Fin ph.na → ℝ) → Bool) (T P delta lambdaO lambda : ℝ) (b : Buffer)
  (l : Phase) (sols : List Phase) (comps : List ℕ)

open Magma.Num.Householder Magma.Num.Constraint Magma.Num.Hfti Magma.Num in
/-- **C76.** On a buffer at given temperature and pressure, with one liquid that is on the buffer: if the solver reports full rank and the matrix of the Lagrangian is
positive along the computed step, every sufficiently short admitted step lowers what the line search sees. -/
theorem C76_buffered_descent (h0 g0 h0' : ℕ → ℝ) (p0 : ℕ → ℕ) (f3 f2 : ℕ) (hs : comps.Pairwise (· < ·)) (h2 : f2 ∈ comps) (h3 : f3 ∈ comps)
    (hne : f3 ≠ f2) (hB : OnBuffer M T P l sols (log10fo2 delta T P b)) (hT : 0 < T)
    (hG : ∀ ph ∈ l :: sols, DifferentiableAt ℝ (ph.G T P) ph.m)
    (ok : BufOK .gibbs T P (rows (l :: sols)).length (Ext.of o delta b) ((Oxy.melts M.capped M.fe2 M.fe3 M.coeff (M.toOx l)).std o) (l :: sols)
      (state .gibbs T P (l :: sols))) :
    ∃ R, ironRows f3 f2 (l :: sols) comps ([], none) = some R ∧
    let X := fun ph : Phase => Oxy.melts M.capped M.fe2 M.fe3 M.coeff (M.toOx ph)
    let N := (rows (l :: sols)).length
    let E := Ext.of o delta b
    let q := rowsWritten .gibbs R 1
    let S := bufferedAssemble .gibbs T P N E (fun ph => (X ph).std o) l [] sols
    let W := S.corrected .gibbs 1 (fun _ => lambdaO) lambda
    let C := bufferedMatrix .gibbs T P (log10fo2 delta T P b) b X R l sols
    let F := decomp q N q (C, h0)
    let r := quad (N - q) (fun i j => Reduced.hat F q N W (q + i) (q + j))
      (fun i => Reduced.rhs F q N W S.b (fwd F.1 (fun _ => 0) q) (q + i)) g0 h0' p0
    let x := solve q N C (fun _ => 0) (fun j => r.2.2 (j - q)) h0
    q < N →
    (∀ a : ℕ → ℝ, (∀ j < N, ∑ i ∈ range q, a i * C i j = 0) → ∀ i < q, a i = 0) →
    r.1 = N - q → 0 < ∑ k ∈ range N, x k * ∑ j ∈ range N, W k j * x j →
    (∀ᶠ lam in 𝓝 (0 : ℝ), IronBearing M.fe2 M.fe3 (oxides (M.toOx l) (l.after 0 x lam))) →
    ∃ δ > 0, ∀ lam v v0, 0 < lam → lam < δ → bufferedSearch M o test T P (log10fo2 delta T P b) l sols x lam = some v →
      bufferedSearch M o test T P (log10fo2 delta T P b) l sols x 0 = some v0 → v < v0 := by
  obtain ⟨R, hR, hnewt⟩ := C70_newton .gibbs T P delta (log10fo2 delta T P b) lambdaO lambda b o
    (fun ph => Oxy.melts M.capped M.fe2 M.fe3 M.coeff (M.toOx ph)) l sols f3 f2 comps h0 g0 h0' p0 hs h2 h3 hne hB.sols rfl ok
  refine ⟨R, hR, ?_⟩
  intro X N E q S W C F r x hq hind hr hpos hfe
  obtain ⟨k1, k2⟩ := hnewt hq hind hr
  have hx := k1.2.2.1
  have hst := k2 x k1
  have hsl := (C76_buffered_slope o delta b x hB hT hG hfe hx).2
  have hneg : ∑ k ∈ range N, slope (Phi .gibbs T P N E ((X l).std o) (l :: sols)) k (state .gibbs T P (l :: sols)) * x k < 0 := by
    have h : ∑ k ∈ range N, x k * (slope (Phi .gibbs T P N E ((X l).std o) (l :: sols)) k (state .gibbs T P (l :: sols)) + ∑ j ∈ range N, W k j * x j) = 0 := hst
    simp only [mul_add, sum_add_distrib] at h
    have e : ∑ k ∈ range N, slope (Phi .gibbs T P N E ((X l).std o) (l :: sols)) k (state .gibbs T P (l :: sols)) * x k
        = ∑ k ∈ range N, x k * slope (Phi .gibbs T P N E ((X l).std o) (l :: sols)) k (state .gibbs T P (l :: sols)) := sum_congr rfl fun k _ => mul_comm _ _
    rw [e]
    linarith
  obtain ⟨δ, hδ, hd⟩ := goes_down hsl hneg
  refine ⟨δ, hδ, fun lam v v0 a1 a2 hv hv0 => ?_⟩
  rw [buffered_phi M o test T P _ E l sols x lam v hB.liq hB.inv hB.ne hB.sols hB.nu hv,
    buffered_phi M o test T P _ E l sols x 0 v0 hB.liq hB.inv hB.ne hB.sols hB.nu hv0]
  exact hd lam a1 a2

end descent

/-! ### A concrete case -/

/-- The tables of `demoLiquid`: Fe2SiO4-like and Fe2O3 components, two FeO in the first. -/
def demoMelt : Melt 2 where
  capped := true
  fe2 := 0
  fe3 := 1
  coeff := ![0, 0]
  toOx ph j i := if h : ph.na = 2 then (![![2, 0], ![0, 1]] : Fin 2 → Fin 2 → ℝ) (Fin.cast h j) i else 0
  toLiq ph i j := if h : ph.na = 2 then (![![1 / 2, 0], ![0, 1]] : Fin 2 → Fin 2 → ℝ) i (Fin.cast h j) else 0

theorem demo_toOx : demoMelt.toOx demoLiquid = (![![2, 0], ![0, 1]] : Fin 2 → Fin 2 → ℝ) := by
  funext j i
  simp only [demoMelt]
  rw [dif_pos (show demoLiquid.na = 2 from rfl)]
  rfl

theorem demo_toLiq : demoMelt.toLiq demoLiquid = (![![1 / 2, 0], ![0, 1]] : Fin 2 → Fin 2 → ℝ) := by
  funext j i
  simp only [demoMelt]
  rw [dif_pos (show demoLiquid.na = 2 from rfl)]
  rfl

theorem demo_oxides (m : Fin 2 → ℝ) : oxides (demoMelt.toOx demoLiquid) m = ![2 * m 0, m 1] := by
  refine (congrArg (fun A : Fin 2 → Fin 2 → ℝ => oxides A m) demo_toOx).trans ?_
  funext i
  change ∑ j : Fin 2, (![![2, 0], ![0, 1]] : Fin 2 → Fin 2 → ℝ) j i * m j = _
  rw [Fin.sum_univ_two]
  fin_cases i <;> simp

theorem demo_inverse : demoMelt.Inverse demoLiquid := by
  refine ⟨fun v i => ?_, fun m i => ?_⟩
  · have h := demo_oxides (fun j : Fin 2 => ∑ k : Fin 2, (![![1 / 2, 0], ![0, 1]] : Fin 2 → Fin 2 → ℝ) k j * v k)
    rw [demo_toLiq]
    refine (congrFun h i).trans ?_
    simp only [Fin.sum_univ_two]
    fin_cases i <;> simp
  · rw [demo_toLiq]
    have h := demo_oxides m
    rw [h]
    change Fin 2 at i
    rw [Fin.sum_univ_two]
    fin_cases i
    · change (1 / 2 : ℝ) * (2 * m (0 : Fin 2)) + 0 * m (1 : Fin 2) = m (0 : Fin 2)
      ring
    · change (0 : ℝ) * (2 * m (0 : Fin 2)) + 1 * m (1 : Fin 2) = m (1 : Fin 2)
      ring

/-- 0.3 and 0.7 mol of the components of the liquid with corundum, on a buffer at a suitable distance from QFM. -/
example : ∃ delta, OnBuffer demoMelt 1000 1000 demoLiquid [corundumPhase] (log10fo2 delta 1000 1000 .qfm) := by
  have hm : ∀ i, oxides (demoMelt.toOx demoLiquid) demoLiquid.m i = (![0.6, 0.7] : Fin 2 → ℝ) i := by
    intro i
    refine (congrFun (demo_oxides _) i).trans ?_
    change (![2 * (0.3 : ℝ), 0.7] : Fin 2 → ℝ) i = _
    fin_cases i <;> norm_num
  obtain ⟨delta, hd⟩ : ∃ delta, log10fo2 delta 1000 1000 .qfm
      = readRedox demoMelt.capped demoMelt.fe2 demoMelt.fe3 demoMelt.coeff 1000 1000 (oxides (demoMelt.toOx demoLiquid) demoLiquid.m) := by
    refine ⟨readRedox demoMelt.capped demoMelt.fe2 demoMelt.fe3 demoMelt.coeff 1000 1000 (oxides (demoMelt.toOx demoLiquid) demoLiquid.m)
      - log10fo2 0 1000 1000 .qfm, ?_⟩
    simp only [log10fo2]
    ring
  refine ⟨delta, rfl, demo_inverse, by decide, ?_, ?_, ?_, ?_, ?_, hd.symm⟩
  · intro ph h
    rw [List.mem_singleton.mp h]
    rfl
  · intro j hj
    rw [demo_slots] at hj
    change Fin 2 at j
    exact absurd (by fin_cases j <;> decide : j ∈ [(0 : Fin 2), (1 : Fin 2)]) hj
  · intro i
    rw [hm]
    fin_cases i <;> norm_num
  · rw [hm]
    change (0 : ℝ) < 0.6
    norm_num
  · rw [hm]
    change (0 : ℝ) < 0.7
    norm_num

end

end Magma.Engine.System
