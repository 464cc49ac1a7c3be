import Verif.Engine.SubO2Run
import Verif.Engine.SystemExample

/-!
The hypotheses of C75 on the solids are met by the minerals of C24; a concrete assemblage.
-/

namespace Magma.Engine.SubO2

open Finset Filter Topology Magma.Engine.System Magma.Thermo.Extensive Magma.Thermo.Compo
open Magma.Thermo.Mixing (Mix Interior eps R)
open Verif.Thermo.Ordering (ConsistentOn consistentOn_of on mask)
open Verif.Thermo.StdState (Std)

noncomputable section

/-- A solution with the mixing properties `M`, all mole fractions but one as variables and all end members present. -/
def mineral {nr : ℕ} (M : Mix nr) (dep : Fin (nr + 1)) (std : Fin (nr + 1) → ℝ → ℝ → Std) (ox : Fin (nr + 1) → ℕ → ℝ)
    (m : Fin (nr + 1) → ℝ) : Solid where
  ph := { na := nr + 1, nr := nr, pure := false, liq := false, ox := ox, o2 := 0, mix := M, conv := simpleConv dep,
          std := std, m := m }
  act := Thermo.Mixing.act M dep
  dact := Thermo.Mixing.dact M dep

theorem gradient_mu {nr : ℕ} {M : Mix nr} {I : (Fin nr → ℝ) → Prop} (hM : M.Consistent I) (dep : Fin (nr + 1)) (t p : ℝ)
    {m : Fin (nr + 1) → ℝ} (h0 : ∑ i, m i ≠ 0) (hr : I (toR dep m)) (j : Fin (nr + 1)) :
    gradient (M.g t p (toR dep m)) (M.gr t p (toR dep m)) (∑ i, m i) (Thermo.Compo.dm dep m) j = Thermo.Mixing.mu M dep t p (toR dep m) j :=
  (C23_gradient_conversion dep (M.g t p) m h0 _ (hM.g_r t p _ hr) j).unique
    (Thermo.Mixing.C24_potential_is_derivative M I hM dep t p m h0 hr j)

theorem act_moles {nr : ℕ} {M : Mix nr} {I : (Fin nr → ℝ) → Prop} (hM : M.Consistent I) (hI : IsOpen {r | I r})
    (dep : Fin (nr + 1)) (t p : ℝ) {m : Fin (nr + 1) → ℝ} (h0 : ∑ i, m i ≠ 0) (hr : I (toR dep m)) (j l : Fin (nr + 1)) :
    Partial (fun m => Thermo.Mixing.act M dep t p (toR dep m) j) m l
      (∑ k, Thermo.Compo.dm dep m k l * Thermo.Mixing.dact M dep t p (toR dep m) j k) := by
  have hd : DifferentiableAt ℝ (fun r => Thermo.Mixing.act M dep t p r j) (toR dep m) := by
    have e : (fun r => Thermo.Mixing.act M dep t p r j) =ᶠ[𝓝 (toR dep m)] fun r =>
        Real.exp ((M.g t p r + ∑ i, Thermo.Mixing.fr0 dep r j i * M.gr t p r i) / (R * t)) := by
      filter_upwards [hI.mem_nhds hr] with r hr'
      unfold Thermo.Mixing.act
      simp only [Thermo.Mixing.fr_eq hM hr']
    refine DifferentiableAt.congr_of_eventuallyEq ?_ e
    have d1 : DifferentiableAt ℝ (M.g t p) (toR dep m) := (hM.g_r t p _ hr).differentiableAt
    have d2 : ∀ i, DifferentiableAt ℝ (fun r => M.gr t p r i) (toR dep m) := fun i => (hM.g_rr t p _ hr i).differentiableAt
    have d3 : ∀ i, DifferentiableAt ℝ (fun r => Thermo.Mixing.fr0 dep r j i) (toR dep m) := fun i => by
      unfold Thermo.Mixing.fr0
      fun_prop
    have d4 : DifferentiableAt ℝ (fun r => ∑ i, Thermo.Mixing.fr0 dep r j i * M.gr t p r i) (toR dep m) :=
      DifferentiableAt.fun_sum fun i _ => (d3 i).mul (d2 i)
    simp only [div_eq_mul_inv]
    exact ((d1.fun_add d4).mul_const (R * t)⁻¹).exp
  have hg := Thermo.Mixing.grad_of_partials hd fun k => Thermo.Mixing.C24_activity_derivative M I hM hI dep t p _ hr j k
  have hc : HasDerivAt (fun h => toR dep (bump m l h)) (fun k => Thermo.Compo.dm dep m k l) 0 :=
    hasDerivAt_pi.2 fun k => (C25_simple dep).first m h0 k l
  have hg' : HasFDerivAt (fun r => Thermo.Mixing.act M dep t p r j)
      (∑ i, Thermo.Mixing.dact M dep t p (toR dep m) j i • (ContinuousLinearMap.proj i : (Fin nr → ℝ) →L[ℝ] ℝ))
      (toR dep (bump m l 0)) := by rw [bump_zero]; exact hg
  refine (hg'.comp_hasDerivAt (0 : ℝ) hc).congr_deriv ?_
  simp only [ContinuousLinearMap.coe_sum', Finset.sum_apply, ContinuousLinearMap.smul_apply, ContinuousLinearMap.proj_apply, smul_eq_mul]
  exact sum_congr rfl fun k _ => mul_comm _ _

/-- **C75** (the hypotheses): a mineral consistent in the sense of C24 with end members consistent in the sense of C60 meets
the hypotheses of C75 at every interior composition. -/
theorem C75_mineral {nr : ℕ} {M : Mix nr} {I : (Fin nr → ℝ) → Prop} (hM : M.Consistent I) (hI : IsOpen {r | I r})
    (dep : Fin (nr + 1)) (std : Fin (nr + 1) → ℝ → ℝ → Std) (ox : Fin (nr + 1) → ℕ → ℝ) {m0 m : Fin (nr + 1) → ℝ}
    (h : ∀ j, m0 j ≠ 0) {T P : ℝ} (hT : 0 < T)
    (hs : ∀ᶠ z : ℝ × ℝ in 𝓝 (T, P), ∀ j, Verif.Thermo.StdState.Consistent (std j) z.1 z.2)
    (h0 : ∑ i, m i ≠ 0) (hr : I (toR dep m)) : (mineral M dep std ox m0).Good T P m := by
  have hon : ∀ j, j ∈ (mineral M dep std ox m0).on := fun j => by
    rw [mem_on, slots_all fun j => Or.inr (h j)]
    exact List.mem_finRange j
  refine ⟨hT, hs, fun j hj => absurd (hon j) hj, fun _ => ⟨h0, C25_simple dep, univ, fun _ _ r => I (mask univ r),
    (consistentOn_of hM).on univ, ?_, by simp, ?_⟩⟩
  · have e : ∀ r : Fin nr → ℝ, mask univ r = r := fun r => mask_self (by simp)
    have h2 : ∀ᶠ z : ℝ × ℝ × (Fin nr → ℝ) in 𝓝 (T, P, toR dep m), I z.2.2 :=
      (Continuous.tendsto (f := fun z : ℝ × ℝ × (Fin nr → ℝ) => z.2.2) (by fun_prop) (T, P, toR dep m)).eventually
        (hI.mem_nhds hr)
    refine h2.mono fun z hz => ?_
    change I (mask univ z.2.2)
    rw [e]
    exact hz
  · intro T' P' m' hT' _ h0' hI' j _
    have hI'' : I (toR dep m') := by
      have : I (mask univ (toR dep m')) := hI'
      rwa [mask_self (by simp)] at this
    refine ⟨?_, fun l _ => act_moles hM hI dep T' P' h0' hI'' j l⟩
    change Thermo.Mixing.act M dep T' P' (toR dep m') j = _
    have := gradient_mu hM dep T' P' h0' hI'' j
    exact (congrArg (fun x => Real.exp (x / (R * T'))) this).symm

theorem C75_fixed {ph : Phase} {act dact} (hp : ph.pure = true) {T P : ℝ} (hT : 0 < T)
    (hs : ∀ᶠ z : ℝ × ℝ in 𝓝 (T, P), ∀ j, Verif.Thermo.StdState.Consistent (ph.std j) z.1 z.2) (m : Fin ph.na → ℝ) :
    (Solid.mk ph act dact).Good T P m where
  tpos := hT
  std := hs
  face j hj := by
    refine absurd ?_ hj
    rw [mem_on, slots_all fun j => Or.inl hp]
    exact List.mem_finRange j
  sol h := by simp [hp] at h

/-! ### Biotite and corundum -/

/-- 0.3 mol annite and 0.7 mol phlogopite in solution. -/
def biotiteSolid : Solid :=
  mineral Thermo.Mixing.Biotite.mix Thermo.Mixing.Biotite.dep
    ![Verif.Thermo.StdState.solid annite fun _ _ _ _ _ => 0, Verif.Thermo.StdState.solid phlogopite fun _ _ _ _ _ => 0]
    ![fun i => if i = 0 then 3 else 0, fun i => if i = 1 then 3 else 0] ![0.3, 0.7]

/-- Corundum; its activity function is not called. -/
def corundumSolid : Solid := ⟨corundumPhase, fun _ _ _ _ => 1, fun _ _ _ _ _ => 0⟩

/-- The assemblage. -/
def two : Fin 2 → Solid := ![biotiteSolid, corundumSolid]

/-- Its amounts. -/
def twoM : Amounts two := Fin.cons (α := fun i => Fin (two i).ph.na → ℝ) (![0.3, 0.7] : Fin 2 → ℝ)
  (Fin.cons (α := fun i : Fin 1 => Fin (two i.succ).ph.na → ℝ) (fun _ => 0.2) fun i => i.elim0)

theorem near_std {K : ℕ} {std : Fin K → ℝ → ℝ → Std} {T P : ℝ} (hT : 0 < T)
    (h : ∀ j T P, 0 < T → Verif.Thermo.StdState.Consistent (std j) T P) :
    ∀ᶠ z : ℝ × ℝ in 𝓝 (T, P), ∀ j, Verif.Thermo.StdState.Consistent (std j) z.1 z.2 := by
  have : ∀ᶠ z : ℝ × ℝ in 𝓝 (T, P), 0 < z.1 :=
    (Continuous.tendsto (f := fun z : ℝ × ℝ => z.1) (by fun_prop) (T, P)).eventually (lt_mem_nhds hT)
  exact this.mono fun z hz j => h j _ _ hz

theorem two_good : AllGood two 1000 1000 twoM := by
  intro i
  fin_cases i
  · obtain ⟨h0, hi⟩ := biotite_interior (m := ![0.3, 0.7]) (by norm_num) (by norm_num)
    refine C75_mineral Thermo.Mixing.C24_biotite ?_ _ _ _ ?_ (by norm_num) (near_std (by norm_num) ?_) h0 hi
    · exact Thermo.Mixing.isOpen_interior _ Thermo.Mixing.Biotite.raw_continuous
    · intro j; fin_cases j <;> norm_num
    · intro j T P hT
      fin_cases j
      · exact berman_ok (r := annite) rfl rfl rfl hT
      · exact berman_ok (r := phlogopite) rfl rfl rfl hT
  · refine C75_fixed rfl (by norm_num) (near_std (by norm_num) ?_) _
    intro j T P hT
    exact berman_ok (r := corundum) rfl rfl rfl hT

theorem biotite_act (t p : ℝ) (ht : 0 < t) {r : Fin 1 → ℝ} (h : eps < r 0) (h' : eps < 1 - r 0) :
    r 0 ≤ Thermo.Mixing.act Thermo.Mixing.Biotite.mix Thermo.Mixing.Biotite.dep t p r (0 : Fin 2) ∧
    1 - r 0 ≤ Thermo.Mixing.act Thermo.Mixing.Biotite.mix Thermo.Mixing.Biotite.dep t p r (1 : Fin 2) := by
  have he : (0 : ℝ) < eps := by unfold eps; norm_num
  have hx : 0 < r 0 := he.trans h
  have hy : 0 < 1 - r 0 := he.trans h'
  have hI : Interior Thermo.Mixing.Biotite.raw r := fun k => by
    fin_cases k
    · exact h
    · exact h'
  have c0 : Thermo.Mixing.clamp (r 0) = r 0 := Thermo.Mixing.clamp_of h
  have c1 : Thermo.Mixing.clamp (1 - r 0) = 1 - r 0 := Thermo.Mixing.clamp_of h'
  have g : Thermo.Mixing.Biotite.mix.g t p r = Thermo.Mixing.Biotite.G t p (r 0) (r 0) (1 - r 0) := by
    change Thermo.Mixing.Biotite.G t p (r 0) (Thermo.Mixing.clamp (r 0)) (Thermo.Mixing.clamp (1 - r 0)) = _
    rw [c0, c1]
  have gr : Thermo.Mixing.Biotite.mix.gr t p r 0 = Thermo.Mixing.Biotite.DGDR0 t p (r 0) (r 0) (1 - r 0) := by
    change Thermo.Mixing.Biotite.DGDR0 t p (r 0) (Thermo.Mixing.clamp (r 0)) (Thermo.Mixing.clamp (1 - r 0)) = _
    rw [c0, c1]
  have hR := Thermo.Mixing.R_pos
  have hW : 0 < Thermo.Mixing.Biotite.WHANPH := by unfold Thermo.Mixing.Biotite.WHANPH; norm_num
  constructor
  · unfold Thermo.Mixing.act
    rw [← Real.log_le_iff_le_exp hx, le_div_iff₀ (mul_pos hR ht)]
    simp only [Thermo.Mixing.fr_eq Thermo.Mixing.C24_biotite hI, Fin.sum_univ_one, g, gr]
    have : Thermo.Mixing.fr0 Thermo.Mixing.Biotite.dep r (0 : Fin 2) 0 = 1 - r 0 := by
      simp [Thermo.Mixing.fr0, Thermo.Mixing.Biotite.dep]
    rw [this]
    simp only [Thermo.Mixing.Biotite.G, Thermo.Mixing.Biotite.H, Thermo.Mixing.Biotite.S, Thermo.Mixing.Biotite.V,
      Thermo.Mixing.Biotite.DGDR0]
    have := mul_pos hW (mul_pos hy hy)
    nlinarith
  · unfold Thermo.Mixing.act
    rw [← Real.log_le_iff_le_exp hy, le_div_iff₀ (mul_pos hR ht)]
    simp only [Thermo.Mixing.fr_eq Thermo.Mixing.C24_biotite hI, Fin.sum_univ_one, g, gr]
    have : Thermo.Mixing.fr0 Thermo.Mixing.Biotite.dep r (1 : Fin 2) 0 = - r 0 := by
      simp [Thermo.Mixing.fr0, Thermo.Mixing.Biotite.dep]
    rw [this]
    simp only [Thermo.Mixing.Biotite.G, Thermo.Mixing.Biotite.H, Thermo.Mixing.Biotite.S, Thermo.Mixing.Biotite.V,
      Thermo.Mixing.Biotite.DGDR0]
    have := mul_pos hW (mul_pos hx hx)
    nlinarith

theorem two_free : Free two 1000 1000 twoM := by
  intro i j _ hp
  fin_cases i
  · change Fin 2 at j
    change 1 / 10 ^ 16 < Thermo.Mixing.act Thermo.Mixing.Biotite.mix Thermo.Mixing.Biotite.dep 1000 1000
      (toR Thermo.Mixing.Biotite.dep ![0.3, 0.7]) j
    have hr : toR Thermo.Mixing.Biotite.dep ![0.3, 0.7] 0 = (0.3 : ℝ) := by
      have hs : total (![0.3, 0.7] : Fin 2 → ℝ) = 1 := by
        rw [Magma.Thermo.Compo.total, Fin.sum_univ_two]; norm_num
      rw [toR, if_pos (by rw [hs]; exact one_ne_zero), hs]
      simp [Thermo.Mixing.Biotite.dep]
    obtain ⟨h0, h1⟩ := biotite_act 1000 1000 (by norm_num) (r := toR Thermo.Mixing.Biotite.dep ![0.3, 0.7])
      (by rw [hr]; unfold eps; norm_num) (by rw [hr]; unfold eps; norm_num)
    rw [hr] at h0 h1
    fin_cases j
    · exact lt_of_lt_of_le (by norm_num) h0
    · exact lt_of_lt_of_le (by norm_num) h1
  · simp [two, corundumSolid, corundumPhase] at hp

/-- The derivative in temperature reported for this assemblage, whatever the reaction. -/
example (nu : Reaction two) : HasDerivAt (fun t => muO2 two nu t 1000 twoM) (dt two nu 1000 1000 twoM) 1000 :=
  C75_dt nu two_good (by norm_num) two_free

/-- The same for the amount of annite: the second derivative. -/
example (nu : Reaction two) : HasDerivAt (fun h => dm two nu 1000 1000 (push twoM 0 (0 : Fin 2) h) 0 (0 : Fin 2))
    (d2m two nu 1000 1000 twoM 0 (0 : Fin 2) 0 (0 : Fin 2)) 0 := by
  have h : ∀ j, j ∈ (two 0).on := fun j => by
    rw [mem_on, slots_all (ph := (two 0).ph) fun j => Or.inr ?_]
    · exact List.mem_finRange _
    · change (![0.3, 0.7] : Fin 2 → ℝ) j ≠ 0
      change Fin 2 at j
      fin_cases j <;> norm_num
  exact C75_d2m nu two_good (h (0 : Fin 2)) (h (0 : Fin 2))

/-! ### Wuestite and hematite as pure solids -/

/-- A pure solid of one component. -/
def oneOf (std : ℝ → ℝ → Std) (ox : ℕ → ℝ) : Solid where
  ph := { corundumPhase with ox := fun _ => ox, std := fun _ => std }
  act := fun _ _ _ _ => 1
  dact := fun _ _ _ _ _ => 0

/-- Both solids; oxide 0 is Fe2O3 and oxide 1 is FeO. -/
def wuHem (g1 g2 : ℝ → ℝ → Std) : Fin 2 → Solid :=
  ![oneOf g1 fun o => if o = 1 then 1 else 0, oneOf g2 fun o => if o = 0 then 1 else 0]

/-- Its reaction. -/
def wuHemNu (g1 g2 : ℝ → ℝ → Std) : Reaction (wuHem g1 g2) := ⟨-1, fun i _ => if i = 0 then -4 else 2⟩

theorem wuHem_csum (g1 g2 : ℝ → ℝ → Std) (f : ∀ i, Fin (wuHem g1 g2 i).ph.na → ℝ) :
    csum (wuHem g1 g2) f = f 0 (0 : Fin 1) + f 1 (0 : Fin 1) := by
  have h0 : (wuHem g1 g2 0).on = {(0 : Fin 1)} := by
    rw [Solid.on, slots_all fun j => Or.inl rfl]; rfl
  have h1 : (wuHem g1 g2 1).on = {(0 : Fin 1)} := by
    rw [Solid.on, slots_all fun j => Or.inl rfl]; rfl
  rw [csum, Fin.sum_univ_two, h0, h1]
  exact congrArg₂ (· + ·) (sum_singleton (f 0) (0 : Fin 1)) (sum_singleton (f 1) (0 : Fin 1))

/-- The hypotheses of `C75_equilibrium` for wuestite and hematite with any consistent standard states. -/
example (g1 g2 : ℝ → ℝ → Std) (T P : ℝ) (hT : 0 < T)
    (h1 : ∀ T P, 0 < T → Verif.Thermo.StdState.Consistent g1 T P)
    (h2 : ∀ T P, 0 < T → Verif.Thermo.StdState.Consistent g2 T P) (m : Amounts (wuHem g1 g2)) :
    muO2 (wuHem g1 g2) (wuHemNu g1 g2) T P m
      = 2 * (g2 T P).g - 4 * (g1 T P).g - (Verif.Thermo.StdState.oxygen T P).g := by
  have hg : AllGood (wuHem g1 g2) T P m := by
    intro i
    fin_cases i
    · exact C75_fixed rfl hT (near_std hT fun _ => h1) _
    · exact C75_fixed rfl hT (near_std hT fun _ => h2) _
  have hf : Free (wuHem g1 g2) T P m := by
    intro i j _ hp
    fin_cases i <;> simp [wuHem, oneOf, corundumPhase] at hp
  have hb : Balanced (wuHem g1 g2) 2 1 0 (wuHemNu g1 g2) := by
    refine ⟨rfl, fun o ho => ?_⟩
    rw [wuHem_csum]
    interval_cases o <;> simp [wuHemNu, wuHem, oneOf]
  rw [C75_equilibrium hg hf (by norm_num) (by norm_num) (by norm_num) hb
    (fun o => if o = 0 then (g2 T P).g else (g1 T P).g) ?_]
  · simp
  · intro i j hj
    refine HasDerivAt.congr_deriv (pot_first (hg i) hj) ?_
    fin_cases i
    · have : pmix (wuHem g1 g2 0) ((wuHem g1 g2 0).ph.mix.g T P) ((wuHem g1 g2 0).ph.mix.gr T P) (m 0) j = 0 := if_pos rfl
      change (g1 T P).g + pmix (wuHem g1 g2 0) ((wuHem g1 g2 0).ph.mix.g T P) ((wuHem g1 g2 0).ph.mix.gr T P) (m 0) j = _
      rw [this]
      simp [wuHem, oneOf, sum_range_succ]
    · have : pmix (wuHem g1 g2 1) ((wuHem g1 g2 1).ph.mix.g T P) ((wuHem g1 g2 1).ph.mix.gr T P) (m 1) j = 0 := if_pos rfl
      change (g2 T P).g + pmix (wuHem g1 g2 1) ((wuHem g1 g2 1).ph.mix.g T P) ((wuHem g1 g2 1).ph.mix.gr T P) (m 1) j = _
      rw [this]
      simp [wuHem, oneOf, sum_range_succ]

end

end Magma.Engine.SubO2
