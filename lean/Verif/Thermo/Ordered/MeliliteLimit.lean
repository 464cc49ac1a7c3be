import Verif.Thermo.Ordered.MeliliteProps
import Verif.Thermo.OrderLimit

/-!
Melilite next to its pure end members (/repo/sources/melilite.c): the energy of mixing at equilibrium order tends to zero.
-/

namespace Verif.Thermo.Ordering

noncomputable section

lemma PureGehlenite.equilibrium_min {X : (Ext 0 → ℝ) → Fin 1 → ℝ} (hX : PureGehlenite.Equilibrium X) {θ : Ext 0 → ℝ}
    (h : θ ∈ PureGehlenite.hot) (u : Fin 1 → ℝ) (hu : PureGehlenite.Dom (join (θ, u))) :
    (PureGehlenite.macros (join (θ, X θ))).g ≤ (PureGehlenite.macros (join (θ, u))).g := by
  obtain ⟨s, ⟨hs, hm⟩, -⟩ := PureGehlenite.C61_pure_gehlenite_unique θ h
  rw [PureGehlenite.uniq h (hX θ h) hs]
  exact hm u hu

end

namespace Melilite

open Finset Filter Topology
open Magma.Thermo.Mixing (R R_pos Mix)
open Verif.Thermo.StdState (Std Consistent)

noncomputable section

/-- The equilibrium state has the least energy of all. -/
lemma equilibrium_min {X : (Ext 3 → ℝ) → Fin 1 → ℝ} (hX : Equilibrium X) {θ : Ext 3 → ℝ} (h : θ ∈ hot) (s : Fin 1 → ℝ)
    (hs : Dom (join (θ, s))) : (macros (join (θ, X θ))).g ≤ (macros (join (θ, s))).g := by
  obtain ⟨s', h', hm⟩ := C61_melilite_exists θ (lt_trans (by norm_num) h.1) h.2
  rw [uniq h (hX θ h) h']
  exact hm s hs

/-- The state in which gehlenite keeps its own ordering state `u`. -/
def trial (u : ℝ) (r : Fin 3 → ℝ) : Fin 1 → ℝ := ![r 0 * u]

lemma trial_continuous (u : ℝ) : Continuous (trial u) := by
  refine continuous_pi fun k => ?_
  fin_cases k; simp only [trial, Fin.zero_eta, Matrix.cons_val_zero]; fun_prop

lemma trial_pos {u : ℝ} (hu : 0 < u ∧ u < 1) {r : Fin 3 → ℝ} (h : Present r) (i : Fin 8) :
    0 < frac (siteA r i) (siteB i) (trial u r) := by
  obtain ⟨h0, h1, h2, h3⟩ := h
  have a := mul_pos h0 hu.1
  have b := mul_pos h0 (by linarith [hu.2] : 0 < 1 - u)
  fin_cases i <;> simp [frac, siteA, siteB, trial] <;> nlinarith

lemma frac_bound (r : Fin 3 → ℝ) (hr : Present r) (s : Fin 1 → ℝ) (hs : ∀ i, 0 ≤ frac (siteA r i) (siteB i) s) (k : Fin 1) :
    |s k| ≤ 10 := by
  obtain ⟨h0, h1, h2, h3⟩ := hr
  have h4 := hs 4; have h6 := hs 6
  simp [frac, siteA, siteB] at h4 h6
  rw [abs_le]
  fin_cases k; constructor <;> simp only [Fin.zero_eta] <;> linarith

lemma siteA_continuous (i : Fin 8) : Continuous fun r => siteA r i := by
  fin_cases i <;> simp only [siteA, Fin.zero_eta, Fin.mk_one, Fin.reduceFinMk, Matrix.cons_val, Matrix.cons_val_zero,
    Matrix.cons_val_one] <;> fun_prop

lemma excess_continuous : Continuous fun q : (Fin 3 → ℝ) × (Fin 1 → ℝ) => excess q.1 q.2 := by
  unfold excess H
  have c : ∀ j : Fin 3, Continuous fun q : (Fin 3 → ℝ) × (Fin 1 → ℝ) => q.1 j := fun j => by fun_prop
  have d : ∀ j : Fin 1, Continuous fun q : (Fin 3 → ℝ) × (Fin 1 → ℝ) => q.2 j := fun j => by fun_prop
  have := c 0; have := c 1; have := c 2; have := d 0
  fun_prop

lemma weight_continuous (j : Fin 4) : Continuous fun r => weight r j := by
  fin_cases j <;> simp [weight] <;> fun_prop

/-- The energy of the solution next to an end member (at `e`), whose states `u` appear as `ι u` and have energies `E0 u`. -/
lemma limit {X : (Ext 3 → ℝ) → Fin 1 → ℝ} (hX : Equilibrium X) {t : ℝ} (ht : 800 < t) (p : ℝ) {U : ℝ} (hU : 0 < U ∧ U < 1)
    (e : Fin 3 → ℝ) {m n0 : ℕ} {ι : (Fin m → ℝ) → Fin 1 → ℝ} (hι : Continuous ι)
    {a0 : Fin n0 → ℝ} {b0 : Fin n0 → Fin m → ℝ} {E0 : (Fin m → ℝ) → ℝ} {u0 : Fin m → ℝ}
    (hu0 : ∀ i, 0 < frac (a0 i) (b0 i) u0) (hTe : trial U e = ι u0)
    (hI : ∀ s, (∀ i, 0 ≤ frac (siteA e i) (siteB i) s) → ∃ u, (∀ i, 0 ≤ frac (a0 i) (b0 i) u) ∧ ι u = s)
    (hE : ∀ u, (∀ i, 0 < frac (a0 i) (b0 i) u) → energy excess (siteC t) siteA siteB e (ι u) = E0 u)
    (hE0 : ∀ u, (∀ i, 0 < frac (a0 i) (b0 i) u) → E0 u0 ≤ E0 u) :
    Tendsto (fun r => (whole X).g t p r) (𝓝[{r | Present r}] e) (𝓝 (E0 u0)) :=
  vertex_limit (M := macros) (D := Dom) (Q := excess) (c := siteC t) (X := X) (P := {r | Present r}) (t := t) (p := p) excess_continuous
    siteA_continuous (fun r _ s => dom_iff (env r t p) s) (fun r _ s hs => g_eq (env r t p) s hs)
    (fun r hr => (hX (env r t p) ⟨ht, hr⟩).1) (fun r hr s hs => equilibrium_min hX (θ := env r t p) ⟨ht, hr⟩ s hs)
    (fun r hr => trial_pos hU hr) (trial_continuous U) (B := 10) frac_bound e hι hu0 hTe hI hE hE0

/-- **C78.** Melilite: the Gibbs energy of mixing tends to zero as the solution becomes pure gehlenite. -/
theorem C78_melilite_gehlenite {X : (Ext 3 → ℝ) → Fin 1 → ℝ} (hX : Equilibrium X) {E : (Ext 0 → ℝ) → Fin 1 → ℝ}
    (hE : PureGehlenite.Equilibrium E) {t : ℝ} (ht : 800 < t) (p : ℝ) :
    Tendsto (fun r => (mix X E).g t p r) (𝓝[{r | Present r}] ![1, 0, 0]) (𝓝 0) := by
  have hθ : env ![] t p ∈ PureGehlenite.hot := ht
  have hq := hE _ hθ
  have hmin := PureGehlenite.equilibrium_min hE hθ
  set u0 := E (env ![] t p) with hu0
  have hd := (PureGehlenite.dom_iff _ u0).mp hq.1
  have hd' : 0 < u0 0 ∧ 0 < 1 - u0 0 ∧ 0 < 1 + u0 0 := hq.1
  have fe : ∀ u : Fin 1 → ℝ, frac (PureGehlenite.siteA 0) (PureGehlenite.siteB 0) u = u 0 ∧
      frac (PureGehlenite.siteA 1) (PureGehlenite.siteB 1) u = 1 - u 0 ∧
      frac (PureGehlenite.siteA 2) (PureGehlenite.siteB 2) u = 1 + u 0 := by
    intro u
    refine ⟨?_, ?_, ?_⟩ <;> simp [frac, PureGehlenite.siteA, PureGehlenite.siteB]; ring
  have l := limit hX ht p (U := u0 0) ⟨hd'.1, by linarith [hd'.2.1]⟩ ![1, 0, 0]
    (ι := fun u : Fin 1 → ℝ => u) continuous_id
    (a0 := PureGehlenite.siteA) (b0 := PureGehlenite.siteB)
    (E0 := fun u => (PureGehlenite.macros (join (env ![] t p, u))).g) (u0 := u0) hd
    (by funext k; fin_cases k; simp [trial])
    (fun s hs => by
      have h4 := hs 4; have h5 := hs 5; have h6 := hs 6; have h7 := hs 7
      simp [frac, siteA, siteB] at h4 h5 h6 h7
      obtain ⟨e0, e1, e2⟩ := fe s
      refine ⟨s, fun i => ?_, rfl⟩
      fin_cases i
      exacts [e0.symm ▸ h5, e1.symm ▸ (by linarith), e2.symm ▸ (by linarith)])
    (fun u hu => by
      rw [PureGehlenite.g_eq _ u ((PureGehlenite.dom_iff _ u).mpr hu)]
      obtain ⟨e0, e1, e2⟩ := fe u
      have h1 : 0 < 1 - u 0 := e1 ▸ hu 1
      have h2 : 0 < 1 + u 0 := e2 ▸ hu 2
      rw [Fin.sum_univ_three, e0, e1, e2]
      have l6 : Real.log ((1 + u 0) / 2) = Real.log (1 + u 0) - Real.log 2 := Real.log_div h2.ne' (by norm_num)
      have l7 : Real.log ((1 - u 0) / 2) = Real.log (1 - u 0) - Real.log 2 := Real.log_div h1.ne' (by norm_num)
      have f : ∀ i : Fin 8, frac (siteA ![1, 0, 0] i) (siteB i) u =
          (![1, 0, 0, 0, 1 - u 0, u 0, (1 + u 0) / 2, (1 - u 0) / 2] : Fin 8 → ℝ) i := by
        intro i; fin_cases i <;> simp [frac, siteA, siteB] <;> ring
      simp only [energy, f, Fin.sum_univ_eight, siteC, Matrix.cons_val, l6, l7, PureGehlenite.siteC, PureGehlenite.excess,
        PureGehlenite.H, excess, H, show env ![] t p iT = t from rfl, Real.log_one, Real.log_zero,
        show PureGehlenite.DG22p = DG22p from rfl, show PureGehlenite.W22p = W22p from rfl, Matrix.cons_val_zero,
        Matrix.cons_val_one]
      ring)
    (fun u hu => hmin u ((PureGehlenite.dom_iff _ u).mpr hu))
  have l2 := mixing_limit (w := weight) (g := fun a => (ends E a t p).g) 1 l weight_continuous
    (fun j => by fin_cases j <;> simp [weight])
  have z : (PureGehlenite.macros (join (env ![] t p, u0))).g - (ends E 1 t p).g = 0 := sub_self _
  rw [z] at l2
  exact l2

/-- Next to an end member without aluminium. -/
lemma limit_zero {X : (Ext 3 → ℝ) → Fin 1 → ℝ} (hX : Equilibrium X) {t : ℝ} (ht : 800 < t) (p : ℝ) (e : Fin 3 → ℝ) (h0 : e 0 = 0)
    (hE : energy excess (siteC t) siteA siteB e ![0] = 0) :
    Tendsto (fun r => (whole X).g t p r) (𝓝[{r | Present r}] e) (𝓝 0) :=
  limit hX ht p (U := 1 / 2) (by norm_num) e (ι := fun _ : Fin 0 → ℝ => ![0]) continuous_const
    (a0 := (![] : Fin 0 → ℝ)) (b0 := fun i => i.elim0) (E0 := fun _ => 0) (u0 := ![]) (fun i => i.elim0)
    (by funext k; fin_cases k; simp [trial, h0])
    (fun s hs => by
      have h4 := hs 4; have h6 := hs 6
      simp [frac, siteA, siteB, h0] at h4 h6
      refine ⟨![], fun i => i.elim0, ?_⟩
      funext k; fin_cases k
      exact le_antisymm h6 h4)
    (fun _ _ => hE) (fun _ _ => le_rfl)

/-- **C78.** Melilite: the Gibbs energy of mixing tends to zero as the solution becomes pure akermanite. -/
theorem C78_melilite_akermanite {X : (Ext 3 → ℝ) → Fin 1 → ℝ} (hX : Equilibrium X) (E : (Ext 0 → ℝ) → Fin 1 → ℝ) {t : ℝ} (ht : 800 < t)
    (p : ℝ) : Tendsto (fun r => (mix X E).g t p r) (𝓝[{r | Present r}] ![0, 0, 0]) (𝓝 0) := by
  have l := limit_zero hX ht p ![0, 0, 0] rfl (by
    simp [energy, Fin.sum_univ_eight, frac, siteA, siteB, siteC, excess, H])
  have l2 := mixing_limit (w := weight) (g := fun a => (ends E a t p).g) 0 l weight_continuous
    (fun j => by fin_cases j <;> simp [weight])
  have z : (0 : ℝ) - (ends E 0 t p).g = 0 := by simp [ends, fixedStd]
  rw [z] at l2
  exact l2

/-- **C78.** Melilite: the Gibbs energy of mixing tends to zero as the solution becomes pure iron akermanite. -/
theorem C78_melilite_iron_akermanite {X : (Ext 3 → ℝ) → Fin 1 → ℝ} (hX : Equilibrium X) (E : (Ext 0 → ℝ) → Fin 1 → ℝ) {t : ℝ} (ht : 800 < t)
    (p : ℝ) : Tendsto (fun r => (mix X E).g t p r) (𝓝[{r | Present r}] ![0, 1, 0]) (𝓝 0) := by
  have l := limit_zero hX ht p ![0, 1, 0] rfl (by
    simp [energy, Fin.sum_univ_eight, frac, siteA, siteB, siteC, excess, H])
  have l2 := mixing_limit (w := weight) (g := fun a => (ends E a t p).g) 2 l weight_continuous
    (fun j => by fin_cases j <;> simp [weight])
  have z : (0 : ℝ) - (ends E 2 t p).g = 0 := by simp [ends, fixedStd]
  rw [z] at l2
  exact l2

/-- **C78.** Melilite: the Gibbs energy of mixing tends to zero as the solution becomes pure soda melilite. -/
theorem C78_melilite_soda {X : (Ext 3 → ℝ) → Fin 1 → ℝ} (hX : Equilibrium X) (E : (Ext 0 → ℝ) → Fin 1 → ℝ) {t : ℝ} (ht : 800 < t)
    (p : ℝ) : Tendsto (fun r => (mix X E).g t p r) (𝓝[{r | Present r}] ![0, 0, 1]) (𝓝 0) := by
  have l := limit_zero hX ht p ![0, 0, 1] rfl (by
    simp [energy, Fin.sum_univ_eight, frac, siteA, siteB, siteC, excess, H])
  have l2 := mixing_limit (w := weight) (g := fun a => (ends E a t p).g) 3 l weight_continuous
    (fun j => by fin_cases j <;> simp [weight])
  have z : (0 : ℝ) - (ends E 3 t p).g = 0 := by simp [ends, fixedStd]
  rw [z] at l2
  exact l2

/-- The limits are not over the empty set: there are compositions with all end members present next to each vertex. -/
example : (𝓝[{r | Present r}] (![1, 0, 0] : Fin 3 → ℝ)).NeBot := by
  rw [← mem_closure_iff_nhdsWithin_neBot]
  have ht : Tendsto (fun τ : ℝ => (![1 - 3 * τ, τ, τ] : Fin 3 → ℝ)) (𝓝[>] 0) (𝓝 ![1, 0, 0]) := by
    have hc : Continuous fun τ : ℝ => (![1 - 3 * τ, τ, τ] : Fin 3 → ℝ) := by
      refine continuous_pi fun k => ?_
      fin_cases k <;> simp <;> fun_prop
    have := (hc.tendsto 0).mono_left (nhdsWithin_le_nhds (s := Set.Ioi (0 : ℝ)))
    simpa using this
  refine mem_closure_of_tendsto ht ?_
  have hlt : ∀ᶠ τ : ℝ in 𝓝[>] 0, τ < 1 / 3 := nhdsWithin_le_nhds (Iio_mem_nhds (by norm_num))
  filter_upwards [self_mem_nhdsWithin, hlt] with τ (h0 : 0 < τ) h1
  refine ⟨?_, ?_, ?_, ?_⟩ <;> simp only [Matrix.cons_val, Matrix.cons_val_zero, Matrix.cons_val_one] <;> linarith

end

end Melilite

end Verif.Thermo.Ordering
