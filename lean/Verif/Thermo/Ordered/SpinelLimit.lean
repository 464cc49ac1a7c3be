import Verif.Thermo.Ordered.SpinelProps
import Verif.Thermo.OrderLimit

/-!
Spinel next to its pure end members (/repo/sources/spinel.c): the energy of mixing of a solution that becomes pure chromite,
hercynite, magnetite, spinel or ulvöspinel tends to zero, so the macros for the solution and the separate ones for the end
members describe the same crystal.
-/

namespace Verif.Thermo.Ordering

noncomputable section

lemma PureHercynite.equilibrium_min {X : (Ext 0 → ℝ) → Fin 1 → ℝ} (hX : PureHercynite.Equilibrium X) {θ : Ext 0 → ℝ}
    (h : θ ∈ PureHercynite.hot) (u : Fin 1 → ℝ) (hu : PureHercynite.Dom (join (θ, u))) :
    (PureHercynite.macros (join (θ, X θ))).g ≤ (PureHercynite.macros (join (θ, u))).g := by
  obtain ⟨s, ⟨hs, hm⟩, -⟩ := PureHercynite.C61_pure_hercynite_unique θ h
  have ht : 700 < θ iT := h
  rw [pack_unique PureHercynite.ok (pack_convex (PureHercynite.dom_iff θ)) (fun s hs => posHess_one (PureHercynite.convex ht hs)) (hX θ h) hs]
  exact hm u hu

lemma PureMagnetite.equilibrium_min {X : (Ext 0 → ℝ) → Fin 1 → ℝ} (hX : PureMagnetite.Equilibrium X) {θ : Ext 0 → ℝ}
    (h : θ ∈ PureMagnetite.hot) (u : Fin 1 → ℝ) (hu : PureMagnetite.Dom (join (θ, u))) :
    (PureMagnetite.macros (join (θ, X θ))).g ≤ (PureMagnetite.macros (join (θ, u))).g := by
  obtain ⟨s, ⟨hs, hm⟩, -⟩ := PureMagnetite.C61_pure_magnetite_unique θ h
  have ht : 0 < θ iT := h
  rw [pack_unique PureMagnetite.ok (pack_convex (PureMagnetite.dom_iff θ)) (fun s hs => posHess_one (PureMagnetite.convex ht hs)) (hX θ h) hs]
  exact hm u hu

lemma PureSpinel.equilibrium_min {X : (Ext 0 → ℝ) → Fin 1 → ℝ} (hX : PureSpinel.Equilibrium X) {θ : Ext 0 → ℝ}
    (h : θ ∈ PureSpinel.hot) (u : Fin 1 → ℝ) (hu : PureSpinel.Dom (join (θ, u))) :
    (PureSpinel.macros (join (θ, X θ))).g ≤ (PureSpinel.macros (join (θ, u))).g := by
  obtain ⟨s, ⟨hs, hm⟩, -⟩ := PureSpinel.C61_pure_spinel_unique θ h
  have ht : 560 < θ iT := h
  rw [pack_unique PureSpinel.ok (pack_convex (PureSpinel.dom_iff θ)) (fun s hs => posHess_one (PureSpinel.convex ht hs)) (hX θ h) hs]
  exact hm u hu

end

namespace Spinel

open Finset Filter Topology
open Magma.Thermo.Mixing (R R_pos Mix)
open Verif.Thermo.StdState (Std Consistent)

noncomputable section

/-- The equilibrium state has the least energy of all. -/
lemma equilibrium_min {X : (Ext 4 → ℝ) → Fin 3 → ℝ} (hX : Equilibrium X) {θ : Ext 4 → ℝ} (h : θ ∈ hot) (s : Fin 3 → ℝ)
    (hs : Dom (join (θ, s))) : (macros (join (θ, X θ))).g ≤ (macros (join (θ, s))).g := by
  obtain ⟨s', h', hm⟩ := C61_spinel_exists θ (lt_trans (by norm_num) h.1) h.2
  rw [(C61_spinel_unique θ h).unique (hX θ h) h']
  exact hm s hs

/-- Mixtures of all five end members. -/
def Inner (r : Fin 4 → ℝ) : Prop := 0 < r 0 ∧ 0 < r 1 ∧ 0 < r 2 ∧ 0 < r 3 ∧ 0 < 1 - r 0 - r 1 - r 2 - r 3

lemma Inner.present {r : Fin 4 → ℝ} (h : Inner r) : Present r := by
  obtain ⟨h0, h1, h2, h3, h4⟩ := h
  refine ⟨h0, ?_, ?_, h3, h1, h2⟩ <;> linarith

/-- A mixture of end members with ordering states `u` (hercynite, magnetite, spinel), each cation keeping its place. -/
def trial (u : Fin 3 → ℝ) (r : Fin 4 → ℝ) : Fin 3 → ℝ :=
  ![r 0 * u 2, (1 - r 0 - r 1 - r 2 - r 3) * u 0 + r 0 * (1 + u 2) / 2, r 3 * u 1]

lemma trial_continuous (u : Fin 3 → ℝ) : Continuous (trial u) := by
  refine continuous_pi fun k => ?_
  fin_cases k <;> simp only [trial, Fin.zero_eta, Fin.mk_one, Fin.reduceFinMk, Matrix.cons_val, Matrix.cons_val_zero,
    Matrix.cons_val_one] <;> fun_prop

lemma trial_pos {u : Fin 3 → ℝ} (hu : (0 < u 0 ∧ u 0 < 1) ∧ (0 < u 1 ∧ u 1 < 1) ∧ -1 < u 2 ∧ u 2 < 1) {r : Fin 4 → ℝ}
    (h : Inner r) (i : Fin 10) : 0 < frac (siteA r i) (siteB i) (trial u r) := by
  obtain ⟨h0, h1, h2, h3, h4⟩ := h
  obtain ⟨⟨u0, u0'⟩, ⟨u1, u1'⟩, u2, u2'⟩ := hu
  have a0 := mul_pos h4 u0
  have b0 := mul_pos h4 (by linarith : 0 < 1 - u 0)
  have a1 := mul_pos h3 u1
  have b1 := mul_pos h3 (by linarith : 0 < 1 - u 1)
  have a2 := mul_pos h0 (by linarith : 0 < 1 + u 2)
  have b2 := mul_pos h0 (by linarith : 0 < 1 - u 2)
  fin_cases i <;> simp [frac, siteA, siteB, trial, Fin.sum_univ_three] <;> nlinarith

lemma frac_bound (r : Fin 4 → ℝ) (hr : Inner r) (s : Fin 3 → ℝ) (hs : ∀ i, 0 ≤ frac (siteA r i) (siteB i) s) (k : Fin 3) :
    |s k| ≤ 10 := by
  obtain ⟨r0, r1, r2, r3, r4⟩ := hr
  have h0 := hs 0; have h1 := hs 1; have h2 := hs 2; have h3 := hs 3; have h4 := hs 4; have h5 := hs 5; have h6 := hs 6
  have h7 := hs 7
  simp [frac, siteA, siteB, Fin.sum_univ_three] at h0 h1 h2 h3 h4 h5 h6 h7
  rw [abs_le]
  fin_cases k <;> constructor <;> simp only [Fin.zero_eta, Fin.mk_one, Fin.reduceFinMk] <;> linarith

lemma siteA_continuous (i : Fin 10) : Continuous fun r => siteA r i := by
  fin_cases i <;> simp only [siteA, Fin.zero_eta, Fin.mk_one, Fin.reduceFinMk, Matrix.cons_val, Matrix.cons_val_zero,
    Matrix.cons_val_one] <;> fun_prop

lemma excess_continuous (t p : ℝ) : Continuous fun q : (Fin 4 → ℝ) × (Fin 3 → ℝ) => excess q.1 t p q.2 := by
  unfold excess H
  have c : ∀ j : Fin 4, Continuous fun q : (Fin 4 → ℝ) × (Fin 3 → ℝ) => q.1 j := fun j => by fun_prop
  have d : ∀ j : Fin 3, Continuous fun q : (Fin 4 → ℝ) × (Fin 3 → ℝ) => q.2 j := fun j => by fun_prop
  have := c 0; have := c 1; have := c 2; have := c 3; have := d 0; have := d 1; have := d 2
  fun_prop

/-- The energy of the solution next to an end member (at `e`), whose states `u` appear as `ι u` and have energies `E0 u`. -/
lemma limit {X : (Ext 4 → ℝ) → Fin 3 → ℝ} (hX : Equilibrium X) {t : ℝ} (ht : 885 < t) (p : ℝ) {U : Fin 3 → ℝ}
    (hU : (0 < U 0 ∧ U 0 < 1) ∧ (0 < U 1 ∧ U 1 < 1) ∧ -1 < U 2 ∧ U 2 < 1) (e : Fin 4 → ℝ) {m n0 : ℕ}
    {ι : (Fin m → ℝ) → Fin 3 → ℝ} (hι : Continuous ι)
    {a0 : Fin n0 → ℝ} {b0 : Fin n0 → Fin m → ℝ} {E0 : (Fin m → ℝ) → ℝ} {u0 : Fin m → ℝ}
    (hu0 : ∀ i, 0 < frac (a0 i) (b0 i) u0) (hTe : trial U e = ι u0)
    (hI : ∀ s, (∀ i, 0 ≤ frac (siteA e i) (siteB i) s) → ∃ u, (∀ i, 0 ≤ frac (a0 i) (b0 i) u) ∧ ι u = s)
    (hE : ∀ u, (∀ i, 0 < frac (a0 i) (b0 i) u) →
      energy (fun r s => excess r t p s) (siteC t) siteA siteB e (ι u) = E0 u)
    (hE0 : ∀ u, (∀ i, 0 < frac (a0 i) (b0 i) u) → E0 u0 ≤ E0 u) :
    Tendsto (fun r => (whole X).g t p r) (𝓝[{r | Inner r}] e) (𝓝 (E0 u0)) :=
  vertex_limit (M := macros) (D := Dom) (Q := fun r s => excess r t p s) (c := siteC t) (X := X) (P := {r | Inner r}) (t := t) (p := p)
    (excess_continuous t p) siteA_continuous (fun r _ s => dom_iff (env r t p) s) (fun r _ s hs => g_eq (env r t p) s hs)
    (fun r hr => (hX (env r t p) ⟨ht, Inner.present hr⟩).1)
    (fun r hr s hs => equilibrium_min hX (θ := env r t p) ⟨ht, Inner.present hr⟩ s hs)
    (fun r hr => trial_pos hU hr) (trial_continuous U) (B := 10) frac_bound e hι hu0 hTe hI hE hE0

lemma weight_continuous (j : Fin 5) : Continuous fun r => weight r j := by
  fin_cases j <;> simp [weight] <;> fun_prop

/-- **C78.** Spinel: the Gibbs energy of mixing tends to zero as the solution becomes pure hercynite. -/
theorem C78_spinel_hercynite {X : (Ext 4 → ℝ) → Fin 3 → ℝ} (hX : Equilibrium X) {E : Ends} (hE : E.Ok) {t : ℝ}
    (ht : 885 < t) (p : ℝ) :
    Tendsto (fun r => (mix X E).g t p r) (𝓝[{r | Inner r}] ![0, 0, 0, 0]) (𝓝 0) := by
  have hθ : env ![] t p ∈ PureHercynite.hot := show _ < t by linarith
  have hq := hE.hc _ hθ
  have hmin := PureHercynite.equilibrium_min hE.hc hθ
  set u0 := E.hc (env ![] t p) with hu0
  have hd := (PureHercynite.dom_iff _ u0).mp hq.1
  obtain ⟨d0, d1, d2⟩ := hq.1
  change 0 < u0 0 at d0
  change 0 < 1 - u0 0 at d1
  change 0 < 1 + u0 0 at d2
  have l := limit hX ht p (U := ![u0 0, 1 / 2, 0]) (by
      simp only [Matrix.cons_val, Matrix.cons_val_zero, Matrix.cons_val_one]
      refine ⟨⟨?_, ?_⟩, ⟨?_, ?_⟩, ?_, ?_⟩ <;> linarith) ![0, 0, 0, 0]
    (ι := fun u : Fin 1 → ℝ => ![0, u 0, 0]) (by
      refine continuous_pi fun k => ?_
      fin_cases k <;> simp <;> fun_prop)
    (a0 := PureHercynite.siteA) (b0 := PureHercynite.siteB)
    (E0 := fun u => (PureHercynite.macros (join (env ![] t p, u))).g) (u0 := u0) hd
    (by funext k; fin_cases k <;> simp [trial])
    (fun s hs => by
      have h0 := hs 0; have h1 := hs 1; have h2 := hs 2; have h3 := hs 3; have h4 := hs 4; have h5 := hs 5; have h6 := hs 6
      have h7 := hs 7
      simp [frac, siteA, siteB, Fin.sum_univ_three] at h0 h1 h2 h3 h4 h5 h6 h7
      have z0 : s 0 = 0 := by linarith
      have z2 : s 2 = 0 := by linarith
      refine ⟨![s 1], fun i => ?_, ?_⟩
      · fin_cases i <;> simp [frac, PureHercynite.siteA, PureHercynite.siteB] <;> linarith
      · funext k; fin_cases k <;> simp <;> linarith)
    (fun u hu => by
      have hdu := (PureHercynite.dom_iff (env ![] t p) u).mpr hu
      rw [PureHercynite.g_eq _ u hdu]
      obtain ⟨d0, d1, d2⟩ := hdu
      change 0 < u 0 at d0
      change 0 < 1 - u 0 at d1
      change 0 < 1 + u 0 at d2
      have l1 : Real.log ((1 - u 0) / 2) = Real.log (1 - u 0) - Real.log 2 := Real.log_div d1.ne' two_ne_zero
      have l2 : Real.log ((1 + u 0) / 2) = Real.log (1 + u 0) - Real.log 2 := Real.log_div d2.ne' two_ne_zero
      rw [energy, Fin.sum_univ_three]
      simp [Fin.sum_univ_succ (n := 9), Fin.sum_univ_succ (n := 8), Fin.sum_univ_eight, frac, siteA, siteB, siteC, Fin.sum_univ_three,
        excess, H, PureHercynite.excess, PureHercynite.H, PureHercynite.siteC, PureHercynite.siteA, PureHercynite.siteB, show PureHercynite.g0 = g0 from rfl,
        show PureHercynite.gs2 = gs2 from rfl,
        show PureHercynite.gs2s2 = gs2s2 from rfl, show env ![] t p iT = t from rfl]
      ring_nf at l1 l2 ⊢
      simp only [l1, l2]
      ring)
    (fun u hu => hmin u ((PureHercynite.dom_iff _ u).mpr hu))
  have l2 := mixing_limit (w := weight) (g := fun a => (ends E a t p).g) 1 l weight_continuous
    (fun j => by fin_cases j <;> simp [weight])
  have z : (PureHercynite.macros (join (env ![] t p, u0))).g - (ends E 1 t p).g = 0 := sub_self _
  rw [z] at l2
  exact l2

/-- **C78.** Spinel: the Gibbs energy of mixing tends to zero as the solution becomes pure magnetite. -/
theorem C78_spinel_magnetite {X : (Ext 4 → ℝ) → Fin 3 → ℝ} (hX : Equilibrium X) {E : Ends} (hE : E.Ok) {t : ℝ}
    (ht : 885 < t) (p : ℝ) :
    Tendsto (fun r => (mix X E).g t p r) (𝓝[{r | Inner r}] ![0, 0, 0, 1]) (𝓝 0) := by
  have hθ : env ![] t p ∈ PureMagnetite.hot := show _ < t by linarith
  have hq := hE.mt _ hθ
  have hmin := PureMagnetite.equilibrium_min hE.mt hθ
  set u0 := E.mt (env ![] t p) with hu0
  have hd := (PureMagnetite.dom_iff _ u0).mp hq.1
  obtain ⟨d0, d1, d2⟩ := hq.1
  change 0 < u0 0 at d0
  change 0 < 1 - u0 0 at d1
  change 0 < 1 + u0 0 at d2
  have l := limit hX ht p (U := ![1 / 2, u0 0, 0]) (by
      simp only [Matrix.cons_val, Matrix.cons_val_zero, Matrix.cons_val_one]
      refine ⟨⟨?_, ?_⟩, ⟨?_, ?_⟩, ?_, ?_⟩ <;> linarith) ![0, 0, 0, 1]
    (ι := fun u : Fin 1 → ℝ => ![0, 0, u 0]) (by
      refine continuous_pi fun k => ?_
      fin_cases k <;> simp <;> fun_prop)
    (a0 := PureMagnetite.siteA) (b0 := PureMagnetite.siteB)
    (E0 := fun u => (PureMagnetite.macros (join (env ![] t p, u))).g) (u0 := u0) hd
    (by funext k; fin_cases k <;> simp [trial])
    (fun s hs => by
      have h0 := hs 0; have h1 := hs 1; have h2 := hs 2; have h3 := hs 3; have h4 := hs 4; have h5 := hs 5; have h6 := hs 6
      have h7 := hs 7
      simp [frac, siteA, siteB, Fin.sum_univ_three] at h0 h1 h2 h3 h4 h5 h6 h7
      have z0 : s 0 = 0 := by linarith
      have z1 : s 1 = 0 := by linarith
      refine ⟨![s 2], fun i => ?_, ?_⟩
      · fin_cases i <;> simp [frac, PureMagnetite.siteA, PureMagnetite.siteB] <;> linarith
      · funext k; fin_cases k <;> simp <;> linarith)
    (fun u hu => by
      have hdu := (PureMagnetite.dom_iff (env ![] t p) u).mpr hu
      rw [PureMagnetite.g_eq _ u hdu]
      obtain ⟨d0, d1, d2⟩ := hdu
      change 0 < u 0 at d0
      change 0 < 1 - u 0 at d1
      change 0 < 1 + u 0 at d2
      have l1 : Real.log ((1 - u 0) / 2) = Real.log (1 - u 0) - Real.log 2 := Real.log_div d1.ne' two_ne_zero
      have l2 : Real.log ((1 + u 0) / 2) = Real.log (1 + u 0) - Real.log 2 := Real.log_div d2.ne' two_ne_zero
      rw [energy, Fin.sum_univ_three]
      simp [Fin.sum_univ_succ (n := 9), Fin.sum_univ_succ (n := 8), Fin.sum_univ_eight, frac, siteA, siteB, siteC, Fin.sum_univ_three,
        excess, H, PureMagnetite.excess, PureMagnetite.H, PureMagnetite.siteC, PureMagnetite.siteA, PureMagnetite.siteB, show PureMagnetite.g0 = g0 from rfl,
        show PureMagnetite.gx5 = gx5 from rfl,
        show PureMagnetite.hs4 = hs4 from rfl,
        show PureMagnetite.gx5x5 = gx5x5 from rfl,
        show PureMagnetite.gx5s4 = gx5s4 from rfl,
        show PureMagnetite.gs4s4 = gs4s4 from rfl,
        show PureMagnetite.ss4 = ss4 from rfl, show env ![] t p iT = t from rfl]
      ring_nf at l1 l2 ⊢
      simp only [l1, l2]
      ring)
    (fun u hu => hmin u ((PureMagnetite.dom_iff _ u).mpr hu))
  have l2 := mixing_limit (w := weight) (g := fun a => (ends E a t p).g) 2 l weight_continuous
    (fun j => by fin_cases j <;> simp [weight])
  have z : (PureMagnetite.macros (join (env ![] t p, u0))).g - (ends E 2 t p).g = 0 := sub_self _
  rw [z] at l2
  exact l2

/-- **C78.** Spinel: the Gibbs energy of mixing tends to zero as the solution becomes pure spinel (MgAl2O4). -/
theorem C78_spinel_spinel {X : (Ext 4 → ℝ) → Fin 3 → ℝ} (hX : Equilibrium X) {E : Ends} (hE : E.Ok) {t : ℝ}
    (ht : 885 < t) (p : ℝ) :
    Tendsto (fun r => (mix X E).g t p r) (𝓝[{r | Inner r}] ![1, 0, 0, 0]) (𝓝 0) := by
  have hθ : env ![] t p ∈ PureSpinel.hot := show _ < t by linarith
  have hq := hE.sp _ hθ
  have hmin := PureSpinel.equilibrium_min hE.sp hθ
  set u0 := E.sp (env ![] t p) with hu0
  have hd := (PureSpinel.dom_iff _ u0).mp hq.1
  obtain ⟨d0, d1, d2⟩ := hq.1
  change 0 < 1 - u0 0 at d0
  change 0 < 1 + u0 0 at d1
  change 0 < 3 + u0 0 at d2
  have l := limit hX ht p (U := ![1 / 2, 1 / 2, u0 0]) (by
      simp only [Matrix.cons_val, Matrix.cons_val_zero, Matrix.cons_val_one]
      refine ⟨⟨?_, ?_⟩, ⟨?_, ?_⟩, ?_, ?_⟩ <;> linarith) ![1, 0, 0, 0]
    (ι := fun u : Fin 1 → ℝ => ![u 0, (1 + u 0) / 2, 0]) (by
      refine continuous_pi fun k => ?_
      fin_cases k <;> simp <;> fun_prop)
    (a0 := PureSpinel.siteA) (b0 := PureSpinel.siteB)
    (E0 := fun u => (PureSpinel.macros (join (env ![] t p, u))).g) (u0 := u0) hd
    (by funext k; fin_cases k <;> simp [trial])
    (fun s hs => by
      have h0 := hs 0; have h1 := hs 1; have h2 := hs 2; have h3 := hs 3; have h4 := hs 4; have h5 := hs 5; have h6 := hs 6
      have h7 := hs 7
      simp [frac, siteA, siteB, Fin.sum_univ_three] at h0 h1 h2 h3 h4 h5 h6 h7
      have z1 : s 1 = (1 + s 0) / 2 := by linarith
      have z2 : s 2 = 0 := by linarith
      refine ⟨![s 0], fun i => ?_, ?_⟩
      · fin_cases i <;> simp [frac, PureSpinel.siteA, PureSpinel.siteB] <;> linarith
      · funext k; fin_cases k <;> simp <;> linarith)
    (fun u hu => by
      have hdu := (PureSpinel.dom_iff (env ![] t p) u).mpr hu
      rw [PureSpinel.g_eq _ u hdu]
      obtain ⟨d0, d1, d2⟩ := hdu
      change 0 < 1 - u 0 at d0
      change 0 < 1 + u 0 at d1
      change 0 < 3 + u 0 at d2
      have l1 : Real.log ((1 - u 0) / 2) = Real.log (1 - u 0) - Real.log 2 := Real.log_div d0.ne' two_ne_zero
      have l2 : Real.log ((1 + u 0) / 2) = Real.log (1 + u 0) - Real.log 2 := Real.log_div d1.ne' two_ne_zero
      have l4 : Real.log 4 = 2 * Real.log 2 := by rw [show (4 : ℝ) = 2 ^ 2 by norm_num, Real.log_pow]; norm_num
      have l3 : Real.log ((1 - u 0) / 4) = Real.log (1 - u 0) - 2 * Real.log 2 := by rw [← l4]; exact Real.log_div d0.ne' four_ne_zero
      have l5 : Real.log ((3 + u 0) / 4) = Real.log (3 + u 0) - 2 * Real.log 2 := by rw [← l4]; exact Real.log_div d2.ne' four_ne_zero
      rw [energy, Fin.sum_univ_three]
      simp [Fin.sum_univ_succ (n := 9), Fin.sum_univ_succ (n := 8), Fin.sum_univ_eight, frac, siteA, siteB, siteC, Fin.sum_univ_three,
        excess, H, PureSpinel.excess, PureSpinel.H, PureSpinel.siteC, PureSpinel.siteA, PureSpinel.siteB, show PureSpinel.g0 = g0 from rfl,
        show PureSpinel.gx2 = gx2 from rfl,
        show PureSpinel.gs1 = gs1 from rfl,
        show PureSpinel.gs2 = gs2 from rfl,
        show PureSpinel.gx2x2 = gx2x2 from rfl,
        show PureSpinel.gx2s1 = gx2s1 from rfl,
        show PureSpinel.gx2s2 = gx2s2 from rfl,
        show PureSpinel.gs1s1 = gs1s1 from rfl,
        show PureSpinel.gs1s2 = gs1s2 from rfl,
        show PureSpinel.gs2s2 = gs2s2 from rfl, show env ![] t p iT = t from rfl]
      ring_nf at l1 l2 l3 l5 ⊢
      simp only [l1, l2, l3, l5]
      ring)
    (fun u hu => hmin u ((PureSpinel.dom_iff _ u).mpr hu))
  have l2 := mixing_limit (w := weight) (g := fun a => (ends E a t p).g) 3 l weight_continuous
    (fun j => by fin_cases j <;> simp [weight])
  have z : (PureSpinel.macros (join (env ![] t p, u0))).g - (ends E 3 t p).g = 0 := sub_self _
  rw [z] at l2
  exact l2

/-- **C78.** Spinel: the Gibbs energy of mixing tends to zero as the solution becomes pure chromite. -/
theorem C78_spinel_chromite {X : (Ext 4 → ℝ) → Fin 3 → ℝ} (hX : Equilibrium X) (E : Ends) {t : ℝ} (ht : 885 < t) (p : ℝ) :
    Tendsto (fun r => (mix X E).g t p r) (𝓝[{r | Inner r}] ![0, 1, 0, 0]) (𝓝 0) := by
  have l := limit hX ht p (U := ![1 / 2, 1 / 2, 0]) (by
      simp only [Matrix.cons_val, Matrix.cons_val_zero, Matrix.cons_val_one]
      norm_num) ![0, 1, 0, 0]
    (ι := fun _ : Fin 0 → ℝ => ![0, 0, 0]) continuous_const (a0 := (![] : Fin 0 → ℝ)) (b0 := ![])
    (E0 := fun _ => (CR_H - t * 0)) (u0 := ![]) (fun i => i.elim0)
    (by funext k; fin_cases k <;> simp [trial])
    (fun s hs => by
      have h0 := hs 0; have h1 := hs 1; have h2 := hs 2; have h3 := hs 3; have h4 := hs 4; have h5 := hs 5; have h6 := hs 6
      have h7 := hs 7
      simp [frac, siteA, siteB, Fin.sum_univ_three] at h0 h1 h2 h3 h4 h5 h6 h7
      refine ⟨![], fun i => i.elim0, ?_⟩
      funext k; fin_cases k <;> simp <;> linarith)
    (fun u _ => by
      rw [energy]
      simp [Fin.sum_univ_succ (n := 9), Fin.sum_univ_succ (n := 8), Fin.sum_univ_eight, frac, siteA, siteB, siteC, Fin.sum_univ_three,
        excess, H, CR_H])
    (fun _ _ => le_refl _)
  have l2 := mixing_limit (w := weight) (g := fun a => (ends E a t p).g) 0 l weight_continuous
    (fun j => by fin_cases j <;> simp [weight])
  have z : (CR_H - t * 0) - (ends E 0 t p).g = 0 := sub_self _
  rw [z] at l2
  exact l2

/-- **C78.** Spinel: the Gibbs energy of mixing tends to zero as the solution becomes pure ulvöspinel. -/
theorem C78_spinel_ulvospinel {X : (Ext 4 → ℝ) → Fin 3 → ℝ} (hX : Equilibrium X) (E : Ends) {t : ℝ} (ht : 885 < t) (p : ℝ) :
    Tendsto (fun r => (mix X E).g t p r) (𝓝[{r | Inner r}] ![0, 0, 1, 0]) (𝓝 0) := by
  have l := limit hX ht p (U := ![1 / 2, 1 / 2, 0]) (by
      simp only [Matrix.cons_val, Matrix.cons_val_zero, Matrix.cons_val_one]
      norm_num) ![0, 0, 1, 0]
    (ι := fun _ : Fin 0 → ℝ => ![0, 0, 0]) continuous_const (a0 := (![] : Fin 0 → ℝ)) (b0 := ![])
    (E0 := fun _ => (UV_H - t * UV_S)) (u0 := ![]) (fun i => i.elim0)
    (by funext k; fin_cases k <;> simp [trial])
    (fun s hs => by
      have h0 := hs 0; have h1 := hs 1; have h2 := hs 2; have h3 := hs 3; have h4 := hs 4; have h5 := hs 5; have h6 := hs 6
      have h7 := hs 7
      simp [frac, siteA, siteB, Fin.sum_univ_three] at h0 h1 h2 h3 h4 h5 h6 h7
      refine ⟨![], fun i => i.elim0, ?_⟩
      funext k; fin_cases k <;> simp <;> linarith)
    (fun u _ => by
      rw [energy]
      simp [Fin.sum_univ_succ (n := 9), Fin.sum_univ_succ (n := 8), Fin.sum_univ_eight, frac, siteA, siteB, siteC, Fin.sum_univ_three,
        excess, H, UV_H, UV_S]
      have l : Real.log (1 / 2) = -Real.log 2 := by rw [one_div]; exact Real.log_inv 2
      norm_num
      rw [l]
      ring)
    (fun _ _ => le_refl _)
  have l2 := mixing_limit (w := weight) (g := fun a => (ends E a t p).g) 4 l weight_continuous
    (fun j => by fin_cases j <;> simp [weight])
  have z : (UV_H - t * UV_S) - (ends E 4 t p).g = 0 := sub_self _
  rw [z] at l2
  exact l2

/-- The limits are not over the empty set, and the hypotheses are met: pure ulvöspinel at 1200 K. -/
example : (∃ X, Equilibrium X) ∧ (∃ E : Ends, E.Ok) ∧ (885 : ℝ) < 1200 ∧ (𝓝[{r | Inner r}] (![0, 0, 1, 0] : Fin 4 → ℝ)).NeBot := by
  obtain ⟨a, ha⟩ := PureHercynite.equilibrium_exists
  obtain ⟨b, hb⟩ := PureMagnetite.equilibrium_exists
  obtain ⟨c, hc⟩ := PureSpinel.equilibrium_exists
  refine ⟨equilibrium_exists, ⟨⟨a, b, c⟩, ⟨ha, hb, hc⟩⟩, by norm_num, ?_⟩
  rw [← mem_closure_iff_nhdsWithin_neBot]
  have ht : Tendsto (fun τ : ℝ => (![τ, τ, 1 - 4 * τ, τ] : Fin 4 → ℝ)) (𝓝[>] 0) (𝓝 ![0, 0, 1, 0]) := by
    have hc : Continuous fun τ : ℝ => (![τ, τ, 1 - 4 * τ, τ] : Fin 4 → ℝ) := by
      refine continuous_pi fun k => ?_
      fin_cases k <;> simp <;> fun_prop
    have := (hc.tendsto 0).mono_left (nhdsWithin_le_nhds (s := Set.Ioi (0 : ℝ)))
    simpa using this
  refine mem_closure_of_tendsto ht ?_
  have hlt : ∀ᶠ τ : ℝ in 𝓝[>] 0, τ < 1 / 4 := nhdsWithin_le_nhds (Iio_mem_nhds (by norm_num))
  filter_upwards [self_mem_nhdsWithin, hlt] with τ (h0 : 0 < τ) h1
  refine ⟨?_, ?_, ?_, ?_, ?_⟩ <;> simp <;> linarith

end

end Spinel

end Verif.Thermo.Ordering
