import Verif.Thermo.Ordered.OrthoOxideProps
import Verif.Thermo.OrderLimit

/-!
Ortho-oxide next to its pure end members (/repo/sources/ortho-oxide.c): the energy of mixing of a solution that becomes pure
pseudobrookite tends to zero; that of a solution that becomes pure ferropseudobrookite or karrooite does not, because the
macros for these two end members (`FE_H, FE_S, MG_H, MG_S`, 479-481 and 509-511) leave out the constant `G0` and the
entropy of titanium, which the solution has.
-/

namespace Verif.Thermo.Ordering

noncomputable section

lemma PurePseudobrookite.equilibrium_min {X : (Ext 0 → ℝ) → Fin 1 → ℝ} (hX : PurePseudobrookite.Equilibrium X) {θ : Ext 0 → ℝ}
    (h : θ ∈ PurePseudobrookite.hot) (u : Fin 1 → ℝ) (hu : PurePseudobrookite.Dom (join (θ, u))) :
    (PurePseudobrookite.macros (join (θ, X θ))).g ≤ (PurePseudobrookite.macros (join (θ, u))).g := by
  obtain ⟨s, ⟨hs, hm⟩, -⟩ := PurePseudobrookite.C61_pure_pseudobrookite_unique θ h
  have ht : 222 < θ iT := h
  rw [pack_unique PurePseudobrookite.ok (pack_convex (PurePseudobrookite.dom_iff θ)) (fun s hs => posHess_one (PurePseudobrookite.convex ht hs)) (hX θ h) hs]
  exact hm u hu

lemma PureFerropseudobrookite.equilibrium_min {X : (Ext 0 → ℝ) → Fin 1 → ℝ} (hX : PureFerropseudobrookite.Equilibrium X) {θ : Ext 0 → ℝ}
    (h : θ ∈ PureFerropseudobrookite.hot) (u : Fin 1 → ℝ) (hu : PureFerropseudobrookite.Dom (join (θ, u))) :
    (PureFerropseudobrookite.macros (join (θ, X θ))).g ≤ (PureFerropseudobrookite.macros (join (θ, u))).g := by
  obtain ⟨s, ⟨hs, hm⟩, -⟩ := PureFerropseudobrookite.C61_pure_ferropseudobrookite_unique θ h
  have ht : 361 < θ iT := h
  rw [pack_unique PureFerropseudobrookite.ok (pack_convex (PureFerropseudobrookite.dom_iff θ)) (fun s hs => posHess_one (PureFerropseudobrookite.convex ht hs)) (hX θ h) hs]
  exact hm u hu

lemma PureKarrooite.equilibrium_min {X : (Ext 0 → ℝ) → Fin 1 → ℝ} (hX : PureKarrooite.Equilibrium X) {θ : Ext 0 → ℝ}
    (h : θ ∈ PureKarrooite.hot) (u : Fin 1 → ℝ) (hu : PureKarrooite.Dom (join (θ, u))) :
    (PureKarrooite.macros (join (θ, X θ))).g ≤ (PureKarrooite.macros (join (θ, u))).g := by
  obtain ⟨s, ⟨hs, hm⟩, -⟩ := PureKarrooite.C61_pure_karrooite_unique θ h
  have ht : 361 < θ iT := h
  rw [pack_unique PureKarrooite.ok (pack_convex (PureKarrooite.dom_iff θ)) (fun s hs => posHess_one (PureKarrooite.convex ht hs)) (hX θ h) hs]
  exact hm u hu

end

namespace OrthoOxide

open Finset Filter Topology
open Magma.Thermo.Mixing (R R_pos Mix)
open Verif.Thermo.StdState (Std Consistent)

noncomputable section

/-- The equilibrium state has the least energy of all. -/
lemma equilibrium_min {X : (Ext 2 → ℝ) → Fin 3 → ℝ} (hX : Equilibrium X) {θ : Ext 2 → ℝ} (h : θ ∈ hot) (s : Fin 3 → ℝ)
    (hs : Dom (join (θ, s))) : (macros (join (θ, X θ))).g ≤ (macros (join (θ, s))).g := by
  obtain ⟨s', h', hm⟩ := C61_ortho_oxide_exists θ (lt_trans (by norm_num) h.1) h.2
  rw [(C61_ortho_oxide_unique θ h).unique (hX θ h) h']
  exact hm s hs

/-- A state near that of each pure end member with ordering states `u`: each end member's cations keep their places. -/
def trial (u : Fin 3 → ℝ) (r : Fin 2 → ℝ) : Fin 3 → ℝ := ![(1 - r 0 - r 1) * u 0, r 0 * u 1, r 1 * u 2]

lemma trial_continuous (u : Fin 3 → ℝ) : Continuous (trial u) := by
  refine continuous_pi fun k => ?_
  fin_cases k <;> simp only [trial, Fin.zero_eta, Fin.mk_one, Fin.reduceFinMk, Matrix.cons_val, Matrix.cons_val_zero,
    Matrix.cons_val_one] <;> fun_prop

lemma trial_pos {u : Fin 3 → ℝ} (hu : ∀ k, -1 < u k ∧ u k < 1) {r : Fin 2 → ℝ} (h : Present r) (i : Fin 8) :
    0 < frac (siteA r i) (siteB i) (trial u r) := by
  obtain ⟨h0, h1, h2⟩ := h
  have a0 := mul_pos h2 (by linarith [(hu 0).1] : 0 < 1 + u 0)
  have b0 := mul_pos h2 (by linarith [(hu 0).2] : 0 < 1 - u 0)
  have a1 := mul_pos h0 (by linarith [(hu 1).1] : 0 < 1 + u 1)
  have b1 := mul_pos h0 (by linarith [(hu 1).2] : 0 < 1 - u 1)
  have a2 := mul_pos h1 (by linarith [(hu 2).1] : 0 < 1 + u 2)
  have b2 := mul_pos h1 (by linarith [(hu 2).2] : 0 < 1 - u 2)
  fin_cases i <;> simp [frac, siteA, siteB, trial, Fin.sum_univ_three] <;> nlinarith

lemma frac_bound (r : Fin 2 → ℝ) (hr : Present r) (s : Fin 3 → ℝ) (hs : ∀ i, 0 ≤ frac (siteA r i) (siteB i) s) (k : Fin 3) :
    |s k| ≤ 10 := by
  obtain ⟨r0, r1, r2⟩ := hr
  have h0 := hs 0; have h1 := hs 1; have h2 := hs 2; have h3 := hs 3; have h4 := hs 4; have h5 := hs 5; have h6 := hs 6
  have h7 := hs 7
  simp [frac, siteA, siteB, Fin.sum_univ_three] at h0 h1 h2 h3 h4 h5 h6 h7
  rw [abs_le]
  fin_cases k <;> constructor <;> simp only [Fin.zero_eta, Fin.mk_one, Fin.reduceFinMk] <;> linarith

lemma siteA_continuous (i : Fin 8) : Continuous fun r => siteA r i := by
  fin_cases i <;> simp only [siteA, Fin.zero_eta, Fin.mk_one, Fin.reduceFinMk, Matrix.cons_val, Matrix.cons_val_zero,
    Matrix.cons_val_one] <;> fun_prop

lemma excess_continuous : Continuous fun q : (Fin 2 → ℝ) × (Fin 3 → ℝ) => excess q.1 q.2 := by
  unfold excess H
  have c : ∀ j : Fin 2, Continuous fun q : (Fin 2 → ℝ) × (Fin 3 → ℝ) => q.1 j := fun j => by fun_prop
  have d : ∀ j : Fin 3, Continuous fun q : (Fin 2 → ℝ) × (Fin 3 → ℝ) => q.2 j := fun j => by fun_prop
  have := c 0; have := c 1; have := d 0; have := d 1; have := d 2
  fun_prop

/-- The energy of the solution next to an end member (at `e`), whose states `u` appear as `ι u` and have energies `E0 u`. -/
lemma limit {X : (Ext 2 → ℝ) → Fin 3 → ℝ} (hX : Equilibrium X) {t : ℝ} (ht : 482 < t) (p : ℝ) {U : Fin 3 → ℝ}
    (hU : ∀ k, -1 < U k ∧ U k < 1) (e : Fin 2 → ℝ) {m n0 : ℕ} {ι : (Fin m → ℝ) → Fin 3 → ℝ} (hι : Continuous ι)
    {a0 : Fin n0 → ℝ} {b0 : Fin n0 → Fin m → ℝ} {E0 : (Fin m → ℝ) → ℝ} {u0 : Fin m → ℝ}
    (hu0 : ∀ i, 0 < frac (a0 i) (b0 i) u0) (hTe : trial U e = ι u0)
    (hI : ∀ s, (∀ i, 0 ≤ frac (siteA e i) (siteB i) s) → ∃ u, (∀ i, 0 ≤ frac (a0 i) (b0 i) u) ∧ ι u = s)
    (hE : ∀ u, (∀ i, 0 < frac (a0 i) (b0 i) u) → energy excess (siteC t) siteA siteB e (ι u) = E0 u)
    (hE0 : ∀ u, (∀ i, 0 < frac (a0 i) (b0 i) u) → E0 u0 ≤ E0 u) :
    Tendsto (fun r => (whole X).g t p r) (𝓝[{r | Present r}] e) (𝓝 (E0 u0)) :=
  vertex_limit (M := macros) (D := Dom) (Q := excess) (c := siteC t) (X := X) (P := {r | Present r}) (t := t) (p := p) excess_continuous
    siteA_continuous (fun r _ s => dom_iff (env r t p) s) (fun r _ s hs => g_eq (env r t p) s hs)
    (fun r hr => (hX (env r t p) ⟨ht, hr⟩).1) (fun r hr s hs => equilibrium_min hX (θ := env r t p) ⟨ht, hr⟩ s hs)
    (fun r hr => trial_pos hU hr) (trial_continuous U) (B := 10) frac_bound e hι hu0 hTe hI hE hE0

/-- **C78.** Ortho-oxide: the Gibbs energy of mixing tends to zero as the solution becomes pure pseudobrookite. -/
theorem C78_ortho_oxide_pseudobrookite {X : (Ext 2 → ℝ) → Fin 3 → ℝ} (hX : Equilibrium X) {E : Ends} (hE : E.Ok) {t : ℝ}
    (ht : 482 < t) (p : ℝ) :
    Tendsto (fun r => (mix X E).g t p r) (𝓝[{r | Present r}] ![0, 0]) (𝓝 0) := by
  have hθ : env ![] t p ∈ PurePseudobrookite.hot := show (222 : ℝ) < t by linarith
  have hq := hE.pb _ hθ
  have hmin := PurePseudobrookite.equilibrium_min hE.pb hθ
  set u0 := E.pb (env ![] t p) with hu0
  have hd := (PurePseudobrookite.dom_iff _ u0).mp hq.1
  obtain ⟨e0, e1, e2, e3⟩ := PurePseudobrookite.frac_eq u0
  have l := limit hX ht p (U := ![u0 0, 0, 0]) (fun k => by
      have a := e0 ▸ hd 0; have b := e1 ▸ hd 1
      fin_cases k <;> simp <;> constructor <;> linarith) ![0, 0]
    (ι := fun u : Fin 1 → ℝ => ![u 0, 0, 0]) (by
      refine continuous_pi fun k => ?_
      fin_cases k <;> simp <;> fun_prop)
    (a0 := PurePseudobrookite.siteA) (b0 := PurePseudobrookite.siteB)
    (E0 := fun u => (PurePseudobrookite.macros (join (env ![] t p, u))).g) (u0 := u0) hd
    (by funext k; fin_cases k <;> simp [trial])
    (fun s hs => by
      have h0 := hs 0; have h1 := hs 1; have h2 := hs 2; have h3 := hs 3; have h4 := hs 4; have h5 := hs 5; have h6 := hs 6
      have h7 := hs 7
      simp [frac, siteA, siteB, Fin.sum_univ_three] at h0 h1 h2 h3 h4 h5 h6 h7
      have z1 : s 1 = 0 := by linarith
      have z2 : s 2 = 0 := by linarith
      refine ⟨![s 0], fun i => ?_, ?_⟩
      · obtain ⟨e0, e1, e2, e3⟩ := PurePseudobrookite.frac_eq ![s 0]
        simp only [Matrix.cons_val_zero] at e0 e1 e2 e3
        fin_cases i
        exacts [e0.symm ▸ (by linarith), e1.symm ▸ (by linarith), e2.symm ▸ (by linarith), e3.symm ▸ (by linarith)]
      · funext k; fin_cases k <;> simp [z1, z2])
    (fun u hu => by
      rw [PurePseudobrookite.g_eq _ u ((PurePseudobrookite.dom_iff _ u).mpr hu)]
      obtain ⟨e0, e1, e2, e3⟩ := PurePseudobrookite.frac_eq u
      rw [Fin.sum_univ_four, e0, e1, e2, e3]
      simp [energy, Fin.sum_univ_eight, frac, siteA, siteB, siteC, Fin.sum_univ_three, excess, H, PurePseudobrookite.excess,
        PurePseudobrookite.H, PurePseudobrookite.siteC, show PurePseudobrookite.G0 = G0 from rfl,
        show PurePseudobrookite.GS1 = GS1 from rfl, show PurePseudobrookite.GS1S1 = GS1S1 from rfl,
        show env ![] t p iT = t from rfl]
      ring_nf)
    (fun u hu => hmin u ((PurePseudobrookite.dom_iff _ u).mpr hu))
  have l2 := mixing_limit (w := weight) (g := fun a => (ends E a t p).g) 0 l (fun j => by
      fin_cases j <;> simp [weight] <;> fun_prop) (fun j => by fin_cases j <;> simp [weight])
  have z : (PurePseudobrookite.macros (join (env ![] t p, u0))).g - (ends E 0 t p).g = 0 := sub_self _
  rw [z] at l2
  exact l2

/-- The entropy of titanium that `FE_S` and `MG_S` leave out. -/
lemma titanium {s : ℝ} (h : -1 < s ∧ s < 1) :
    -(2 * Real.log (3 / 2)) ≤ (1 - s) / 2 * Real.log ((1 - s) / 2) + (3 + s) / 2 * Real.log ((3 + s) / 4) ∧
      (1 - s) / 2 * Real.log ((1 - s) / 2) + (3 + s) / 2 * Real.log ((3 + s) / 4) ≤ 0 := by
  have tang : ∀ x : ℝ, 0 < x → x - 2 / 3 - x * Real.log (3 / 2) ≤ x * Real.log x := by
    intro x hx
    have h1 := Real.log_le_sub_one_of_pos (by positivity : 0 < (x * (3 / 2))⁻¹)
    rw [Real.log_inv, Real.log_mul hx.ne' (by norm_num)] at h1
    have h2 := mul_le_mul_of_nonneg_left h1 hx.le
    have h3 : x * (x * (3 / 2))⁻¹ = 2 / 3 := by field_simp
    nlinarith
  have p1 : 0 < (1 - s) / 2 := by linarith [h.2]
  have p2 : 0 < (3 + s) / 4 := by linarith [h.1]
  have t1 := tang _ p1
  have t2 := tang _ p2
  have n1 := mul_nonpos_of_nonneg_of_nonpos p1.le (Real.log_nonpos p1.le (by linarith [h.1]))
  have n2 := mul_nonpos_of_nonneg_of_nonpos p2.le (Real.log_nonpos p2.le (by linarith [h.2]))
  constructor <;> linarith

/-- Site fractions of pure ferropseudobrookite or karrooite: the divalent cation and titanium on M1, both on M2. -/
def divA : Fin 4 → ℝ := ![1 / 2, 1 / 2, 1 / 4, 3 / 4]

/-- Coefficients of the ordering parameter in them. -/
def divB : Fin 4 → Fin 1 → ℝ := ![![1 / 2], ![-(1 / 2)], ![-(1 / 4)], ![1 / 4]]

lemma div_frac (u : Fin 1 → ℝ) : frac (divA 0) (divB 0) u = (1 + u 0) / 2 ∧ frac (divA 1) (divB 1) u = (1 - u 0) / 2 ∧
    frac (divA 2) (divB 2) u = (1 - u 0) / 4 ∧ frac (divA 3) (divB 3) u = (3 + u 0) / 4 := by
  refine ⟨?_, ?_, ?_, ?_⟩ <;> simp [frac, divA, divB] <;> ring

lemma div_pos_iff (u : Fin 1 → ℝ) : (∀ i, 0 < frac (divA i) (divB i) u) ↔ -1 < u 0 ∧ u 0 < 1 := by
  obtain ⟨e0, e1, e2, e3⟩ := div_frac u
  constructor
  · intro h
    have a := e0 ▸ h 0; have b := e1 ▸ h 1
    constructor <;> linarith
  · rintro ⟨a, b⟩ i
    fin_cases i
    exacts [e0.symm ▸ (by linarith), e1.symm ▸ (by linarith), e2.symm ▸ (by linarith), e3.symm ▸ (by linarith)]

lemma div_nonneg_iff (u : Fin 1 → ℝ) : (∀ i, 0 ≤ frac (divA i) (divB i) u) ↔ -1 ≤ u 0 ∧ u 0 ≤ 1 := by
  obtain ⟨e0, e1, e2, e3⟩ := div_frac u
  constructor
  · intro h
    have a := e0 ▸ h 0; have b := e1 ▸ h 1
    constructor <;> linarith
  · rintro ⟨a, b⟩ i
    fin_cases i
    exacts [e0.symm ▸ (by linarith), e1.symm ▸ (by linarith), e2.symm ▸ (by linarith), e3.symm ▸ (by linarith)]

/-- A state of least energy of the solution at a pure end member with a divalent cation. -/
lemma div_min {Q : (Fin 1 → ℝ) → ℝ} (hQ : Differentiable ℝ Q) {t : ℝ} (ht : 0 < t) {F : (Fin 1 → ℝ) → ℝ}
    (hF : ∀ u, F u = Q u + R * t * ((1 + u 0) / 2 * Real.log ((1 + u 0) / 2) + (1 - u 0) / 2 * Real.log ((1 - u 0) / 2)
      + 2 * ((1 - u 0) / 4 * Real.log ((1 - u 0) / 4)) + 2 * ((3 + u 0) / 4 * Real.log ((3 + u 0) / 4)))) :
    ∃ u0, (∀ i, 0 < frac (divA i) (divB i) u0) ∧ ∀ u, (∀ i, 0 < frac (divA i) (divB i) u) → F u0 ≤ F u := by
  have hR := R_pos
  obtain ⟨u0, h0, hm⟩ := exists_interior_min divA divB (![R * t, R * t, 2 * (R * t), 2 * (R * t)] : Fin 4 → ℝ)
    (by intro i; fin_cases i <;> simp <;> positivity) hQ (s0 := fun _ => 0) ((div_pos_iff _).mpr (by norm_num)) (by
      refine (Metric.isBounded_closedBall (x := (0 : Fin 1 → ℝ)) (r := 1)).subset fun s hs => ?_
      rw [Metric.mem_closedBall, dist_zero_right]
      refine (pi_norm_le_iff_of_nonneg zero_le_one).mpr fun k => ?_
      have := (div_nonneg_iff s).mp hs
      rw [Real.norm_eq_abs, abs_le]
      fin_cases k
      exact this)
  have e : ∀ u, F u = Q u + ∑ i, (![R * t, R * t, 2 * (R * t), 2 * (R * t)] : Fin 4 → ℝ) i *
      (frac (divA i) (divB i) u * Real.log (frac (divA i) (divB i) u)) := by
    intro u
    obtain ⟨e0, e1, e2, e3⟩ := div_frac u
    rw [Fin.sum_univ_four, e0, e1, e2, e3, hF u]
    simp only [Matrix.cons_val, Matrix.cons_val_zero, Matrix.cons_val_one]
    ring
  refine ⟨u0, h0, fun u hu => ?_⟩
  rw [e, e]
  exact hm u fun i => (hu i).le

/-- **C78.** Ortho-oxide, a defect: as the solution becomes pure ferropseudobrookite the Gibbs energy of mixing the file reports does not
tend to zero but to a limit between `12500 - 2RT log(3/2)` and `12500` J/mol, because `FE_H` has no `G0` (12500 J/mol) and
`FE_S` no titanium terms. -/
theorem C78_ortho_oxide_ferropseudobrookite {X : (Ext 2 → ℝ) → Fin 3 → ℝ} (hX : Equilibrium X) {E : Ends} (hE : E.Ok) {t : ℝ}
    (ht : 482 < t) (p : ℝ) : ∃ L, Tendsto (fun r => (mix X E).g t p r) (𝓝[{r | Present r}] ![1, 0]) (𝓝 L) ∧
      12500 - 2 * R * t * Real.log (3 / 2) ≤ L ∧ L ≤ 12500 := by
  have hR := R_pos
  have hRt : 0 < R * t := by have : 0 < t := by linarith
                             positivity
  have hθ : env ![] t p ∈ PureFerropseudobrookite.hot := show (361 : ℝ) < t by linarith
  have hq := hE.fe _ hθ
  have hmin := PureFerropseudobrookite.equilibrium_min hE.fe hθ
  set uE := E.fe (env ![] t p) with huE
  set ι : (Fin 1 → ℝ) → Fin 3 → ℝ := fun u => ![0, u 0, 0] with hι
  set F : (Fin 1 → ℝ) → ℝ := fun u => energy excess (siteC t) siteA siteB ![1, 0] (ι u) with hFd
  have hF : ∀ u, F u = excess ![1, 0] (ι u) + R * t * ((1 + u 0) / 2 * Real.log ((1 + u 0) / 2)
      + (1 - u 0) / 2 * Real.log ((1 - u 0) / 2) + 2 * ((1 - u 0) / 4 * Real.log ((1 - u 0) / 4))
      + 2 * ((3 + u 0) / 4 * Real.log ((3 + u 0) / 4))) := by
    intro u
    simp only [hFd, energy]
    congr 1
    simp [Fin.sum_univ_eight, frac, siteA, siteB, siteC, Fin.sum_univ_three, hι]
    ring_nf
  obtain ⟨u0, h0, hm⟩ := div_min (Q := fun u => excess ![1, 0] (ι u)) (by
      simp only [hι, excess, H]
      simp only [Matrix.cons_val, Matrix.cons_val_zero, Matrix.cons_val_one]
      fun_prop) (by linarith : 0 < t) hF
  have hb := (div_pos_iff u0).mp h0
  have l := limit hX ht p (U := ![0, u0 0, 0]) (fun k => by fin_cases k <;> simp <;> first | exact hb | norm_num) ![1, 0]
    (ι := ι) (by
      refine continuous_pi fun k => ?_
      fin_cases k <;> simp [hι] <;> fun_prop)
    (a0 := divA) (b0 := divB) (E0 := F) (u0 := u0) h0
    (by funext k; fin_cases k <;> simp [trial, hι])
    (fun s hs => by
      have h0 := hs 0; have h1 := hs 1; have h2 := hs 2; have h3 := hs 3; have h4 := hs 4; have h5 := hs 5; have h6 := hs 6
      have h7 := hs 7
      simp [frac, siteA, siteB, Fin.sum_univ_three] at h0 h1 h2 h3 h4 h5 h6 h7
      have z1 : s 0 = 0 := by linarith
      have z2 : s 2 = 0 := by linarith
      refine ⟨![s 1], (div_nonneg_iff _).mpr ⟨?_, ?_⟩, ?_⟩
      · simp only [Matrix.cons_val_zero]; linarith
      · simp only [Matrix.cons_val_zero]; linarith
      · funext k; fin_cases k <;> simp [z1, z2, hι])
    (fun _ _ => rfl) hm
  have l2 := mixing_limit (w := weight) (g := fun a => (ends E a t p).g) 1 l (fun j => by
      fin_cases j <;> simp [weight] <;> fun_prop) (fun j => by fin_cases j <;> simp [weight])
  have diff : ∀ u, -1 < u 0 ∧ u 0 < 1 → F u - (PureFerropseudobrookite.macros (join (env ![] t p, u))).g
      = 12500 + R * t * ((1 - u 0) / 2 * Real.log ((1 - u 0) / 2) + (3 + u 0) / 2 * Real.log ((3 + u 0) / 4)) := by
    intro u hu
    have hd : PureFerropseudobrookite.Dom (join (env ![] t p, u)) := ⟨by change 0 < 1 + u 0; linarith [hu.1], by change 0 < 1 - u 0; linarith [hu.2]⟩
    rw [PureFerropseudobrookite.g_eq _ u hd, hF u]
    obtain ⟨e0, e1⟩ := PureFerropseudobrookite.frac_eq u
    rw [Fin.sum_univ_two, e0, e1]
    simp [hι, excess, H, PureFerropseudobrookite.excess, PureFerropseudobrookite.H, PureFerropseudobrookite.siteC, show PureFerropseudobrookite.GX2 = GX2 from rfl,
      show PureFerropseudobrookite.GS2 = GS2 from rfl,
      show PureFerropseudobrookite.GX2X2 = GX2X2 from rfl,
      show PureFerropseudobrookite.GX2S2 = GX2S2 from rfl,
      show PureFerropseudobrookite.GS2S2 = GS2S2 from rfl, show env ![] t p iT = t from rfl]
    have hG : G0 = 12500 := by unfold G0 G11P W11P; norm_num
    rw [hG]
    ring
  have hbE : -1 < uE 0 ∧ uE 0 < 1 := by
    obtain ⟨a, b⟩ := hq.1
    change 0 < 1 + uE 0 at a
    change 0 < 1 - uE 0 at b
    constructor <;> linarith
  have hdom : PureFerropseudobrookite.Dom (join (env ![] t p, u0)) := ⟨by change 0 < 1 + u0 0; linarith [hb.1], by change 0 < 1 - u0 0; linarith [hb.2]⟩
  refine ⟨_, l2, ?_, ?_⟩
  · change _ ≤ F u0 - (PureFerropseudobrookite.macros (join (env ![] t p, uE))).g
    have h1 := hmin u0 hdom
    have h2 := diff u0 hb
    have h3 := mul_le_mul_of_nonneg_left (titanium hb).1 hRt.le
    linarith
  · change F u0 - (PureFerropseudobrookite.macros (join (env ![] t p, uE))).g ≤ _
    have h1 := hm uE ((div_pos_iff uE).mpr hbE)
    have h2 := diff uE hbE
    have h3 := mul_nonpos_of_nonneg_of_nonpos hRt.le (titanium hbE).2
    linarith

/-- **C78.** Ortho-oxide, a defect: as the solution becomes pure karrooite the Gibbs energy of mixing the file reports does not
tend to zero but to a limit between `12500 - 2RT log(3/2)` and `12500` J/mol, because `MG_H` has no `G0` (12500 J/mol) and
`MG_S` no titanium terms. -/
theorem C78_ortho_oxide_karrooite {X : (Ext 2 → ℝ) → Fin 3 → ℝ} (hX : Equilibrium X) {E : Ends} (hE : E.Ok) {t : ℝ}
    (ht : 482 < t) (p : ℝ) : ∃ L, Tendsto (fun r => (mix X E).g t p r) (𝓝[{r | Present r}] ![0, 1]) (𝓝 L) ∧
      12500 - 2 * R * t * Real.log (3 / 2) ≤ L ∧ L ≤ 12500 := by
  have hR := R_pos
  have hRt : 0 < R * t := by have : 0 < t := by linarith
                             positivity
  have hθ : env ![] t p ∈ PureKarrooite.hot := show (361 : ℝ) < t by linarith
  have hq := hE.mg _ hθ
  have hmin := PureKarrooite.equilibrium_min hE.mg hθ
  set uE := E.mg (env ![] t p) with huE
  set ι : (Fin 1 → ℝ) → Fin 3 → ℝ := fun u => ![0, 0, u 0] with hι
  set F : (Fin 1 → ℝ) → ℝ := fun u => energy excess (siteC t) siteA siteB ![0, 1] (ι u) with hFd
  have hF : ∀ u, F u = excess ![0, 1] (ι u) + R * t * ((1 + u 0) / 2 * Real.log ((1 + u 0) / 2)
      + (1 - u 0) / 2 * Real.log ((1 - u 0) / 2) + 2 * ((1 - u 0) / 4 * Real.log ((1 - u 0) / 4))
      + 2 * ((3 + u 0) / 4 * Real.log ((3 + u 0) / 4))) := by
    intro u
    simp only [hFd, energy]
    congr 1
    simp [Fin.sum_univ_eight, frac, siteA, siteB, siteC, Fin.sum_univ_three, hι]
    ring_nf
  obtain ⟨u0, h0, hm⟩ := div_min (Q := fun u => excess ![0, 1] (ι u)) (by
      simp only [hι, excess, H]
      simp only [Matrix.cons_val, Matrix.cons_val_zero, Matrix.cons_val_one]
      fun_prop) (by linarith : 0 < t) hF
  have hb := (div_pos_iff u0).mp h0
  have l := limit hX ht p (U := ![0, 0, u0 0]) (fun k => by fin_cases k <;> simp <;> first | exact hb | norm_num) ![0, 1]
    (ι := ι) (by
      refine continuous_pi fun k => ?_
      fin_cases k <;> simp [hι] <;> fun_prop)
    (a0 := divA) (b0 := divB) (E0 := F) (u0 := u0) h0
    (by funext k; fin_cases k <;> simp [trial, hι])
    (fun s hs => by
      have h0 := hs 0; have h1 := hs 1; have h2 := hs 2; have h3 := hs 3; have h4 := hs 4; have h5 := hs 5; have h6 := hs 6
      have h7 := hs 7
      simp [frac, siteA, siteB, Fin.sum_univ_three] at h0 h1 h2 h3 h4 h5 h6 h7
      have z1 : s 0 = 0 := by linarith
      have z2 : s 1 = 0 := by linarith
      refine ⟨![s 2], (div_nonneg_iff _).mpr ⟨?_, ?_⟩, ?_⟩
      · simp only [Matrix.cons_val_zero]; linarith
      · simp only [Matrix.cons_val_zero]; linarith
      · funext k; fin_cases k <;> simp [z1, z2, hι])
    (fun _ _ => rfl) hm
  have l2 := mixing_limit (w := weight) (g := fun a => (ends E a t p).g) 2 l (fun j => by
      fin_cases j <;> simp [weight] <;> fun_prop) (fun j => by fin_cases j <;> simp [weight])
  have diff : ∀ u, -1 < u 0 ∧ u 0 < 1 → F u - (PureKarrooite.macros (join (env ![] t p, u))).g
      = 12500 + R * t * ((1 - u 0) / 2 * Real.log ((1 - u 0) / 2) + (3 + u 0) / 2 * Real.log ((3 + u 0) / 4)) := by
    intro u hu
    have hd : PureKarrooite.Dom (join (env ![] t p, u)) := ⟨by change 0 < 1 + u 0; linarith [hu.1], by change 0 < 1 - u 0; linarith [hu.2]⟩
    rw [PureKarrooite.g_eq _ u hd, hF u]
    obtain ⟨e0, e1⟩ := PureKarrooite.frac_eq u
    rw [Fin.sum_univ_two, e0, e1]
    simp [hι, excess, H, PureKarrooite.excess, PureKarrooite.H, PureKarrooite.siteC, show PureKarrooite.GX3 = GX3 from rfl,
      show PureKarrooite.GS3 = GS3 from rfl,
      show PureKarrooite.GX3X3 = GX3X3 from rfl,
      show PureKarrooite.GX3S3 = GX3S3 from rfl,
      show PureKarrooite.GS3S3 = GS3S3 from rfl, show env ![] t p iT = t from rfl]
    have hG : G0 = 12500 := by unfold G0 G11P W11P; norm_num
    rw [hG]
    ring
  have hbE : -1 < uE 0 ∧ uE 0 < 1 := by
    obtain ⟨a, b⟩ := hq.1
    change 0 < 1 + uE 0 at a
    change 0 < 1 - uE 0 at b
    constructor <;> linarith
  have hdom : PureKarrooite.Dom (join (env ![] t p, u0)) := ⟨by change 0 < 1 + u0 0; linarith [hb.1], by change 0 < 1 - u0 0; linarith [hb.2]⟩
  refine ⟨_, l2, ?_, ?_⟩
  · change _ ≤ F u0 - (PureKarrooite.macros (join (env ![] t p, uE))).g
    have h1 := hmin u0 hdom
    have h2 := diff u0 hb
    have h3 := mul_le_mul_of_nonneg_left (titanium hb).1 hRt.le
    linarith
  · change F u0 - (PureKarrooite.macros (join (env ![] t p, uE))).g ≤ _
    have h1 := hm uE ((div_pos_iff uE).mpr hbE)
    have h2 := diff uE hbE
    have h3 := mul_nonpos_of_nonneg_of_nonpos hRt.le (titanium hbE).2
    linarith

/-- Up to 1650 K the limits are positive: nearly pure ferropseudobrookite and karrooite are reported as less stable, as
solutions, than the end members themselves. -/
theorem C78_ortho_oxide_jump {t L : ℝ} (h0 : 0 ≤ t) (ht : t ≤ 1650) (hL : 12500 - 2 * R * t * Real.log (3 / 2) ≤ L) : 0 < L := by
  have h1 := Real.log_le_sub_one_of_pos (by norm_num : (0 : ℝ) < 6 / 5)
  have h2 := Real.log_le_sub_one_of_pos (by norm_num : (0 : ℝ) < 5 / 4)
  have h3 : Real.log (3 / 2) = Real.log (6 / 5) + Real.log (5 / 4) := by
    rw [← Real.log_mul (by norm_num) (by norm_num)]; norm_num
  have h4 : Real.log (3 / 2) ≤ 9 / 20 := by rw [h3]; linarith
  have hR := R_val
  have h5 : R * t ≤ 83143 / 10000 * 1650 := by rw [hR]; linarith
  have h6 : 0 ≤ R * t := by rw [hR]; positivity
  have h7 : R * t * Real.log (3 / 2) ≤ 83143 / 10000 * 1650 * (9 / 20) :=
    mul_le_mul h5 h4 (Real.log_nonneg (by norm_num)) (by norm_num)
  linarith

/-- The limits are not over the empty set: there are compositions with all end members present next to each vertex. -/
example : (𝓝[{r | Present r}] (![1, 0] : Fin 2 → ℝ)).NeBot := by
  rw [← mem_closure_iff_nhdsWithin_neBot]
  have ht : Tendsto (fun τ : ℝ => (![1 - 2 * τ, τ] : Fin 2 → ℝ)) (𝓝[>] 0) (𝓝 ![1, 0]) := by
    have hc : Continuous fun τ : ℝ => (![1 - 2 * τ, τ] : Fin 2 → ℝ) := by
      refine continuous_pi fun k => ?_
      fin_cases k <;> simp <;> fun_prop
    have := (hc.tendsto 0).mono_left (nhdsWithin_le_nhds (s := Set.Ioi (0 : ℝ)))
    simpa using this
  refine mem_closure_of_tendsto ht ?_
  have hlt : ∀ᶠ τ : ℝ in 𝓝[>] 0, τ < 1 / 2 := nhdsWithin_le_nhds (Iio_mem_nhds (by norm_num))
  filter_upwards [self_mem_nhdsWithin, hlt] with τ (h0 : 0 < τ) h1
  refine ⟨?_, ?_, ?_⟩ <;> simp <;> linarith

end

end OrthoOxide

end Verif.Thermo.Ordering
