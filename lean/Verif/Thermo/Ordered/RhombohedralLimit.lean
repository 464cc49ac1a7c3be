import Verif.Thermo.Ordered.RhombohedralProps
import Verif.Thermo.OrderLimit

/-!
The rhombohedral oxides next to their pure end members (/repo/sources/rhombohedral.c): with the ordering state of least energy
the energy of mixing of a solution that becomes pure ilmenite, geikielite, pyrophanite or hematite tends to zero.
-/

namespace Verif.Thermo.Ordering

open Magma.Thermo.Mixing (R R_pos Mix)

noncomputable section

lemma PureIlmenite.equilibrium_min {X : (Ext 0 → ℝ) → Fin 1 → ℝ} (hX : PureIlmenite.Equilibrium X) {θ : Ext 0 → ℝ}
    (h : θ ∈ PureIlmenite.hot) (u : Fin 1 → ℝ) (hu : PureIlmenite.Dom (join (θ, u))) :
    (PureIlmenite.macros (join (θ, X θ))).g ≤ (PureIlmenite.macros (join (θ, u))).g := by
  obtain ⟨s, ⟨hs, hm⟩, -⟩ := PureIlmenite.C61_pure_ilmenite_unique θ h
  have a := (PureIlmenite.isEq_iff θ s).mp hs.1
  have b := (PureIlmenite.isEq_iff θ (X θ)).mp (hX θ h).1
  have e : X θ = s := by
    funext k
    fin_cases k
    exact Sym.unique (Sym.critical h).1 ⟨(hX θ h).2, b.1.2⟩ ⟨hs.2, a.1.2⟩ b.2 a.2
  rw [e]
  exact hm u hu

lemma PureGeikielite.equilibrium_min {X : (Ext 0 → ℝ) → Fin 1 → ℝ} (hX : PureGeikielite.Equilibrium X) {θ : Ext 0 → ℝ}
    (h : θ ∈ PureGeikielite.hot) (u : Fin 1 → ℝ) (hu : PureGeikielite.Dom (join (θ, u))) :
    (PureGeikielite.macros (join (θ, X θ))).g ≤ (PureGeikielite.macros (join (θ, u))).g := by
  obtain ⟨s, ⟨hs, hm⟩, -⟩ := PureGeikielite.C61_pure_geikielite_unique θ h
  have a := (PureGeikielite.isEq_iff θ s).mp hs.1
  have b := (PureGeikielite.isEq_iff θ (X θ)).mp (hX θ h).1
  have e : X θ = s := by
    funext k
    fin_cases k
    exact Sym.unique (Sym.critical h).1 ⟨(hX θ h).2, b.1.2⟩ ⟨hs.2, a.1.2⟩ b.2 a.2
  rw [e]
  exact hm u hu

lemma PurePyrophanite.equilibrium_min {X : (Ext 0 → ℝ) → Fin 1 → ℝ} (hX : PurePyrophanite.Equilibrium X) {θ : Ext 0 → ℝ}
    (h : θ ∈ PurePyrophanite.hot) (u : Fin 1 → ℝ) (hu : PurePyrophanite.Dom (join (θ, u))) :
    (PurePyrophanite.macros (join (θ, X θ))).g ≤ (PurePyrophanite.macros (join (θ, u))).g := by
  obtain ⟨s, ⟨hs, hm⟩, -⟩ := PurePyrophanite.C61_pure_pyrophanite_unique θ h
  have a := (PurePyrophanite.isEq_iff θ s).mp hs.1
  have b := (PurePyrophanite.isEq_iff θ (X θ)).mp (hX θ h).1
  have e : X θ = s := by
    funext k
    fin_cases k
    exact Sym.unique (Sym.critical h).1 ⟨(hX θ h).2, b.1.2⟩ ⟨hs.2, a.1.2⟩ b.2 a.2
  rw [e]
  exact hm u hu

end

namespace Rhombohedral

open Finset Filter Topology
open Verif.Thermo.StdState (Std Consistent)

noncomputable section

/-- `X` gives, at temperature `t` and pressure `p`, an ordering state of least energy. -/
def Least (X : (Ext 3 → ℝ) → Fin 3 → ℝ) (t p : ℝ) : Prop := ∀ r, Present r → IsEq macros Dom (env r t p) (X (env r t p)) ∧
  ∀ s, Dom (join (env r t p, s)) → (macros (join (env r t p, X (env r t p)))).g ≤ (macros (join (env r t p, s))).g

theorem least_exists {t : ℝ} (ht : 0 < t) (p : ℝ) : ∃ X, Least X t p := by
  classical
  have h' : ∀ θ : Ext 3 → ℝ, ∃ s : Fin 3 → ℝ, (0 < θ iT ∧ Present fun j => θ (.inl j)) → IsEq macros Dom θ s ∧
      ∀ s', Dom (join (θ, s')) → (macros (join (θ, s))).g ≤ (macros (join (θ, s'))).g := by
    intro θ
    by_cases hθ : 0 < θ iT ∧ Present fun j => θ (.inl j)
    · obtain ⟨s, hs⟩ := C61_rhombohedral_exists θ hθ.1 hθ.2
      exact ⟨s, fun _ => hs⟩
    · exact ⟨0, fun hh => absurd hh hθ⟩
  choose X hX using h'
  exact ⟨X, fun r hr => hX (env r t p) ⟨ht, hr⟩⟩

/-- A state near that of each pure end member with ordering states `u`: each end member's cations keep their places. -/
def trial (u : Fin 3 → ℝ) (r : Fin 3 → ℝ) : Fin 3 → ℝ := fun k => r k * u k

lemma trial_continuous (u : Fin 3 → ℝ) : Continuous (trial u) := by unfold trial; fun_prop

lemma trial_pos {u : Fin 3 → ℝ} (hu : ∀ k, -1 < u k ∧ u k < 1) {r : Fin 3 → ℝ} (h : Present r) (i : Fin 10) :
    0 < frac (siteA r i) (siteB i) (trial u r) := by
  obtain ⟨h0, h1, h2, h3⟩ := h
  have a0 := mul_pos h0 (by linarith [(hu 0).1] : 0 < 1 + u 0)
  have b0 := mul_pos h0 (by linarith [(hu 0).2] : 0 < 1 - u 0)
  have a1 := mul_pos h1 (by linarith [(hu 1).1] : 0 < 1 + u 1)
  have b1 := mul_pos h1 (by linarith [(hu 1).2] : 0 < 1 - u 1)
  have a2 := mul_pos h2 (by linarith [(hu 2).1] : 0 < 1 + u 2)
  have b2 := mul_pos h2 (by linarith [(hu 2).2] : 0 < 1 - u 2)
  fin_cases i <;> simp [frac, siteA, siteB, trial, Fin.sum_univ_three] <;> nlinarith

lemma frac_bound (r : Fin 3 → ℝ) (hr : Present r) (s : Fin 3 → ℝ) (hs : ∀ i, 0 ≤ frac (siteA r i) (siteB i) s) (k : Fin 3) :
    |s k| ≤ 10 := by
  obtain ⟨r0, r1, r2, r3⟩ := hr
  have h0 := hs 0; have h1 := hs 1; have h2 := hs 2; have h3 := hs 5; have h4 := hs 6; have h5 := hs 7
  simp [frac, siteA, siteB, Fin.sum_univ_three] at h0 h1 h2 h3 h4 h5
  rw [abs_le]
  fin_cases k <;> constructor <;> simp only [Fin.zero_eta, Fin.mk_one, Fin.reduceFinMk] <;> linarith

lemma siteA_continuous (i : Fin 10) : Continuous fun r => siteA r i := by
  fin_cases i <;> simp only [siteA, Fin.zero_eta, Fin.mk_one, Fin.reduceFinMk, Matrix.cons_val, Matrix.cons_val_zero,
    Matrix.cons_val_one] <;> fun_prop

lemma excess_continuous : Continuous fun q : (Fin 3 → ℝ) × (Fin 3 → ℝ) => excess q.1 q.2 := by
  unfold excess H
  have c : ∀ j : Fin 3, Continuous fun q : (Fin 3 → ℝ) × (Fin 3 → ℝ) => q.1 j := fun j => by fun_prop
  have d : ∀ j : Fin 3, Continuous fun q : (Fin 3 → ℝ) × (Fin 3 → ℝ) => q.2 j := fun j => by fun_prop
  have := c 0; have := c 1; have := c 2; have := d 0; have := d 1; have := d 2
  fun_prop

lemma weight_continuous (j : Fin 4) : Continuous fun r => weight r j := by
  fin_cases j <;> simp [weight] <;> fun_prop

/-- The energy of the solution next to an end member (at `e`), whose states `u` appear as `ι u` and have energies `E0 u`. -/
lemma limit {X : (Ext 3 → ℝ) → Fin 3 → ℝ} {t p : ℝ} (hX : Least X t p) {U : Fin 3 → ℝ}
    (hU : ∀ k, -1 < U k ∧ U k < 1) (e : Fin 3 → ℝ) {m n0 : ℕ} {ι : (Fin m → ℝ) → Fin 3 → ℝ} (hι : Continuous ι)
    {a0 : Fin n0 → ℝ} {b0 : Fin n0 → Fin m → ℝ} {E0 : (Fin m → ℝ) → ℝ} {u0 : Fin m → ℝ}
    (hu0 : ∀ i, 0 < frac (a0 i) (b0 i) u0) (hTe : trial U e = ι u0)
    (hI : ∀ s, (∀ i, 0 ≤ frac (siteA e i) (siteB i) s) → ∃ u, (∀ i, 0 ≤ frac (a0 i) (b0 i) u) ∧ ι u = s)
    (hE : ∀ u, (∀ i, 0 < frac (a0 i) (b0 i) u) → energy excess (siteC t) siteA siteB e (ι u) = E0 u)
    (hE0 : ∀ u, (∀ i, 0 < frac (a0 i) (b0 i) u) → E0 u0 ≤ E0 u) :
    Tendsto (fun r => (whole X).g t p r) (𝓝[{r | Present r}] e) (𝓝 (E0 u0)) :=
  vertex_limit (M := macros) (D := Dom) (Q := excess) (c := siteC t) (X := X) (P := {r | Present r}) (t := t) (p := p) excess_continuous
    siteA_continuous (fun r _ s => dom_iff (env r t p) s) (fun r _ s hs => g_eq (env r t p) s hs)
    (fun r hr => (hX r hr).1.1) (fun r hr s hs => (hX r hr).2 s hs)
    (fun r hr => trial_pos hU hr) (trial_continuous U) (B := 10) frac_bound e hι hu0 hTe hI hE hE0

/-- Fractions of a divalent cation on its two sites. -/
def twoA : Fin 2 → ℝ := ![1, 1]

/-- Coefficients of the ordering parameter in them. -/
def twoB : Fin 2 → Fin 1 → ℝ := ![![1], ![-1]]

lemma two_frac (u : Fin 1 → ℝ) : frac (twoA 0) (twoB 0) u = 1 + u 0 ∧ frac (twoA 1) (twoB 1) u = 1 - u 0 := by
  constructor <;> simp [frac, twoA, twoB]; ring

lemma two_pos (u : Fin 1 → ℝ) : (∀ i, 0 < frac (twoA i) (twoB i) u) ↔ 0 < 1 + u 0 ∧ 0 < 1 - u 0 := by
  obtain ⟨e0, e1⟩ := two_frac u
  constructor
  · intro h
    exact ⟨e0 ▸ h 0, e1 ▸ h 1⟩
  · rintro ⟨a, b⟩ i
    fin_cases i
    exacts [e0.symm ▸ a, e1.symm ▸ b]

lemma two_nonneg {u : Fin 1 → ℝ} (h : 0 ≤ 1 + u 0 ∧ 0 ≤ 1 - u 0) (i : Fin 2) : 0 ≤ frac (twoA i) (twoB i) u := by
  obtain ⟨e0, e1⟩ := two_frac u
  fin_cases i
  exacts [e0.symm ▸ h.1, e1.symm ▸ h.2]

/-- The energy of a solution at a pure ordering end member. -/
lemma two_logs {u : ℝ} (h : 0 < 1 + u ∧ 0 < 1 - u) : 2 * ((1 + u) / 2 * Real.log ((1 + u) / 2) + (1 - u) / 2 * Real.log ((1 - u) / 2))
    = (1 + u) * Real.log (1 + u) + (1 - u) * Real.log (1 - u) - 2 * Real.log 2 := by
  rw [Real.log_div h.1.ne' (by norm_num), Real.log_div h.2.ne' (by norm_num)]
  ring

/-- **C78.** Rhombohedral oxide: the Gibbs energy of mixing tends to zero as the solution becomes pure ilmenite. -/
theorem C78_rhombohedral_ilmenite {X : (Ext 3 → ℝ) → Fin 3 → ℝ} {t p : ℝ} (hX : Least X t p) {E : Ends} (hE : E.Ok)
    (ht : 0 < t) (ht' : t < 2044) : Tendsto (fun r => (mix X E).g t p r) (𝓝[{r | Present r}] ![1, 0, 0]) (𝓝 0) := by
  have hθ : env ![] t p ∈ PureIlmenite.hot := ⟨ht, ht'⟩
  have hq := hE.il _ hθ
  have hmin := PureIlmenite.equilibrium_min hE.il hθ
  set u0 := E.il (env ![] t p) with hu0
  have hd : 0 < 1 + u0 0 ∧ 0 < 1 - u0 0 := hq.1.1
  have l := limit hX (U := ![u0 0, 0, 0]) (fun k => by
      fin_cases k <;> simp <;> constructor <;> linarith [hd.1, hd.2]) ![1, 0, 0]
    (ι := fun u : Fin 1 → ℝ => ![u 0, 0, 0]) (by
      refine continuous_pi fun k => ?_
      fin_cases k <;> simp <;> fun_prop)
    (a0 := twoA) (b0 := twoB)
    (E0 := fun u => (PureIlmenite.macros (join (env ![] t p, u))).g) (u0 := u0) ((two_pos _).mpr hd)
    (by funext k; fin_cases k <;> simp [trial])
    (fun s hs => by
      have h0 := hs 0; have h1 := hs 1; have h2 := hs 2; have h3 := hs 5; have h4 := hs 6; have h5 := hs 7
      simp [frac, siteA, siteB, Fin.sum_univ_three] at h0 h1 h2 h3 h4 h5
      have zA : s 1 = 0 := by linarith
      have zB : s 2 = 0 := by linarith
      refine ⟨![s 0], fun i => two_nonneg (u := ![s 0]) ⟨?_, ?_⟩ i, ?_⟩
      · simp only [Matrix.cons_val_zero]; linarith
      · simp only [Matrix.cons_val_zero]; linarith
      · funext k; fin_cases k <;> simp [zA, zB])
    (fun u hu => by
      have hu' := (two_pos u).mp hu
      change _ = PureIlmenite.G t (u 0)
      rw [energy]
      simp [Fin.sum_univ_succ (n := 9), Fin.sum_univ_succ (n := 8), Fin.sum_univ_eight, frac, siteA, siteB, siteC, Fin.sum_univ_three,
        excess, H, PureIlmenite.G, PureIlmenite.H, PureIlmenite.S, hil, show PureIlmenite.hil = 17000 from rfl]
      have hl := two_logs hu'
      have e1 : (2 : ℝ)⁻¹ + 2⁻¹ * u 0 = (1 + u 0) / 2 := by ring
      have e2 : (2 : ℝ)⁻¹ + -(2⁻¹ * u 0) = (1 - u 0) / 2 := by ring
      simp only [e1, e2]
      linear_combination (R * t) * hl)
    (fun u hu => hmin u ((two_pos _).mp hu))
  have l2 := mixing_limit (w := weight) (g := fun a => (ends E a t p).g) 2 l weight_continuous
    (fun j => by fin_cases j <;> simp [weight])
  have z : (PureIlmenite.macros (join (env ![] t p, u0))).g - (ends E 2 t p).g = 0 := sub_self _
  rw [z] at l2
  exact l2

/-- **C78.** Rhombohedral oxide: the Gibbs energy of mixing tends to zero as the solution becomes pure geikielite. -/
theorem C78_rhombohedral_geikielite {X : (Ext 3 → ℝ) → Fin 3 → ℝ} {t p : ℝ} (hX : Least X t p) {E : Ends} (hE : E.Ok)
    (ht : 0 < t) (ht' : t < 2044) : Tendsto (fun r => (mix X E).g t p r) (𝓝[{r | Present r}] ![0, 1, 0]) (𝓝 0) := by
  have hθ : env ![] t p ∈ PureGeikielite.hot := ⟨ht, ht'⟩
  have hq := hE.gk _ hθ
  have hmin := PureGeikielite.equilibrium_min hE.gk hθ
  set u0 := E.gk (env ![] t p) with hu0
  have hd : 0 < 1 + u0 0 ∧ 0 < 1 - u0 0 := hq.1.1
  have l := limit hX (U := ![0, u0 0, 0]) (fun k => by
      fin_cases k <;> simp <;> constructor <;> linarith [hd.1, hd.2]) ![0, 1, 0]
    (ι := fun u : Fin 1 → ℝ => ![0, u 0, 0]) (by
      refine continuous_pi fun k => ?_
      fin_cases k <;> simp <;> fun_prop)
    (a0 := twoA) (b0 := twoB)
    (E0 := fun u => (PureGeikielite.macros (join (env ![] t p, u))).g) (u0 := u0) ((two_pos _).mpr hd)
    (by funext k; fin_cases k <;> simp [trial])
    (fun s hs => by
      have h0 := hs 0; have h1 := hs 1; have h2 := hs 2; have h3 := hs 5; have h4 := hs 6; have h5 := hs 7
      simp [frac, siteA, siteB, Fin.sum_univ_three] at h0 h1 h2 h3 h4 h5
      have zA : s 0 = 0 := by linarith
      have zB : s 2 = 0 := by linarith
      refine ⟨![s 1], fun i => two_nonneg (u := ![s 1]) ⟨?_, ?_⟩ i, ?_⟩
      · simp only [Matrix.cons_val_zero]; linarith
      · simp only [Matrix.cons_val_zero]; linarith
      · funext k; fin_cases k <;> simp [zA, zB])
    (fun u hu => by
      have hu' := (two_pos u).mp hu
      change _ = PureGeikielite.G t (u 0)
      rw [energy]
      simp [Fin.sum_univ_succ (n := 9), Fin.sum_univ_succ (n := 8), Fin.sum_univ_eight, frac, siteA, siteB, siteC, Fin.sum_univ_three,
        excess, H, PureGeikielite.G, PureGeikielite.H, PureGeikielite.S, hgk, show PureGeikielite.hgk = 17000 from rfl]
      have hl := two_logs hu'
      have e1 : (2 : ℝ)⁻¹ + 2⁻¹ * u 0 = (1 + u 0) / 2 := by ring
      have e2 : (2 : ℝ)⁻¹ + -(2⁻¹ * u 0) = (1 - u 0) / 2 := by ring
      simp only [e1, e2]
      linear_combination (R * t) * hl)
    (fun u hu => hmin u ((two_pos _).mp hu))
  have l2 := mixing_limit (w := weight) (g := fun a => (ends E a t p).g) 0 l weight_continuous
    (fun j => by fin_cases j <;> simp [weight])
  have z : (PureGeikielite.macros (join (env ![] t p, u0))).g - (ends E 0 t p).g = 0 := sub_self _
  rw [z] at l2
  exact l2

/-- **C78.** Rhombohedral oxide: the Gibbs energy of mixing tends to zero as the solution becomes pure pyrophanite. -/
theorem C78_rhombohedral_pyrophanite {X : (Ext 3 → ℝ) → Fin 3 → ℝ} {t p : ℝ} (hX : Least X t p) {E : Ends} (hE : E.Ok)
    (ht : 0 < t) (ht' : t < 2044) : Tendsto (fun r => (mix X E).g t p r) (𝓝[{r | Present r}] ![0, 0, 1]) (𝓝 0) := by
  have hθ : env ![] t p ∈ PurePyrophanite.hot := ⟨ht, ht'⟩
  have hq := hE.py _ hθ
  have hmin := PurePyrophanite.equilibrium_min hE.py hθ
  set u0 := E.py (env ![] t p) with hu0
  have hd : 0 < 1 + u0 0 ∧ 0 < 1 - u0 0 := hq.1.1
  have l := limit hX (U := ![0, 0, u0 0]) (fun k => by
      fin_cases k <;> simp <;> constructor <;> linarith [hd.1, hd.2]) ![0, 0, 1]
    (ι := fun u : Fin 1 → ℝ => ![0, 0, u 0]) (by
      refine continuous_pi fun k => ?_
      fin_cases k <;> simp <;> fun_prop)
    (a0 := twoA) (b0 := twoB)
    (E0 := fun u => (PurePyrophanite.macros (join (env ![] t p, u))).g) (u0 := u0) ((two_pos _).mpr hd)
    (by funext k; fin_cases k <;> simp [trial])
    (fun s hs => by
      have h0 := hs 0; have h1 := hs 1; have h2 := hs 2; have h3 := hs 5; have h4 := hs 6; have h5 := hs 7
      simp [frac, siteA, siteB, Fin.sum_univ_three] at h0 h1 h2 h3 h4 h5
      have zA : s 0 = 0 := by linarith
      have zB : s 1 = 0 := by linarith
      refine ⟨![s 2], fun i => two_nonneg (u := ![s 2]) ⟨?_, ?_⟩ i, ?_⟩
      · simp only [Matrix.cons_val_zero]; linarith
      · simp only [Matrix.cons_val_zero]; linarith
      · funext k; fin_cases k <;> simp [zA, zB])
    (fun u hu => by
      have hu' := (two_pos u).mp hu
      change _ = PurePyrophanite.G t (u 0)
      rw [energy]
      simp [Fin.sum_univ_succ (n := 9), Fin.sum_univ_succ (n := 8), Fin.sum_univ_eight, frac, siteA, siteB, siteC, Fin.sum_univ_three,
        excess, H, PurePyrophanite.G, PurePyrophanite.H, PurePyrophanite.S, hpy, show PurePyrophanite.hpy = 17000 from rfl]
      have hl := two_logs hu'
      have e1 : (2 : ℝ)⁻¹ + 2⁻¹ * u 0 = (1 + u 0) / 2 := by ring
      have e2 : (2 : ℝ)⁻¹ + -(2⁻¹ * u 0) = (1 - u 0) / 2 := by ring
      simp only [e1, e2]
      linear_combination (R * t) * hl)
    (fun u hu => hmin u ((two_pos _).mp hu))
  have l2 := mixing_limit (w := weight) (g := fun a => (ends E a t p).g) 3 l weight_continuous
    (fun j => by fin_cases j <;> simp [weight])
  have z : (PurePyrophanite.macros (join (env ![] t p, u0))).g - (ends E 3 t p).g = 0 := sub_self _
  rw [z] at l2
  exact l2

/-- **C78.** Rhombohedral oxide: the Gibbs energy of mixing tends to zero as the solution becomes pure hematite. -/
theorem C78_rhombohedral_hematite {X : (Ext 3 → ℝ) → Fin 3 → ℝ} {t p : ℝ} (hX : Least X t p) (E : Ends) :
    Tendsto (fun r => (mix X E).g t p r) (𝓝[{r | Present r}] ![0, 0, 0]) (𝓝 0) := by
  have l := limit hX (U := ![0, 0, 0]) (fun k => by fin_cases k <;> simp) ![0, 0, 0]
    (ι := fun _ : Fin 0 → ℝ => ![0, 0, 0]) continuous_const (a0 := (![] : Fin 0 → ℝ)) (b0 := ![])
    (E0 := fun _ => (0 - t * 0)) (u0 := ![]) (fun i => i.elim0)
    (by funext k; fin_cases k <;> simp [trial])
    (fun s hs => by
      have h0 := hs 0; have h1 := hs 1; have h2 := hs 2; have h3 := hs 5; have h4 := hs 6; have h5 := hs 7
      simp [frac, siteA, siteB, Fin.sum_univ_three] at h0 h1 h2 h3 h4 h5
      refine ⟨![], fun i => i.elim0, ?_⟩
      funext k; fin_cases k <;> simp <;> linarith)
    (fun u _ => by
      rw [energy]
      simp [Fin.sum_univ_succ (n := 9), Fin.sum_univ_succ (n := 8), Fin.sum_univ_eight, frac, siteA, siteB, siteC, Fin.sum_univ_three,
        excess, H])
    (fun _ _ => le_refl _)
  have l2 := mixing_limit (w := weight) (g := fun a => (ends E a t p).g) 1 l weight_continuous
    (fun j => by fin_cases j <;> simp [weight])
  have z : (0 - t * 0) - (ends E 1 t p).g = 0 := sub_self _
  rw [z] at l2
  exact l2

/-- Non-vacuity: the hypotheses are met at 1200 K, and each end member is a limit of compositions with all of them present. -/
example : (∃ X, Least X 1200 1) ∧ (∃ E : Ends, E.Ok) ∧ (𝓝[{r : Fin 3 → ℝ | Present r}] ![1, 0, 0]).NeBot := by
  obtain ⟨a, ha⟩ := PureIlmenite.equilibrium_exists
  obtain ⟨b, hb⟩ := PureGeikielite.equilibrium_exists
  obtain ⟨c, hc'⟩ := PurePyrophanite.equilibrium_exists
  refine ⟨least_exists (by norm_num) 1, ⟨⟨a, b, c⟩, ha, hb, hc'⟩, ?_⟩
  rw [← mem_closure_iff_nhdsWithin_neBot]
  have hc : Continuous fun τ : ℝ => (![1 - 3 * τ, τ, τ] : Fin 3 → ℝ) := by
    refine continuous_pi fun k => ?_
    fin_cases k <;> simp <;> fun_prop
  have ht : Tendsto (fun τ : ℝ => (![1 - 3 * τ, τ, τ] : Fin 3 → ℝ)) (𝓝[>] 0) (𝓝 ![1, 0, 0]) := by
    have := (hc.tendsto 0).mono_left (nhdsWithin_le_nhds (s := Set.Ioi (0 : ℝ)))
    simpa using this
  refine mem_closure_of_tendsto ht ?_
  have hlt : ∀ᶠ τ : ℝ in 𝓝[>] 0, τ < 1 / 4 := nhdsWithin_le_nhds (Iio_mem_nhds (by norm_num))
  filter_upwards [self_mem_nhdsWithin, hlt] with τ h0 h2
  have h0 : 0 < τ := h0
  refine ⟨?_, ?_, ?_, ?_⟩ <;> simp <;> linarith

end

end Rhombohedral

end Verif.Thermo.Ordering
