import Verif.Engine.System

/-!
The contributions of one phase to the gradient and the Hessian are derivatives of its potential.
-/

namespace Magma.Engine.System

open Finset Filter Topology Magma.Thermo.Extensive Magma.Thermo.Compo
open Magma.Thermo.Mixing (Mix)
open Verif.Thermo.Ordering (ConsistentOn on mask Gr MixVal valOf)
open Verif.Thermo.StdState (Std)

noncomputable section

variable {na nr : ℕ}

/-! ### Specification -/

/-- Gibbs energy, entropy and volume of a phase with the amounts `m`: that of mixing and that of the end members. -/
def Phase.G (ph : Phase) (T P : ℝ) (m : Fin ph.na → ℝ) : ℝ :=
  (if ph.pure then 0 else (∑ i, m i) * ph.mix.g T P (ph.conv.toR m)) + ∑ i, m i * (ph.std i T P).g

/-- Entropy. -/
def Phase.S (ph : Phase) (T P : ℝ) (m : Fin ph.na → ℝ) : ℝ :=
  (if ph.pure then 0 else (∑ i, m i) * ph.mix.s T P (ph.conv.toR m)) + ∑ i, m i * (ph.std i T P).s

/-- Volume. -/
def Phase.V (ph : Phase) (T P : ℝ) (m : Fin ph.na → ℝ) : ℝ :=
  (if ph.pure then 0 else (∑ i, m i) * ph.mix.v T P (ph.conv.toR m)) + ∑ i, m i * (ph.std i T P).v

/-- The potential that is minimal at equilibrium: Gibbs energy at given temperature and pressure, minus entropy at given
enthalpy, enthalpy at given entropy, Helmholtz energy at given volume. -/
def Phase.psi (ph : Phase) (mode : Mode) (T P : ℝ) (m : Fin ph.na → ℝ) : ℝ :=
  match mode with
  | .gibbs => ph.G T P m
  | .isenthalpic => -ph.S T P m
  | .isentropic => ph.G T P m + T * ph.S T P m
  | .isochoric => ph.G T P m - P * ph.V T P m

/-- The quantity that is given. -/
def Phase.con (ph : Phase) (mode : Mode) (T P : ℝ) (m : Fin ph.na → ℝ) : ℝ :=
  match mode with
  | .gibbs => 0
  | .isenthalpic => ph.G T P m + T * ph.S T P m
  | .isentropic => ph.S T P m
  | .isochoric => ph.V T P m

/-- The variable that adjusts: temperature, or pressure at given volume. -/
def Mode.at (mode : Mode) (T P θ : ℝ) : ℝ × ℝ :=
  match mode with
  | .gibbs => (T, P)
  | .isenthalpic | .isentropic => (θ, P)
  | .isochoric => (T, θ)

/-- Its value. -/
def Mode.var (mode : Mode) (T P : ℝ) : ℝ :=
  match mode with
  | .gibbs => 0
  | .isenthalpic | .isentropic => T
  | .isochoric => P

/-- The tables of a phase are consistent at the amounts `m`: standard states (C60, C63, C64), conversion (C25), mixing
properties on the face of the components that are present (C24, C61, C65, C66). -/
structure Phase.OK (ph : Phase) (T P : ℝ) (m : Fin ph.na → ℝ) : Prop where
  tpos : T ≠ 0
  std : ∀ j, Verif.Thermo.StdState.Consistent (ph.std j) T P
  sol : ph.pure = false → (∑ i, m i ≠ 0) ∧ ph.conv.Consistent ∧ ∃ (A : Finset (Fin ph.nr)) (I : ℝ → ℝ → (Fin ph.nr → ℝ) → Prop),
    ConsistentOn (on A ph.mix) I ∧ (∀ᶠ T' in 𝓝 T, I T' P (ph.conv.toR m)) ∧
    ∀ m' : Fin ph.na → ℝ, (∀ j, j ∉ ph.slots → m' j = 0) → ∀ i ∉ A, ph.conv.toR m' i = 0

/-! ### Solution phases -/

/-- Linear part of an extensive property. -/
theorem partial_linear (q : Fin na → ℝ) (m : Fin na → ℝ) (j : Fin na) : Partial (fun m => ∑ i, m i * q i) m j (q j) := by
  unfold Partial
  have e : (fun h : ℝ => ∑ i, bump m j h i * q i) = fun h => (∑ i, m i * q i) + h * q j := by
    funext h
    simp [bump, add_mul, sum_add_distrib]
  rw [e]
  simpa using ((hasDerivAt_id (0 : ℝ)).mul_const (q j)).const_add (∑ i, m i * q i)

theorem smooth_first (X : Molar na nr) (C : Conversion na nr) (hC : C.Consistent) (m : Fin na → ℝ) (h0 : ∑ i, m i ≠ 0)
    (h1 : Grad X.p (C.toR m) (X.dp (C.toR m))) (j : Fin na) : Partial (val X.p X.q C) m j (d1 X C m j) := by
  have h := C23_gradient X.p C.toR m (X.dp (C.toR m)) (C.dm m) h1 (hC.first m h0) j
  exact HasDerivAt.add h (partial_linear X.q m j)

theorem smooth_second (X : Molar na nr) (C : Conversion na nr) (hC : C.Consistent) (m : Fin na → ℝ) (h0 : ∑ i, m i ≠ 0)
    (h1 : Grad X.p (C.toR m) (X.dp (C.toR m))) (h2 : ∀ i, Grad (fun r => X.dp r i) (C.toR m) (X.d2p (C.toR m) i))
    (j l : Fin na) : Partial (fun m => d1 X C m j) m l (d2 X C m j l) := by
  have h := C23_hessian X.p C.toR m X.dp C.dm (X.d2p (C.toR m)) (C.d2m m) h1 (hC.first m h0) h2 (hC.second m h0) j l
  exact HasDerivAt.add_const (X.q j) h

/-- Two properties that agree at one composition, in the directions `A`. -/
structure Agree (A : Finset (Fin nr)) (r : Fin nr → ℝ) (X Y : Molar na nr) : Prop where
  p : X.p r = Y.p r
  dp : ∀ i ∈ A, X.dp r i = Y.dp r i
  d2p : ∀ i ∈ A, ∀ j ∈ A, X.d2p r i j = Y.d2p r i j
  q : X.q = Y.q

section face
variable (C : Conversion na nr) (hC : C.Consistent) (A : Finset (Fin nr)) (on? : Fin na → Prop)
  (hst : ∀ m' : Fin na → ℝ, (∀ j, ¬ on? j → m' j = 0) → ∀ i ∉ A, C.toR m' i = 0)
include hC hst

theorem bump_face {m : Fin na → ℝ} (hm : ∀ j, ¬ on? j → m j = 0) {j : Fin na} (hj : on? j) (h : ℝ) :
    ∀ i, ¬ on? i → bump m j h i = 0 := by
  intro i hi
  have : i ≠ j := fun e => hi (e ▸ hj)
  simp [bump, hm i hi, this]

theorem flat1 {m : Fin na → ℝ} (hm : ∀ j, ¬ on? j → m j = 0) (h0 : ∑ i, m i ≠ 0) {i : Fin nr} (hi : i ∉ A) {j : Fin na}
    (hj : on? j) : C.dm m i j = 0 := by
  have h := hC.first m h0 i j
  unfold Partial at h
  have e : (fun h => C.toR (bump m j h) i) = fun _ => 0 :=
    funext fun h => hst _ (bump_face C hC A on? hst hm hj h) i hi
  rw [e] at h
  exact h.unique (hasDerivAt_const _ _)

theorem sum_bump_ne {m : Fin na → ℝ} (h0 : ∑ i, m i ≠ 0) (j : Fin na) : ∀ᶠ h in 𝓝 (0 : ℝ), ∑ i, bump m j h i ≠ 0 := by
  have hc : Continuous fun h : ℝ => ∑ i, bump m j h i := by
    refine continuous_finset_sum _ fun i _ => ?_
    unfold bump
    split_ifs
    · exact continuous_const.add continuous_id
    · exact continuous_const
  refine hc.continuousAt.eventually_ne ?_
  simpa [bump_zero] using h0

theorem flat2 {m : Fin na → ℝ} (hm : ∀ j, ¬ on? j → m j = 0) (h0 : ∑ i, m i ≠ 0) {i : Fin nr} (hi : i ∉ A) {j l : Fin na}
    (hj : on? j) (hl : on? l) : C.d2m m i j l = 0 := by
  have h := hC.second m h0 i j l
  unfold Partial at h
  have e : (fun h => C.dm (bump m l h) i j) =ᶠ[𝓝 0] fun _ => 0 := by
    filter_upwards [sum_bump_ne C hC A on? hst h0 l] with h hh
    exact flat1 C hC A on? hst (bump_face C hC A on? hst hm hl h) hh hi hj
  exact (h.congr_of_eventuallyEq e.symm).unique (hasDerivAt_const _ _)

variable {X Y : Molar na nr}

theorem d1_agree {m : Fin na → ℝ} (hm : ∀ j, ¬ on? j → m j = 0) (h0 : ∑ i, m i ≠ 0)
    (hX : Agree A (C.toR m) X Y) {j : Fin na} (hj : on? j) : d1 X C m j = d1 Y C m j := by
  unfold d1 gradient
  rw [hX.p, hX.q]
  congr 3
  refine sum_congr rfl fun i _ => ?_
  by_cases hi : i ∈ A
  · rw [hX.dp i hi]
  · rw [flat1 C hC A on? hst hm h0 hi hj, mul_zero, mul_zero]

theorem d2_agree {m : Fin na → ℝ} (hm : ∀ j, ¬ on? j → m j = 0) (h0 : ∑ i, m i ≠ 0)
    (hX : Agree A (C.toR m) X Y) {j l : Fin na} (hj : on? j) (hl : on? l) : d2 X C m j l = d2 Y C m j l := by
  unfold d2 hessian
  refine sum_congr rfl fun i _ => ?_
  by_cases hi : i ∈ A
  · rw [hX.dp i hi]
    congr 2
    refine sum_congr rfl fun k _ => ?_
    by_cases hk : k ∈ A
    · rw [hX.d2p i hi k hk]
    · rw [flat1 C hC A on? hst hm h0 hk hl, mul_zero, mul_zero]
  · rw [flat1 C hC A on? hst hm h0 hi hj, flat1 C hC A on? hst hm h0 hi hl, flat2 C hC A on? hst hm h0 hi hj hl]
    ring

/-- A property whose restriction to the face is smooth: the gradient of the code is its gradient. -/
theorem face_first (hXY : ∀ m', (∀ j, ¬ on? j → m' j = 0) → Agree A (C.toR m') X Y) {m : Fin na → ℝ}
    (hm : ∀ j, ¬ on? j → m j = 0) (h0 : ∑ i, m i ≠ 0) (h1 : Grad Y.p (C.toR m) (Y.dp (C.toR m))) {j : Fin na} (hj : on? j) :
    Partial (val X.p X.q C) m j (d1 X C m j) := by
  have h := smooth_first Y C hC m h0 h1 j
  rw [← d1_agree C hC A on? hst hm h0 (hXY m hm) hj] at h
  unfold Partial at h ⊢
  have e : (fun h => val X.p X.q C (bump m j h)) = fun h => val Y.p Y.q C (bump m j h) := by
    funext h
    have := hXY _ (bump_face C hC A on? hst hm hj h)
    unfold val
    rw [this.p, this.q]
  rw [e]; exact h

/-- The Hessian of the code is the derivative of the gradient of the code. -/
theorem face_second (hXY : ∀ m', (∀ j, ¬ on? j → m' j = 0) → Agree A (C.toR m') X Y) {m : Fin na → ℝ}
    (hm : ∀ j, ¬ on? j → m j = 0) (h0 : ∑ i, m i ≠ 0) (h1 : Grad Y.p (C.toR m) (Y.dp (C.toR m)))
    (h2 : ∀ i, Grad (fun r => Y.dp r i) (C.toR m) (Y.d2p (C.toR m) i)) {j l : Fin na} (hj : on? j) (hl : on? l) :
    Partial (fun m => d1 X C m j) m l (d2 X C m j l) := by
  have h := smooth_second Y C hC m h0 h1 h2 j l
  rw [← d2_agree C hC A on? hst hm h0 (hXY m hm) hj hl] at h
  unfold Partial at h ⊢
  refine h.congr_of_eventuallyEq ?_
  filter_upwards [sum_bump_ne C hC A on? hst h0 l] with h hh
  have hf := bump_face C hC A on? hst hm hl h
  exact d1_agree C hC A on? hst hf hh (hXY _ hf) hj

end face

/-! ### The molar properties of the code on a face -/

theorem mask_self {A : Finset (Fin nr)} {r : Fin nr → ℝ} (h : ∀ i ∉ A, r i = 0) : mask A r = r := by
  funext i
  unfold mask
  split_ifs with hi
  · rfl
  · exact (h i hi).symm

section agree
variable (M : Mix nr) (F : Fin na → ℝ → ℝ → Std) (mode : Mode) (T P : ℝ) (A : Finset (Fin nr)) (r : Fin nr → ℝ)
  (h : ∀ i ∉ A, r i = 0)
include h

theorem on_vals {α : Type} (f : MixVal nr → α) : f (valOf (on A M) T P r) = f ((valOf M T P r).cut A) := by
  change f ((valOf M T P (mask A r)).cut A) = _
  rw [mask_self h]

theorem on_g : (on A M).g T P r  = M.g T P r  := on_vals M T P A r h (·.g)

theorem on_s : (on A M).s T P r  = M.s T P r  := on_vals M T P A r h (·.s)

theorem on_v : (on A M).v T P r  = M.v T P r  := on_vals M T P A r h (·.v)

theorem on_cp : (on A M).cp T P r  = M.cp T P r  := on_vals M T P A r h (·.cp)

theorem on_vp : (on A M).vp T P r  = M.vp T P r  := on_vals M T P A r h (·.vp)

theorem on_cpt : (on A M).cpt T P r  = M.cpt T P r  := on_vals M T P A r h (·.cpt)

theorem on_vpp : (on A M).vpp T P r  = M.vpp T P r  := on_vals M T P A r h (·.vpp)

theorem on_gr {i : Fin nr} (hi : i ∈ A) : (on A M).gr T P r i = M.gr T P r i :=
  (on_vals M T P A r h (·.gr i)).trans (if_pos hi)

theorem on_sr {i : Fin nr} (hi : i ∈ A) : (on A M).sr T P r i = M.sr T P r i :=
  (on_vals M T P A r h (·.sr i)).trans (if_pos hi)

theorem on_vr {i : Fin nr} (hi : i ∈ A) : (on A M).vr T P r i = M.vr T P r i :=
  (on_vals M T P A r h (·.vr i)).trans (if_pos hi)

theorem on_cpr {i : Fin nr} (hi : i ∈ A) : (on A M).cpr T P r i = M.cpr T P r i :=
  (on_vals M T P A r h (·.cpr i)).trans (if_pos hi)

theorem on_vrp {i : Fin nr} (hi : i ∈ A) : (on A M).vrp T P r i = M.vrp T P r i :=
  (on_vals M T P A r h (·.vrp i)).trans (if_pos hi)

theorem on_grr {i j : Fin nr} (hi : i ∈ A) (hj : j ∈ A) : (on A M).grr T P r i j = M.grr T P r i j :=
  (on_vals M T P A r h (·.grr i j)).trans (if_pos ⟨hi, hj⟩)

theorem on_srr {i j : Fin nr} (hi : i ∈ A) (hj : j ∈ A) : (on A M).srr T P r i j = M.srr T P r i j :=
  (on_vals M T P A r h (·.srr i j)).trans (if_pos ⟨hi, hj⟩)

theorem on_vrr {i j : Fin nr} (hi : i ∈ A) (hj : j ∈ A) : (on A M).vrr T P r i j = M.vrr T P r i j :=
  (on_vals M T P A r h (·.vrr i j)).trans (if_pos ⟨hi, hj⟩)

theorem agree_psi : Agree A r (psiM M F mode T P) (psiM (on A M) F mode T P) := by
  cases mode
  all_goals refine ⟨?_, fun i hi => ?_, fun i hi j hj => ?_, rfl⟩
  all_goals simp only [psiM, on_g M T P A r h, on_s M T P A r h, on_v M T P A r h]
  all_goals first
    | rfl
    | simp only [on_grr M T P A r h hi hj, on_srr M T P A r h hi hj, on_vrr M T P A r h hi hj]
    | simp only [on_gr M T P A r h hi, on_sr M T P A r h hi, on_vr M T P A r h hi]

theorem agree_con : Agree A r (conM M F mode T P) (conM (on A M) F mode T P) := by
  cases mode
  all_goals refine ⟨?_, fun i hi => ?_, fun i hi j hj => ?_, rfl⟩
  all_goals simp only [conM, on_g M T P A r h, on_s M T P A r h, on_v M T P A r h]
  all_goals first
    | rfl
    | simp only [on_grr M T P A r h hi hj, on_srr M T P A r h hi hj, on_vrr M T P A r h hi hj]
    | simp only [on_gr M T P A r h hi, on_sr M T P A r h hi, on_vr M T P A r h hi]

theorem agree_cap : Agree A r (capM M F mode T P) (capM (on A M) F mode T P) := by
  cases mode
  all_goals refine ⟨?_, fun i hi => ?_, fun i hi j hj => ?_, rfl⟩
  all_goals simp only [capM, on_cp M T P A r h, on_vp M T P A r h]
  all_goals simp only [on_cpr M T P A r h hi, on_vrp M T P A r h hi]

end agree

section grads
variable {M : Mix nr} {I : ℝ → ℝ → (Fin nr → ℝ) → Prop} (h : ConsistentOn M I) (F : Fin na → ℝ → ℝ → Std)
  (mode : Mode) {T P : ℝ} {r : Fin nr → ℝ} (hr : I T P r)
include h hr

theorem grad_psi : Grad (psiM M F mode T P).p r ((psiM M F mode T P).dp r) ∧
    ∀ i, Grad (fun r => (psiM M F mode T P).dp r i) r ((psiM M F mode T P).d2p r i) := by
  cases mode
  · exact ⟨h.g_r T P r hr, h.g_rr T P r hr⟩
  · exact ⟨Gr.mulc (h.s_r T P r hr) (-1), fun i => Gr.mulc (h.s_rr T P r hr i) (-1)⟩
  · constructor
    · exact (Gr.add (h.g_r T P r hr) ((Gr.mulc (h.s_r T P r hr) T).congr (.of_forall fun _ => mul_comm _ _))).congr_d
        (funext fun i => by change _ + _ * _ = _ + _ * _; ring)
    · intro i
      exact (Gr.add (h.g_rr T P r hr i) ((Gr.mulc (h.s_rr T P r hr i) T).congr (.of_forall fun _ => mul_comm _ _))).congr_d
        (funext fun j => by change _ + _ * _ = _ + _ * _; ring)
  · constructor
    · exact ((Gr.add (h.g_r T P r hr) (Gr.mulc (h.v_r T P r hr) (-P))).congr
        (.of_forall fun _ => by change _ - _ * _ = _ + _ * _; ring)).congr_d
        (funext fun i => by change _ + _ * _ = _ - _ * _; ring)
    · intro i
      exact ((Gr.add (h.g_rr T P r hr i) (Gr.mulc (h.v_rr T P r hr i) (-P))).congr
        (.of_forall fun _ => by change _ - _ * _ = _ + _ * _; ring)).congr_d
        (funext fun j => by change _ + _ * _ = _ - _ * _; ring)

theorem grad_con : Grad (conM M F mode T P).p r ((conM M F mode T P).dp r) ∧
    ∀ i, Grad (fun r => (conM M F mode T P).dp r i) r ((conM M F mode T P).d2p r i) := by
  cases mode
  · exact ⟨Gr.const 0 r, fun i => Gr.const 0 r⟩
  · exact grad_psi h F .isentropic hr
  · exact ⟨h.s_r T P r hr, h.s_rr T P r hr⟩
  · exact ⟨h.v_r T P r hr, h.v_rr T P r hr⟩

end grads

/-! ### Derivatives in temperature and pressure -/

/-- A molar property times a number. -/
def sc (c : ℝ) (X : Molar na nr) : Molar na nr :=
  ⟨fun r => c * X.p r, fun r i => c * X.dp r i, fun r i j => c * X.d2p r i j, fun j => c * X.q j⟩

theorem d1_sc (c : ℝ) (X : Molar na nr) (C : Conversion na nr) (m : Fin na → ℝ) (j : Fin na) :
    d1 (sc c X) C m j = c * d1 X C m j := by
  simp only [d1, gradient, sc, mul_assoc c, ← mul_sum]
  ring

theorem val_sc (c : ℝ) (X : Molar na nr) (C : Conversion na nr) (m : Fin na → ℝ) :
    val (sc c X).p (sc c X).q C m = c * val X.p X.q C m := by
  simp only [val, sc, mul_left_comm _ c, ← mul_sum]
  ring

/-- The factor between the derivative of the potential and heat capacity or compressibility. -/
def Mode.kpsi (mode : Mode) (T P : ℝ) : ℝ :=
  match mode with
  | .gibbs => 0
  | .isenthalpic => -(1 / T)
  | .isentropic => 1
  | .isochoric => -P

/-- The same for the quantity that is given. -/
def Mode.kcon (mode : Mode) (T : ℝ) : ℝ :=
  match mode with
  | .gibbs => 0
  | .isenthalpic => 1
  | .isentropic => 1 / T
  | .isochoric => 1

theorem psiT_eq (mode : Mode) (T P p : ℝ) : psiT mode T P p = mode.kpsi T P * p := by
  cases mode <;> simp only [psiT, Mode.kpsi] <;> ring

theorem psiTj_eq (mode : Mode) (T P p : ℝ) : psiTj mode T P p = mode.kpsi T P * p := by
  cases mode <;> simp only [psiTj, Mode.kpsi] <;> ring

theorem conTj_eq (mode : Mode) (T p : ℝ) : conTj mode T p = -(mode.kcon T * p) := by
  cases mode <;> simp only [conTj, Mode.kcon] <;> ring

theorem at_var (mode : Mode) (T P : ℝ) : mode.at T P (mode.var T P) = (T, P) := by cases mode <;> rfl

theorem theta_val {X : ℝ → Molar na nr} {Y : Molar na nr} {x : ℝ} (C : Conversion na nr) (m : Fin na → ℝ)
    (hp : HasDerivAt (fun θ => (X θ).p (C.toR m)) (Y.p (C.toR m)) x)
    (hq : ∀ j, HasDerivAt (fun θ => (X θ).q j) (Y.q j) x) :
    HasDerivAt (fun θ => val (X θ).p (X θ).q C m) (val Y.p Y.q C m) x :=
  (hp.const_mul _).add (HasDerivAt.fun_sum fun j _ => (hq j).const_mul (m j))

theorem theta_d1 {X : ℝ → Molar na nr} {Y : Molar na nr} {x : ℝ} (C : Conversion na nr) (m : Fin na → ℝ) (j : Fin na)
    (A : Finset (Fin nr)) (hA : ∀ i ∉ A, C.dm m i j = 0)
    (hp : HasDerivAt (fun θ => (X θ).p (C.toR m)) (Y.p (C.toR m)) x)
    (hdp : ∀ i ∈ A, HasDerivAt (fun θ => (X θ).dp (C.toR m) i) (Y.dp (C.toR m) i) x)
    (hq : HasDerivAt (fun θ => (X θ).q j) (Y.q j) x) :
    HasDerivAt (fun θ => d1 (X θ) C m j) (d1 Y C m j) x := by
  unfold d1 gradient
  refine (((HasDerivAt.fun_sum fun i _ => ?_).const_mul _).add hp).add hq
  by_cases hi : i ∈ A
  · exact (hdp i hi).mul_const _
  · simp only [hA i hi, mul_zero]
    exact hasDerivAt_const _ _

theorem flat_deriv {f : ℝ → ℝ} {d x : ℝ} (hf : ∀ y, f y = f 0) (hd : d = 0) : HasDerivAt f d x := by
  rw [hd, funext hf]
  exact hasDerivAt_const x _

section theta
variable {M : Mix nr} {F : Fin na → ℝ → ℝ → Std} {A : Finset (Fin nr)} {I : ℝ → ℝ → (Fin nr → ℝ) → Prop}
  (hM : ConsistentOn (on A M) I) {T P : ℝ} {r : Fin nr → ℝ} (hr : ∀ᶠ T' in 𝓝 T, I T' P r) (hT : T ≠ 0)
  (hA : ∀ i ∉ A, r i = 0) (mode : Mode)

include hM hr hT hA in
theorem hd_s : HasDerivAt (fun t => M.s t P r) (M.cp T P r / T) T := by
  have hI := hr.self_of_nhds
  have e : (fun t => M.s t P r) =ᶠ[𝓝 T] fun t => ((on A M).h t P r - (on A M).g t P r) / t := by
    filter_upwards [hr, eventually_ne_nhds hT] with t ht h0
    rw [hM.h_eq t P r ht, on_s M t P A r hA]
    field_simp
    ring
  refine HasDerivAt.congr_of_eventuallyEq ?_ e
  refine (((hM.h_t T P r hI).sub (hM.g_t T P r hI)).div (hasDerivAt_id' T) hT).congr_deriv ?_
  have e1 := hM.h_eq T P r hI
  rw [on_s M T P A r hA] at *
  rw [← on_cp M T P A r hA]
  change (((on A M).cp T P r - -M.s T P r) * T - ((on A M).h T P r - (on A M).g T P r) * 1) / T ^ 2 = _
  rw [e1]
  field_simp
  ring

include hM hr hA in
theorem hd_g : HasDerivAt (fun t => M.g t P r) (-M.s T P r) T := by
  have h := hM.g_t T P r hr.self_of_nhds
  simpa only [on_g M _ P A r hA, on_s M _ P A r hA] using h

include hM hr hA in
theorem hd_gp : HasDerivAt (fun p => M.g T p r) (M.v T P r) P := by
  have h := hM.g_p T P r hr.self_of_nhds
  simpa only [on_g M T _ A r hA, on_v M T _ A r hA] using h

include hM hr hA in
theorem hd_vp : HasDerivAt (fun p => M.v T p r) (M.vp T P r) P := by
  have h := hM.v_p T P r hr.self_of_nhds
  simpa only [on_vp M T _ A r hA, on_v M T _ A r hA] using h

include hM hr hA in
theorem hd_vpp : HasDerivAt (fun p => M.vp T p r) (M.vpp T P r) P := by
  have h := hM.v_pp T P r hr.self_of_nhds
  simpa only [on_vp M T _ A r hA, on_vpp M T _ A r hA] using h

include hM hr hA in
theorem hd_cp : HasDerivAt (fun t => M.cp t P r) (M.cpt T P r) T := by
  have h := hM.cp_t T P r hr.self_of_nhds
  simpa only [on_cp M _ P A r hA, on_cpt M _ P A r hA] using h

include hM hr hA in
theorem hd_gr {i : Fin nr} (hi : i ∈ A) : HasDerivAt (fun t => M.gr t P r i) (-M.sr T P r i) T := by
  have h := hM.g_rt T P r hr.self_of_nhds i
  simpa only [on_gr M _ P A r hA hi, on_sr M _ P A r hA hi] using h

include hM hr hT hA in
theorem hd_sr {i : Fin nr} (hi : i ∈ A) : HasDerivAt (fun t => M.sr t P r i) (M.cpr T P r i / T) T := by
  have h := hM.s_rt T P r hr.self_of_nhds hT i
  simpa only [on_cpr M _ P A r hA hi, on_sr M _ P A r hA hi] using h

include hM hr hA in
theorem hd_grp {i : Fin nr} (hi : i ∈ A) : HasDerivAt (fun p => M.gr T p r i) (M.vr T P r i) P := by
  have h := hM.g_rp T P r hr.self_of_nhds i
  simpa only [on_gr M T _ A r hA hi, on_vr M T _ A r hA hi] using h

include hM hr hA in
theorem hd_vrp {i : Fin nr} (hi : i ∈ A) : HasDerivAt (fun p => M.vr T p r i) (M.vrp T P r i) P := by
  have h := hM.v_rp T P r hr.self_of_nhds i
  simpa only [on_vrp M T _ A r hA hi, on_vr M T _ A r hA hi] using h

/-- Heat: `G + T S`, its derivative. -/
theorem hd_heat {g s : ℝ → ℝ} {c T : ℝ} (hT : T ≠ 0) (hg : HasDerivAt g (-s T) T) (hs : HasDerivAt s (c / T) T) :
    HasDerivAt (fun t => g t + t * s t) c T := by
  refine (hg.add ((hasDerivAt_id' T).mul hs)).congr_deriv ?_
  field_simp
  ring

/-- Helmholtz energy: `G - P V`, its derivative. -/
theorem hd_helm {g v : ℝ → ℝ} {c P : ℝ} (hg : HasDerivAt g (v P) P) (hv : HasDerivAt v c P) :
    HasDerivAt (fun p => g p - p * v p) (-P * c) P := by
  refine (hg.sub ((hasDerivAt_id' P).mul hv)).congr_deriv ?_
  ring

include hM hr hT hA in
theorem hd_psi_p : HasDerivAt (fun θ => (psiM M F mode (mode.at T P θ).1 (mode.at T P θ).2).p r)
    ((sc (mode.kpsi T P) (capM M F mode T P)).p r) (mode.var T P) := by
  cases mode
  · exact flat_deriv (fun _ => rfl) (zero_mul _)
  · exact ((hd_s hM hr hT hA).mul_const (-1)).congr_deriv (by change _ = -(1 / T) * M.cp T P r; ring)
  · exact (hd_heat hT (hd_g hM hr hA) (hd_s hM hr hT hA)).congr_deriv (one_mul _).symm
  · exact hd_helm (hd_gp hM hr hA) (hd_vp hM hr hA)

include hM hr hT hA in
theorem hd_psi_dp {i : Fin nr} (hi : i ∈ A) :
    HasDerivAt (fun θ => (psiM M F mode (mode.at T P θ).1 (mode.at T P θ).2).dp r i)
    ((sc (mode.kpsi T P) (capM M F mode T P)).dp r i) (mode.var T P) := by
  cases mode
  · exact flat_deriv (fun _ => rfl) (zero_mul _)
  · exact ((hd_sr hM hr hT hA hi).mul_const (-1)).congr_deriv (by change _ = -(1 / T) * M.cpr T P r i; ring)
  · exact (hd_heat hT (hd_gr hM hr hA hi) (hd_sr hM hr hT hA hi)).congr_deriv (one_mul _).symm
  · exact hd_helm (hd_grp hM hr hA hi) (hd_vrp hM hr hA hi)

include hM hr hT hA in
theorem hd_con_p : HasDerivAt (fun θ => (conM M F mode (mode.at T P θ).1 (mode.at T P θ).2).p r)
    ((sc (mode.kcon T) (capM M F mode T P)).p r) (mode.var T P) := by
  cases mode
  · exact flat_deriv (fun _ => rfl) (zero_mul _)
  · exact (hd_heat hT (hd_g hM hr hA) (hd_s hM hr hT hA)).congr_deriv (one_mul _).symm
  · exact (hd_s hM hr hT hA).congr_deriv (by change _ = 1 / T * M.cp T P r; ring)
  · exact (hd_vp hM hr hA).congr_deriv (one_mul _).symm

include hM hr hT hA in
theorem hd_con_dp {i : Fin nr} (hi : i ∈ A) :
    HasDerivAt (fun θ => (conM M F mode (mode.at T P θ).1 (mode.at T P θ).2).dp r i)
    ((sc (mode.kcon T) (capM M F mode T P)).dp r i) (mode.var T P) := by
  cases mode
  · exact flat_deriv (fun _ => rfl) (zero_mul _)
  · exact (hd_heat hT (hd_gr hM hr hA hi) (hd_sr hM hr hT hA hi)).congr_deriv (one_mul _).symm
  · exact (hd_sr hM hr hT hA hi).congr_deriv (by change _ = 1 / T * M.cpr T P r i; ring)
  · exact (hd_vrp hM hr hA hi).congr_deriv (one_mul _).symm

include hM hr hA in
theorem hd_cap_p : HasDerivAt (fun θ => (capM M F mode (mode.at T P θ).1 (mode.at T P θ).2).p r)
    ((capT M F mode T P).1 r) (mode.var T P) := by
  cases mode
  · exact hasDerivAt_const _ _
  · exact hd_cp hM hr hA
  · exact hd_cp hM hr hA
  · exact hd_vpp hM hr hA

end theta

section std
variable {M : Mix nr} {F : Fin na → ℝ → ℝ → Std} {T P : ℝ} {j : Fin na}
  (h : Verif.Thermo.StdState.Consistent (F j) T P) (hT : T ≠ 0) (mode : Mode)
include h

theorem hd_psi_q : HasDerivAt (fun θ => (psiM M F mode (mode.at T P θ).1 (mode.at T P θ).2).q j)
    ((sc (mode.kpsi T P) (capM M F mode T P)).q j) (mode.var T P) := by
  cases mode
  · exact flat_deriv (fun _ => rfl) (zero_mul _)
  · exact h.heatS.fun_neg.congr_deriv (by change _ = -(1 / T) * (F j T P).cp; ring)
  · exact h.heat.congr_deriv (one_mul _).symm
  · exact hd_helm h.volume h.dvdp

theorem hd_con_q : HasDerivAt (fun θ => (conM M F mode (mode.at T P θ).1 (mode.at T P θ).2).q j)
    ((sc (mode.kcon T) (capM M F mode T P)).q j) (mode.var T P) := by
  cases mode
  · exact flat_deriv (fun _ => rfl) (zero_mul _)
  · exact h.heat.congr_deriv (one_mul _).symm
  · exact h.heatS.congr_deriv (by change _ = 1 / T * (F j T P).cp; ring)
  · exact h.dvdp.congr_deriv (one_mul _).symm

theorem hd_cap_q : HasDerivAt (fun θ => (capM M F mode (mode.at T P θ).1 (mode.at T P θ).2).q j)
    ((capT M F mode T P).2 j) (mode.var T P) := by
  cases mode
  · exact hasDerivAt_const _ _
  · exact h.dcpdt
  · exact h.dcpdt
  · exact h.d2vdp2

end std

/-! ### One phase -/

/-- Derivative of the given quantity in the moles of an end member. -/
def Phase.dcon (ph : Phase) (mode : Mode) (T P : ℝ) (m : Fin ph.na → ℝ) (j : Fin ph.na) : ℝ :=
  if ph.pure then (conM ph.mix ph.std mode T P).q j else d1 (conM ph.mix ph.std mode T P) ph.conv m j

/-- `gibbs`, in the form used here. -/
theorem std_h {F : ℝ → ℝ → Std} {T P : ℝ} (h : Verif.Thermo.StdState.Consistent F T P) :
    (F T P).h = (F T P).g + T * (F T P).s := by
  have := h.gibbs
  linarith

/-- Standard-state part of the potential, as a function of temperature or pressure. -/
def stdQpsi (mode : Mode) (T P : ℝ) (F : ℝ → ℝ → Std) (θ : ℝ) : ℝ :=
  match mode with
  | .gibbs => (F T P).g
  | .isenthalpic => -(F θ P).s
  | .isentropic => (F θ P).g + θ * (F θ P).s
  | .isochoric => (F T θ).g - θ * (F T θ).v

/-- Standard-state part of the given quantity, as a function of temperature or pressure. -/
def stdQcon (mode : Mode) (T P : ℝ) (F : ℝ → ℝ → Std) (θ : ℝ) : ℝ :=
  match mode with
  | .gibbs => 0
  | .isenthalpic => (F θ P).g + θ * (F θ P).s
  | .isentropic => (F θ P).s
  | .isochoric => (F T θ).v

section phase
variable {ph : Phase} {T P : ℝ} {m : Fin ph.na → ℝ}

theorem psi_eq (mode : Mode) (hs : ∀ j, Verif.Thermo.StdState.Consistent (ph.std j) T P) :
    ph.psi mode T P m = if ph.pure then ∑ i, m i * (psiM ph.mix ph.std mode T P).q i
      else val (psiM ph.mix ph.std mode T P).p (psiM ph.mix ph.std mode T P).q ph.conv m := by
  have e : ∀ j, (ph.std j T P).h = (ph.std j T P).g + T * (ph.std j T P).s := fun j => std_h (hs j)
  cases mode <;> cases hp : ph.pure <;>
    simp only [Phase.psi, Phase.G, Phase.S, Phase.V, hp, psiM, val, e, if_true, if_false, Bool.false_eq_true, mul_add, mul_sub,
      sum_add_distrib, sum_sub_distrib, mul_neg, sum_neg_distrib, mul_left_comm _ T, mul_left_comm _ P, ← mul_sum] <;> ring

theorem con_eq (mode : Mode) (hs : ∀ j, Verif.Thermo.StdState.Consistent (ph.std j) T P) :
    ph.con mode T P m = if ph.pure then ∑ i, m i * (conM ph.mix ph.std mode T P).q i
      else val (conM ph.mix ph.std mode T P).p (conM ph.mix ph.std mode T P).q ph.conv m := by
  have e : ∀ j, (ph.std j T P).h = (ph.std j T P).g + T * (ph.std j T P).s := fun j => std_h (hs j)
  cases mode <;> cases hp : ph.pure <;>
    simp only [Phase.con, Phase.G, Phase.S, Phase.V, hp, conM, val, e, if_true, if_false, Bool.false_eq_true, mul_add, mul_sub,
      sum_add_distrib, sum_sub_distrib, mul_zero, sum_const_zero, mul_left_comm _ T, mul_left_comm _ P, ← mul_sum] <;> ring

variable (ok : ph.OK T P m) (hm : ∀ j, j ∉ ph.slots → m j = 0) (mode : Mode)
include ok hm

theorem psi_first {j : Fin ph.na} (hj : j ∈ ph.slots) : Partial (ph.psi mode T P) m j ((ph.vals mode T P m).g j) := by
  have e : ph.psi mode T P = fun m => _ := funext fun m => psi_eq (m := m) mode ok.std
  rw [e]
  unfold Phase.vals
  by_cases hp : ph.pure = true
  · simp only [hp, if_true]
    exact partial_linear _ m j
  · simp only [hp, if_false, Bool.false_eq_true]
    obtain ⟨h0, hC, A, I, hM, hr, hst⟩ := ok.sol (by simpa using hp)
    exact face_first ph.conv hC A (· ∈ ph.slots) hst (fun m' hm' => agree_psi ph.mix ph.std mode T P A _ (hst m' hm')) hm h0
      (grad_psi hM ph.std mode hr.self_of_nhds).1 hj

theorem psi_second {j l : Fin ph.na} (hj : j ∈ ph.slots) (hl : l ∈ ph.slots) :
    Partial (fun m => (ph.vals mode T P m).g j) m l ((ph.vals mode T P m).h j l) := by
  unfold Phase.vals
  by_cases hp : ph.pure = true
  · simp only [hp, if_true]
    exact hasDerivAt_const _ _
  · simp only [hp, if_false, Bool.false_eq_true]
    obtain ⟨h0, hC, A, I, hM, hr, hst⟩ := ok.sol (by simpa using hp)
    exact face_second ph.conv hC A (· ∈ ph.slots) hst (fun m' hm' => agree_psi ph.mix ph.std mode T P A _ (hst m' hm')) hm h0
      (grad_psi hM ph.std mode hr.self_of_nhds).1 (grad_psi hM ph.std mode hr.self_of_nhds).2 hj hl

theorem con_first {j : Fin ph.na} (hj : j ∈ ph.slots) : Partial (ph.con mode T P) m j (ph.dcon mode T P m j) := by
  have e : ph.con mode T P = fun m => _ := funext fun m => con_eq (m := m) mode ok.std
  rw [e]
  unfold Phase.dcon
  by_cases hp : ph.pure = true
  · simp only [hp, if_true]
    exact partial_linear _ m j
  · simp only [hp, if_false, Bool.false_eq_true]
    obtain ⟨h0, hC, A, I, hM, hr, hst⟩ := ok.sol (by simpa using hp)
    exact face_first ph.conv hC A (· ∈ ph.slots) hst (fun m' hm' => agree_con ph.mix ph.std mode T P A _ (hst m' hm')) hm h0
      (grad_con hM ph.std mode hr.self_of_nhds).1 hj

theorem con_second {j l : Fin ph.na} (hj : j ∈ ph.slots) (hl : l ∈ ph.slots) :
    Partial (fun m => ph.dcon mode T P m j) m l ((ph.vals mode T P m).c j l) := by
  unfold Phase.vals Phase.dcon
  by_cases hp : ph.pure = true
  · simp only [hp, if_true]
    exact hasDerivAt_const _ _
  · simp only [hp, if_false, Bool.false_eq_true]
    obtain ⟨h0, hC, A, I, hM, hr, hst⟩ := ok.sol (by simpa using hp)
    exact face_second ph.conv hC A (· ∈ ph.slots) hst (fun m' hm' => agree_con ph.mix ph.std mode T P A _ (hst m' hm')) hm h0
      (grad_con hM ph.std mode hr.self_of_nhds).1 (grad_con hM ph.std mode hr.self_of_nhds).2 hj hl

theorem cap_first {j : Fin ph.na} (hj : j ∈ ph.slots) :
    Partial (fun m => (ph.vals mode T P m).p) m j ((ph.vals mode T P m).dp j) := by
  unfold Phase.vals
  by_cases hp : ph.pure = true
  · simp only [hp, if_true]
    exact partial_linear _ m j
  · simp only [hp, if_false, Bool.false_eq_true]
    obtain ⟨h0, hC, A, I, hM, hr, hst⟩ := ok.sol (by simpa using hp)
    refine face_first ph.conv hC A (· ∈ ph.slots) hst (fun m' hm' => agree_cap ph.mix ph.std mode T P A _ (hst m' hm')) hm h0
      ?_ hj
    have hI := hr.self_of_nhds
    cases mode
    · exact Gr.const 0 _
    · exact hM.cp_r T P _ hI
    · exact hM.cp_r T P _ hI
    · exact hM.vp_r T P _ hI

theorem psi_theta : HasDerivAt (fun θ => ph.psi mode (mode.at T P θ).1 (mode.at T P θ).2 m)
    (psiT mode T P (ph.vals mode T P m).p) (mode.var T P) := by
  rw [psiT_eq]
  have hT := ok.tpos
  have e : ∀ θ, ph.psi mode (mode.at T P θ).1 (mode.at T P θ).2 m
      = (if ph.pure then 0 else (∑ i, m i) * (psiM ph.mix ph.std mode (mode.at T P θ).1 (mode.at T P θ).2).p (ph.conv.toR m))
        + ∑ i, m i * stdQpsi mode T P (ph.std i) θ := by
    intro θ
    cases mode <;> cases hp : ph.pure <;>
      simp only [Phase.psi, Phase.G, Phase.S, Phase.V, hp, psiM, stdQpsi, Mode.at, if_true, if_false, Bool.false_eq_true, mul_add, mul_sub,
        sum_add_distrib, sum_sub_distrib, mul_neg, sum_neg_distrib, mul_left_comm _ θ, ← mul_sum] <;> ring
  have hq : ∀ i, HasDerivAt (fun θ => stdQpsi mode T P (ph.std i) θ)
      ((sc (mode.kpsi T P) (capM ph.mix ph.std mode T P)).q i) (mode.var T P) := by
    intro i
    have h := ok.std i
    cases mode
    · exact flat_deriv (fun _ => rfl) (zero_mul _)
    · exact h.heatS.fun_neg.congr_deriv (by change _ = -(1 / T) * (ph.std i T P).cp; ring)
    · exact (hd_heat hT h.entropy h.heatS).congr_deriv (one_mul _).symm
    · exact hd_helm h.volume h.dvdp
  rw [show (fun θ => ph.psi mode (mode.at T P θ).1 (mode.at T P θ).2 m) = fun θ => _ from funext e]
  unfold Phase.vals
  by_cases hp : ph.pure = true
  · simp only [hp, if_true, mul_sum, zero_add]
    refine (HasDerivAt.fun_sum fun i _ => (hq i).const_mul (m i)).congr_deriv (sum_congr rfl fun i _ => ?_)
    exact mul_left_comm _ _ _
  · simp only [hp, if_false, Bool.false_eq_true]
    obtain ⟨h0, hC, A, I, hM, hr, hst⟩ := ok.sol (by simpa using hp)
    rw [← val_sc]
    exact ((hd_psi_p hM hr hT (hst m hm) mode).const_mul _).add (HasDerivAt.fun_sum fun i _ => (hq i).const_mul (m i))

theorem con_theta : HasDerivAt (fun θ => ph.con mode (mode.at T P θ).1 (mode.at T P θ).2 m)
    (mode.kcon T * (ph.vals mode T P m).p) (mode.var T P) := by
  have hT := ok.tpos
  have e : ∀ θ, ph.con mode (mode.at T P θ).1 (mode.at T P θ).2 m
      = (if ph.pure then 0 else (∑ i, m i) * (conM ph.mix ph.std mode (mode.at T P θ).1 (mode.at T P θ).2).p (ph.conv.toR m))
        + ∑ i, m i * stdQcon mode T P (ph.std i) θ := by
    intro θ
    cases mode <;> cases hp : ph.pure <;>
      simp only [Phase.con, Phase.G, Phase.S, Phase.V, hp, conM, stdQcon, Mode.at, if_true, if_false, Bool.false_eq_true, mul_add, mul_sub,
        sum_add_distrib, sum_sub_distrib, mul_zero, sum_const_zero, mul_left_comm _ θ, ← mul_sum] <;> ring
  have hq : ∀ i, HasDerivAt (fun θ => stdQcon mode T P (ph.std i) θ)
      ((sc (mode.kcon T) (capM ph.mix ph.std mode T P)).q i) (mode.var T P) := by
    intro i
    have h := ok.std i
    cases mode
    · exact flat_deriv (fun _ => rfl) (zero_mul _)
    · exact (hd_heat hT h.entropy h.heatS).congr_deriv (one_mul _).symm
    · exact h.heatS.congr_deriv (by change _ = 1 / T * (ph.std i T P).cp; ring)
    · exact h.dvdp.congr_deriv (one_mul _).symm
  rw [show (fun θ => ph.con mode (mode.at T P θ).1 (mode.at T P θ).2 m) = fun θ => _ from funext e]
  unfold Phase.vals
  by_cases hp : ph.pure = true
  · simp only [hp, if_true, mul_sum, zero_add]
    refine (HasDerivAt.fun_sum fun i _ => (hq i).const_mul (m i)).congr_deriv (sum_congr rfl fun i _ => ?_)
    exact mul_left_comm _ _ _
  · simp only [hp, if_false, Bool.false_eq_true]
    obtain ⟨h0, hC, A, I, hM, hr, hst⟩ := ok.sol (by simpa using hp)
    rw [← val_sc]
    exact ((hd_con_p hM hr hT (hst m hm) mode).const_mul _).add (HasDerivAt.fun_sum fun i _ => (hq i).const_mul (m i))

theorem g_theta {j : Fin ph.na} (hj : j ∈ ph.slots) :
    HasDerivAt (fun θ => (ph.vals mode (mode.at T P θ).1 (mode.at T P θ).2 m).g j)
      (psiTj mode T P ((ph.vals mode T P m).dp j)) (mode.var T P) := by
  rw [psiTj_eq]
  unfold Phase.vals
  by_cases hp : ph.pure = true
  · simp only [hp, if_true]
    exact hd_psi_q (ok.std j) mode
  · simp only [hp, if_false, Bool.false_eq_true]
    obtain ⟨h0, hC, A, I, hM, hr, hst⟩ := ok.sol (by simpa using hp)
    have hA := hst m hm
    refine (theta_d1 ph.conv m j A (fun i hi => flat1 ph.conv hC A (· ∈ ph.slots) hst hm h0 hi hj)
      (hd_psi_p hM hr ok.tpos hA mode) (fun i hi => hd_psi_dp hM hr ok.tpos hA mode hi) (hd_psi_q (ok.std j) mode)).congr_deriv ?_
    exact d1_sc _ _ _ _ _

theorem dcon_theta {j : Fin ph.na} (hj : j ∈ ph.slots) :
    HasDerivAt (fun θ => ph.dcon mode (mode.at T P θ).1 (mode.at T P θ).2 m j)
      (mode.kcon T * (ph.vals mode T P m).dp j) (mode.var T P) := by
  unfold Phase.vals Phase.dcon
  by_cases hp : ph.pure = true
  · simp only [hp, if_true]
    exact hd_con_q (ok.std j) mode
  · simp only [hp, if_false, Bool.false_eq_true]
    obtain ⟨h0, hC, A, I, hM, hr, hst⟩ := ok.sol (by simpa using hp)
    have hA := hst m hm
    refine (theta_d1 ph.conv m j A (fun i hi => flat1 ph.conv hC A (· ∈ ph.slots) hst hm h0 hi hj)
      (hd_con_p hM hr ok.tpos hA mode) (fun i hi => hd_con_dp hM hr ok.tpos hA mode hi) (hd_con_q (ok.std j) mode)).congr_deriv ?_
    exact d1_sc _ _ _ _ _

theorem cap_theta : HasDerivAt (fun θ => (ph.vals mode (mode.at T P θ).1 (mode.at T P θ).2 m).p)
    (ph.vals mode T P m).d2p (mode.var T P) := by
  unfold Phase.vals
  by_cases hp : ph.pure = true
  · simp only [hp, if_true]
    exact HasDerivAt.fun_sum fun i _ => (hd_cap_q (ok.std i) mode).const_mul (m i)
  · simp only [hp, if_false, Bool.false_eq_true]
    obtain ⟨h0, hC, A, I, hM, hr, hst⟩ := ok.sol (by simpa using hp)
    exact ((hd_cap_p hM hr (hst m hm) mode).const_mul _).add
      (HasDerivAt.fun_sum fun i _ => (hd_cap_q (ok.std i) mode).const_mul (m i))

theorem psiT_theta : HasDerivAt (fun θ => psiT mode (mode.at T P θ).1 (mode.at T P θ).2
      (ph.vals mode (mode.at T P θ).1 (mode.at T P θ).2 m).p)
    (psiTT mode T P (ph.vals mode T P m).p (ph.vals mode T P m).d2p) (mode.var T P) := by
  have h := cap_theta ok hm mode
  have hT := ok.tpos
  cases mode
  · exact hasDerivAt_const _ _
  · refine ((HasDerivAt.div h (hasDerivAt_id' T) hT).fun_neg).congr_deriv ?_
    change -(((ph.vals .isenthalpic T P m).d2p * T - (ph.vals .isenthalpic T P m).p * 1) / T ^ 2) = _ / T ^ 2 - _ / T
    field_simp
    ring
  · exact h
  · refine (((hasDerivAt_id' P).mul h).fun_neg).congr_deriv ?_
    change -(1 * (ph.vals .isochoric T P m).p + P * (ph.vals .isochoric T P m).d2p) = -_ - P * _
    ring

theorem conT_theta : HasDerivAt (fun θ => mode.kcon (mode.at T P θ).1 *
      (ph.vals mode (mode.at T P θ).1 (mode.at T P θ).2 m).p)
    (-conTT mode T (ph.vals mode T P m).p (ph.vals mode T P m).d2p) (mode.var T P) := by
  have h := cap_theta ok hm mode
  have hT := ok.tpos
  cases mode
  · refine (h.const_mul 0).congr_deriv ?_
    change 0 * _ = -(0 : ℝ)
    rw [zero_mul, neg_zero]
  · refine (h.const_mul 1).congr_deriv ?_
    change 1 * _ = - -_
    rw [one_mul, neg_neg]
  · refine ((((hasDerivAt_const T (1 : ℝ)).div (hasDerivAt_id' T) hT).mul h)).congr_deriv ?_
    change (0 * T - 1 * 1) / T ^ 2 * (ph.vals .isentropic T P m).p + 1 / T * (ph.vals .isentropic T P m).d2p = -(_ / T ^ 2 - _ / T)
    field_simp
    ring
  · refine (h.const_mul 1).congr_deriv ?_
    change 1 * _ = - -_
    rw [one_mul, neg_neg]

end phase

end

end Magma.Engine.System
