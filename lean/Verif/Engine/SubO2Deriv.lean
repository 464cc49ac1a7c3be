import Verif.Engine.SubO2
import Verif.Thermo.ConvSym
import Mathlib.Analysis.Calculus.FDeriv.Symmetric

/-!
Derivatives of the potentials of the components of one solid, in the form the oxygen potential uses them.
-/

namespace Magma.Engine.SubO2

open Finset Filter Topology Magma.Engine.System Magma.Thermo.Extensive Magma.Thermo.Compo
open Magma.Thermo.Mixing (Mix R)
open Verif.Thermo.Ordering (ConsistentOn on mask Gr MixVal valOf)
open Verif.Thermo.StdState (Std oxygen)

noncomputable section

variable {na nr : ℕ}

/-! ### Third derivatives and symmetry -/

/-- A second derivative does not depend on the order of the directions. -/
theorem grad_symm {f : (Fin nr → ℝ) → ℝ} {f1 : (Fin nr → ℝ) → Fin nr → ℝ} {f2 : Fin nr → Fin nr → ℝ} {r : Fin nr → ℝ}
    (h1 : ∀ᶠ r' in 𝓝 r, Grad f r' (f1 r')) (h2 : ∀ i, Grad (fun r => f1 r i) r (f2 i)) (i j : Fin nr) : f2 i j = f2 j i := by
  let L : (Fin nr → ℝ) →L[ℝ] ((Fin nr → ℝ) →L[ℝ] ℝ) :=
    ∑ i, (∑ j, f2 i j • (ContinuousLinearMap.proj j : (Fin nr → ℝ) →L[ℝ] ℝ)).smulRight
      (ContinuousLinearMap.proj i : (Fin nr → ℝ) →L[ℝ] ℝ)
  have hL : HasFDerivAt (fun r => ∑ i, f1 r i • (ContinuousLinearMap.proj i : (Fin nr → ℝ) →L[ℝ] ℝ)) L r :=
    HasFDerivAt.fun_sum fun i _ => HasFDerivAt.smul_const (h2 i) (ContinuousLinearMap.proj i : (Fin nr → ℝ) →L[ℝ] ℝ)
  have := second_derivative_symmetric_of_eventually h1 hL (Pi.single j 1) (Pi.single i 1)
  simpa [L, Pi.single_apply] using this

/-- The derivative of the Hessian of an extensive property. -/
def hess3 (d1p : Fin nr → ℝ) (d2p : Fin nr → Fin nr → ℝ) (d3p : Fin nr → Fin nr → Fin nr → ℝ) (M : ℝ)
    (dr : Fin nr → Fin na → ℝ) (d2r : Fin nr → Fin na → Fin na → ℝ) (d3r : Fin nr → Fin na → Fin na → Fin na → ℝ)
    (j l q : Fin na) : ℝ :=
  ∑ i, ((∑ k, d2p i k * dr k q) * (dr i j + dr i l + M * d2r i j l)
    + d1p i * (d2r i j q + d2r i l q + (d2r i j l + M * d3r i j l q))
    + ((dr i j + M * d2r i j q) * ∑ k, d2p i k * dr k l
      + M * dr i j * ∑ k, ((∑ p, d3p i k p * dr p q) * dr k l + d2p i k * d2r k l q)))

theorem partial_hess (r : (Fin na → ℝ) → Fin nr → ℝ) (m : Fin na → ℝ)
    (d1p : (Fin nr → ℝ) → Fin nr → ℝ) (d2p : (Fin nr → ℝ) → Fin nr → Fin nr → ℝ) (d3p : Fin nr → Fin nr → Fin nr → ℝ)
    (dr : (Fin na → ℝ) → Fin nr → Fin na → ℝ) (d2r : (Fin na → ℝ) → Fin nr → Fin na → Fin na → ℝ)
    (d3r : Fin nr → Fin na → Fin na → Fin na → ℝ)
    (hr : ∀ i j, Partial (fun m => r m i) m j (dr m i j)) (hr2 : ∀ i j l, Partial (fun m => dr m i j) m l (d2r m i j l))
    (hr3 : ∀ i j l q, Partial (fun m => d2r m i j l) m q (d3r i j l q))
    (h2 : ∀ i, Grad (fun r => d1p r i) (r m) (d2p (r m) i)) (h3 : ∀ i k, Grad (fun r => d2p r i k) (r m) (d3p i k))
    (j l q : Fin na) :
    Partial (fun m => hessian (d1p (r m)) (d2p (r m)) (∑ i, m i) (dr m) (d2r m) j l) m q
      (hess3 (d1p (r m)) (d2p (r m)) d3p (∑ i, m i) (dr m) (d2r m) d3r j l q) := by
  unfold Partial hessian
  have hM := partial_total m q
  have hd1 := fun i => partial_comp (fun r => d1p r i) r m q (d2p (r m) i) (fun k => dr m k q) (h2 i) fun k => hr k q
  have hd2 := fun i k => partial_comp (fun r => d2p r i k) r m q (d3p i k) (fun p => dr m p q) (h3 i k) fun k => hr k q
  unfold Partial at hM hd1 hd2
  have key := HasDerivAt.fun_sum (u := (univ : Finset (Fin nr))) (x := (0 : ℝ)) fun i _ =>
    (((hd1 i).mul (((hr2 i j q).add (hr2 i l q)).add (hM.mul (hr3 i j l q)))).add
      ((hM.mul (hr2 i j q)).mul (HasDerivAt.fun_sum (u := (univ : Finset (Fin nr))) fun k _ => (hd2 i k).mul (hr2 k l q))))
  refine key.congr_deriv ?_
  simp only [bump_zero, hess3, Pi.mul_apply, Pi.add_apply]
  generalize (∑ i, m i) = M
  refine sum_congr rfl fun i _ => ?_
  simp only [sum_add_distrib]
  ring

/-! ### One solid -/

/-- The tables of a solid fit together around temperature `T`, pressure `P` and the amounts `m`: end members (C60), conversion
(C25), mixing properties on the face of the components present (C24, C61, C65, C66), and activities that are the exponentials of
the potentials of mixing over `RT` with their derivatives (C24, C62). -/
structure Solid.Good (s : Solid) (T P : ℝ) (m : Fin s.ph.na → ℝ) : Prop where
  tpos : 0 < T
  std : ∀ᶠ z : ℝ × ℝ in 𝓝 (T, P), ∀ j, Verif.Thermo.StdState.Consistent (s.ph.std j) z.1 z.2
  face : ∀ j, j ∉ s.on → m j = 0
  sol : s.ph.pure = false → (∑ i, m i ≠ 0) ∧ s.ph.conv.Consistent ∧
    ∃ (A : Finset (Fin s.ph.nr)) (I : ℝ → ℝ → (Fin s.ph.nr → ℝ) → Prop), ConsistentOn (Verif.Thermo.Ordering.on A s.ph.mix) I ∧
      (∀ᶠ z : ℝ × ℝ × (Fin s.ph.nr → ℝ) in 𝓝 (T, P, s.ph.conv.toR m), I z.1 z.2.1 z.2.2) ∧
      (∀ m' : Fin s.ph.na → ℝ, (∀ j, j ∉ s.on → m' j = 0) → ∀ i ∉ A, s.ph.conv.toR m' i = 0) ∧
      ∀ (T' P' : ℝ) (m' : Fin s.ph.na → ℝ), 0 < T' → (∀ j, j ∉ s.on → m' j = 0) → ∑ i, m' i ≠ 0 →
        I T' P' (s.ph.conv.toR m') → ∀ j ∈ s.on,
          s.act T' P' (s.ph.conv.toR m') j = Real.exp (gradient (s.ph.mix.g T' P' (s.ph.conv.toR m'))
            (s.ph.mix.gr T' P' (s.ph.conv.toR m')) (∑ i, m' i) (s.ph.conv.dm m') j / (R * T')) ∧
          ∀ l ∈ s.on, Partial (fun m => s.act T' P' (s.ph.conv.toR m) j) m' l
            (∑ k, s.ph.conv.dm m' k l * s.dact T' P' (s.ph.conv.toR m') j k)

variable {s : Solid} {T P : ℝ} {m : Fin s.ph.na → ℝ}

theorem mem_on {j : Fin s.ph.na} : j ∈ s.on ↔ j ∈ s.ph.slots := List.mem_toFinset

theorem Solid.Good.near_T (g : s.Good T P m) : ∀ᶠ t in 𝓝 T, s.Good t P m := by
  have h1 : ∀ᶠ t in 𝓝 T, ∀ᶠ z : ℝ × ℝ in 𝓝 (t, P), ∀ j, Verif.Thermo.StdState.Consistent (s.ph.std j) z.1 z.2 :=
    (Continuous.tendsto (f := fun t : ℝ => (t, P)) (by fun_prop) T).eventually g.std.eventually_nhds
  by_cases hp : s.ph.pure = false
  · obtain ⟨h0, hC, A, I, hM, hr, hst, ha⟩ := g.sol hp
    have h2 := (Continuous.tendsto (f := fun t : ℝ => (t, P, s.ph.conv.toR m)) (by fun_prop) T).eventually hr.eventually_nhds
    filter_upwards [h1, h2, lt_mem_nhds g.tpos] with t a b c
    exact ⟨c, a, g.face, fun _ => ⟨h0, hC, A, I, hM, b, hst, ha⟩⟩
  · filter_upwards [h1, lt_mem_nhds g.tpos] with t a c
    exact ⟨c, a, g.face, fun h => absurd h hp⟩

theorem Solid.Good.near_P (g : s.Good T P m) : ∀ᶠ p in 𝓝 P, s.Good T p m := by
  have h1 : ∀ᶠ p in 𝓝 P, ∀ᶠ z : ℝ × ℝ in 𝓝 (T, p), ∀ j, Verif.Thermo.StdState.Consistent (s.ph.std j) z.1 z.2 :=
    (Continuous.tendsto (f := fun p : ℝ => (T, p)) (by fun_prop) P).eventually g.std.eventually_nhds
  by_cases hp : s.ph.pure = false
  · obtain ⟨h0, hC, A, I, hM, hr, hst, ha⟩ := g.sol hp
    have h2 := (Continuous.tendsto (f := fun p : ℝ => (T, p, s.ph.conv.toR m)) (by fun_prop) P).eventually hr.eventually_nhds
    filter_upwards [h1, h2] with t a b
    exact ⟨g.tpos, a, g.face, fun _ => ⟨h0, hC, A, I, hM, b, hst, ha⟩⟩
  · filter_upwards [h1] with t a
    exact ⟨g.tpos, a, g.face, fun h => absurd h hp⟩

theorem bump_on {m : Fin s.ph.na → ℝ} (hm : ∀ j, j ∉ s.on → m j = 0) {l : Fin s.ph.na} (hl : l ∈ s.on) (h : ℝ) :
    ∀ j, j ∉ s.on → bump m l h j = 0 := by
  intro i hi
  have : i ≠ l := fun e => hi (e ▸ hl)
  simp [bump, hm i hi, this]

theorem Solid.Good.near_m (g : s.Good T P m) {l : Fin s.ph.na} (hl : l ∈ s.on) : ∀ᶠ h in 𝓝 (0 : ℝ), s.Good T P (bump m l h) := by
  by_cases hp : s.ph.pure = false
  · obtain ⟨h0, hC, A, I, hM, hr, hst, ha⟩ := g.sol hp
    have hc : ContinuousAt (fun h => s.ph.conv.toR (bump m l h)) 0 :=
      continuousAt_pi.mpr fun i => (hC.first m h0 i l).continuousAt
    have hc2 : Tendsto (fun h => (T, P, s.ph.conv.toR (bump m l h))) (𝓝 0) (𝓝 (T, P, s.ph.conv.toR m)) := by
      have : ContinuousAt (fun h => (T, P, s.ph.conv.toR (bump m l h))) 0 :=
        continuousAt_const.prodMk (continuousAt_const.prodMk hc)
      have h := this.tendsto
      rwa [bump_zero] at h
    filter_upwards [hc2.eventually hr.eventually_nhds, sum_near hC h0 l] with h a b
    exact ⟨g.tpos, g.std, bump_on g.face hl h, fun _ => ⟨b, hC, A, I, hM, a, hst, ha⟩⟩
  · exact Eventually.of_forall fun h => ⟨g.tpos, g.std, bump_on g.face hl h, fun h => absurd h hp⟩

/-- The hypotheses of C69 hold. -/
theorem Solid.Good.ok (g : s.Good T P m) : s.ph.OK T P m where
  tpos := g.tpos.ne'
  std := g.std.self_of_nhds
  sol hp := by
    obtain ⟨h0, hC, A, I, hM, hr, hst, ha⟩ := g.sol hp
    refine ⟨h0, hC, A, I, hM, ?_, fun m' hm' => hst m' fun j hj => hm' j fun h => hj (mem_on.2 h)⟩
    exact (Continuous.tendsto (f := fun t : ℝ => (t, P, s.ph.conv.toR m)) (by fun_prop) T).eventually hr

theorem Solid.Good.face' (g : s.Good T P m) : ∀ j, j ∉ s.ph.slots → m j = 0 := fun j hj => g.face j fun h => hj (mem_on.1 h)

/-- The potential of a component: its standard state and its mixing part. -/
def pot (s : Solid) (T P : ℝ) (m : Fin s.ph.na → ℝ) (j : Fin s.ph.na) : ℝ :=
  (s.ph.std j T P).g + pmix s (s.ph.mix.g T P) (s.ph.mix.gr T P) m j

theorem pmix_grad (hp : s.ph.pure = false) (p : (Fin s.ph.nr → ℝ) → ℝ) (dp : (Fin s.ph.nr → ℝ) → Fin s.ph.nr → ℝ)
    (m : Fin s.ph.na → ℝ) (j : Fin s.ph.na) :
    pmix s p dp m j = gradient (p (s.ph.conv.toR m)) (dp (s.ph.conv.toR m)) (∑ i, m i) (s.ph.conv.dm m) j := by
  simp only [pmix, hp, gradient, Bool.false_eq_true, if_false]
  congr 2
  exact sum_congr rfl fun k _ => mul_comm _ _

theorem pmix_d1 (hp : s.ph.pure = false) (X : Molar s.ph.na s.ph.nr) (m : Fin s.ph.na → ℝ) (j : Fin s.ph.na) :
    X.q j + pmix s X.p X.dp m j = d1 X s.ph.conv m j := by
  rw [pmix_grad hp, d1, add_comm]

theorem pot_eq (j : Fin s.ph.na) : pot s T P m j = (s.ph.vals .gibbs T P m).g j := by
  unfold pot Phase.vals
  cases hp : s.ph.pure
  · simp only [Bool.false_eq_true, if_false]
    exact pmix_d1 hp (psiM s.ph.mix s.ph.std .gibbs T P) m j
  · simp [pmix, hp, psiM]

/-- The potential is the derivative of the Gibbs energy of the solid in the moles of the component. -/
theorem pot_first (g : s.Good T P m) {j : Fin s.ph.na} (hj : j ∈ s.on) : Partial (s.ph.G T P) m j (pot s T P m j) := by
  rw [pot_eq]
  exact psi_first g.ok g.face' .gibbs (mem_on.1 hj)

section theta
variable (g : s.Good T P m) {j : Fin s.ph.na} (hj : j ∈ s.on)
include g hj

theorem pot_T : HasDerivAt (fun t => pot s t P m j)
    (-((s.ph.std j T P).s + pmix s (s.ph.mix.s T P) (s.ph.mix.sr T P) m j)) T := by
  unfold pot
  have hq := (g.std.self_of_nhds j).entropy
  cases hp : s.ph.pure
  · obtain ⟨h0, hC, A, I, hM, hr, hst, ha⟩ := g.sol hp
    obtain ⟨-, -, A, I, hM, hr, hst⟩ := g.ok.sol hp
    have hA := hst m g.face'
    have h := theta_d1 (X := fun t => psiM s.ph.mix s.ph.std .gibbs t P)
      (Y := sc (-1) ⟨s.ph.mix.s T P, s.ph.mix.sr T P, s.ph.mix.srr T P, fun i => (s.ph.std i T P).s⟩)
      s.ph.conv m j A (fun i hi => flat1 s.ph.conv hC A (· ∈ s.ph.slots) hst g.face' h0 hi (mem_on.1 hj))
      ((hd_g hM hr hA).congr_deriv (by change _ = -1 * _; ring))
      (fun i hi => (hd_gr hM hr hA hi).congr_deriv (by change _ = -1 * _; ring)) (hq.congr_deriv (by change _ = -1 * _; ring))
    rw [d1_sc, ← pmix_d1 hp] at h
    refine (h.congr_deriv (neg_one_mul _)).congr_of_eventuallyEq (Eventually.of_forall fun t => ?_)
    exact pmix_d1 hp (psiM s.ph.mix s.ph.std .gibbs t P) m j
  · simpa [pmix, hp] using hq

theorem pot_P : HasDerivAt (fun p => pot s T p m j)
    ((s.ph.std j T P).v + pmix s (s.ph.mix.v T P) (s.ph.mix.vr T P) m j) P := by
  unfold pot
  have hq := (g.std.self_of_nhds j).volume
  cases hp : s.ph.pure
  · obtain ⟨h0, hC, -⟩ := g.sol hp
    obtain ⟨-, -, A, I, hM, hr, hst⟩ := g.ok.sol hp
    have hA := hst m g.face'
    have h := theta_d1 (X := fun p => psiM s.ph.mix s.ph.std .gibbs T p)
      (Y := ⟨s.ph.mix.v T P, s.ph.mix.vr T P, s.ph.mix.vrr T P, fun i => (s.ph.std i T P).v⟩)
      s.ph.conv m j A (fun i hi => flat1 s.ph.conv hC A (· ∈ s.ph.slots) hst g.face' h0 hi (mem_on.1 hj))
      (hd_gp hM hr hA) (fun i hi => hd_grp hM hr hA hi) hq
    rw [← pmix_d1 hp] at h
    refine h.congr_of_eventuallyEq (Eventually.of_forall fun p => ?_)
    exact pmix_d1 hp (psiM s.ph.mix s.ph.std .gibbs T p) m j
  · simpa [pmix, hp] using hq

theorem ent_T : HasDerivAt (fun t => (s.ph.std j t P).s + pmix s (s.ph.mix.s t P) (s.ph.mix.sr t P) m j)
    (((s.ph.std j T P).cp + pmix s (s.ph.mix.cp T P) (s.ph.mix.cpr T P) m j) / T) T := by
  have hq := (g.std.self_of_nhds j).heatS
  have hT := g.tpos.ne'
  cases hp : s.ph.pure
  · obtain ⟨h0, hC, -⟩ := g.sol hp
    obtain ⟨-, -, A, I, hM, hr, hst⟩ := g.ok.sol hp
    have hA := hst m g.face'
    have h := theta_d1 (X := fun t => ⟨s.ph.mix.s t P, s.ph.mix.sr t P, s.ph.mix.srr t P, fun i => (s.ph.std i t P).s⟩)
      (Y := sc (1 / T) ⟨s.ph.mix.cp T P, s.ph.mix.cpr T P, s.ph.mix.srr T P, fun i => (s.ph.std i T P).cp⟩)
      s.ph.conv m j A (fun i hi => flat1 s.ph.conv hC A (· ∈ s.ph.slots) hst g.face' h0 hi (mem_on.1 hj))
      ((hd_s hM hr hT hA).congr_deriv (by change _ = 1 / T * _; ring))
      (fun i hi => (hd_sr hM hr hT hA hi).congr_deriv (by change _ = 1 / T * _; ring))
      (hq.congr_deriv (by change _ = 1 / T * _; ring))
    rw [d1_sc, ← pmix_d1 hp] at h
    refine (h.congr_deriv (by ring)).congr_of_eventuallyEq (Eventually.of_forall fun t => ?_)
    exact pmix_d1 hp ⟨s.ph.mix.s t P, s.ph.mix.sr t P, s.ph.mix.srr t P, fun i => (s.ph.std i t P).s⟩ m j
  · simpa [pmix, hp] using hq

theorem vol_P : HasDerivAt (fun p => (s.ph.std j T p).v + pmix s (s.ph.mix.v T p) (s.ph.mix.vr T p) m j)
    ((s.ph.std j T P).dvdp + pmix s (s.ph.mix.vp T P) (s.ph.mix.vrp T P) m j) P := by
  have hq := (g.std.self_of_nhds j).dvdp
  cases hp : s.ph.pure
  · obtain ⟨h0, hC, -⟩ := g.sol hp
    obtain ⟨-, -, A, I, hM, hr, hst⟩ := g.ok.sol hp
    have hA := hst m g.face'
    have h := theta_d1 (X := fun p => ⟨s.ph.mix.v T p, s.ph.mix.vr T p, s.ph.mix.vrr T p, fun i => (s.ph.std i T p).v⟩)
      (Y := ⟨s.ph.mix.vp T P, s.ph.mix.vrp T P, s.ph.mix.vrr T P, fun i => (s.ph.std i T P).dvdp⟩)
      s.ph.conv m j A (fun i hi => flat1 s.ph.conv hC A (· ∈ s.ph.slots) hst g.face' h0 hi (mem_on.1 hj))
      (hd_vp hM hr hA) (fun i hi => hd_vrp hM hr hA hi) hq
    rw [← pmix_d1 hp] at h
    refine h.congr_of_eventuallyEq (Eventually.of_forall fun p => ?_)
    exact pmix_d1 hp ⟨s.ph.mix.v T p, s.ph.mix.vr T p, s.ph.mix.vrr T p, fun i => (s.ph.std i T p).v⟩ m j
  · simpa [pmix, hp] using hq

omit hj in
theorem hd_vt {A : Finset (Fin s.ph.nr)} {I : ℝ → ℝ → (Fin s.ph.nr → ℝ) → Prop} (hM : ConsistentOn (Verif.Thermo.Ordering.on A s.ph.mix) I)
    {r : Fin s.ph.nr → ℝ} (hr : I T P r) (hA : ∀ i ∉ A, r i = 0) :
    HasDerivAt (fun t => s.ph.mix.v t P r) (s.ph.mix.vt T P r) T ∧
      ∀ i ∈ A, HasDerivAt (fun t => s.ph.mix.vr t P r i) (s.ph.mix.vrt T P r i) T := by
  constructor
  · have h := hM.v_t T P r hr
    have e : (on A s.ph.mix).vt T P r = s.ph.mix.vt T P r := on_vals s.ph.mix T P A r hA (·.vt)
    simpa only [on_v s.ph.mix _ P A r hA, e] using h
  · intro i hi
    have h := hM.v_rt T P r hr i
    have e : (on A s.ph.mix).vrt T P r i = s.ph.mix.vrt T P r i := by
      have := on_vals s.ph.mix T P A r hA (fun v => v.vrt i)
      simpa [MixVal.cut, valOf, hi] using this
    simpa only [on_vr s.ph.mix _ P A r hA hi, e] using h

theorem vol_T : HasDerivAt (fun t => (s.ph.std j t P).v + pmix s (s.ph.mix.v t P) (s.ph.mix.vr t P) m j)
    ((s.ph.std j T P).dvdt + pmix s (s.ph.mix.vt T P) (s.ph.mix.vrt T P) m j) T := by
  have hq := (g.std.self_of_nhds j).dvdt
  cases hp : s.ph.pure
  · obtain ⟨h0, hC, -⟩ := g.sol hp
    obtain ⟨-, -, A, I, hM, hr, hst⟩ := g.ok.sol hp
    have hA := hst m g.face'
    have hd := hd_vt g hM hr.self_of_nhds hA
    have h := theta_d1 (X := fun t => ⟨s.ph.mix.v t P, s.ph.mix.vr t P, s.ph.mix.vrr t P, fun i => (s.ph.std i t P).v⟩)
      (Y := ⟨s.ph.mix.vt T P, s.ph.mix.vrt T P, s.ph.mix.vrr T P, fun i => (s.ph.std i T P).dvdt⟩)
      s.ph.conv m j A (fun i hi => flat1 s.ph.conv hC A (· ∈ s.ph.slots) hst g.face' h0 hi (mem_on.1 hj))
      hd.1 hd.2 hq
    rw [← pmix_d1 hp] at h
    refine h.congr_of_eventuallyEq (Eventually.of_forall fun t => ?_)
    exact pmix_d1 hp ⟨s.ph.mix.v t P, s.ph.mix.vr t P, s.ph.mix.vrr t P, fun i => (s.ph.std i t P).v⟩ m j
  · simpa [pmix, hp] using hq

end theta

/-! ### Derivatives in the amounts -/

theorem thirdOf_eq {g1 : Fin nr → ℝ} {g2 : Fin nr → Fin nr → ℝ} {g3 : Fin nr → Fin nr → Fin nr → ℝ} {M : ℝ}
    {dr : Fin nr → Fin na → ℝ} {d2r : Fin nr → Fin na → Fin na → ℝ} {d3r : Fin nr → Fin na → Fin na → Fin na → ℝ}
    (s2 : ∀ i j, g2 i j = g2 j i) (s3 : ∀ i j k, g3 i j k = g3 j i k) (s3' : ∀ i j k, g3 i j k = g3 i k j)
    (r2 : ∀ i j k, d2r i j k = d2r i k j) (r3 : ∀ i j k l, d3r i j k l = d3r i j l k) (y k q : Fin na) :
    thirdOf g1 g2 g3 M dr d2r d3r y k q = hess3 g1 g2 g3 M dr d2r d3r y q k := by
  unfold thirdOf hess3
  refine sum_congr rfl fun l _ => ?_
  have e3 : ∀ o, ∑ p, dr p k * g3 p o l = ∑ p, g3 l o p * dr p k := fun o =>
    sum_congr rfl fun p _ => by rw [mul_comm, s3' p o l, s3 p l o, s3' l p o]
  have e1 : ∑ o, (M * ((d2r o q k * dr l y + d2r l y k * dr o q + d2r l y q * dr o k) * g2 o l
        + dr o q * dr l y * ∑ p, dr p k * g3 p o l) + g2 o l * (dr o k * dr l y + dr o k * dr l q + dr o q * dr l y))
      = (∑ o, g2 l o * dr o k) * (dr l y + dr l q + M * d2r l y q) + ((dr l y + M * d2r l y k) * ∑ o, g2 l o * dr o q
        + M * dr l y * ∑ o, ((∑ p, g3 l o p * dr p k) * dr o q + g2 l o * d2r o q k)) := by
    simp only [mul_sum (a := dr l y + M * d2r l y k), sum_mul (a := dr l y + dr l q + M * d2r l y q), mul_sum (a := M * dr l y),
      ← sum_add_distrib, e3]
    refine sum_congr rfl fun o _ => ?_
    rw [s2 o l]
    ring
  rw [e1, r3 l y k q, r2 l k q, r2 l q y]
  ring

theorem thirdOf_agree {g1 g1' : Fin nr → ℝ} {g2 g2' : Fin nr → Fin nr → ℝ} {g3 g3' : Fin nr → Fin nr → Fin nr → ℝ} {M : ℝ}
    {dr : Fin nr → Fin na → ℝ} {d2r : Fin nr → Fin na → Fin na → ℝ} {d3r : Fin nr → Fin na → Fin na → Fin na → ℝ}
    (A : Finset (Fin nr)) (on? : Fin na → Prop) (h1 : ∀ i ∈ A, g1 i = g1' i) (h2 : ∀ i ∈ A, ∀ j ∈ A, g2 i j = g2' i j)
    (h3 : ∀ i ∈ A, ∀ j ∈ A, ∀ k ∈ A, g3 i j k = g3' i j k) (f1 : ∀ i ∉ A, ∀ j, on? j → dr i j = 0)
    (f2 : ∀ i ∉ A, ∀ j, on? j → ∀ k, on? k → d2r i j k = 0)
    (f3 : ∀ i ∉ A, ∀ j, on? j → ∀ k, on? k → ∀ l, on? l → d3r i j k l = 0) {y k q : Fin na} (hy : on? y) (hk : on? k) (hq : on? q) :
    thirdOf g1 g2 g3 M dr d2r d3r y k q = thirdOf g1' g2' g3' M dr d2r d3r y k q := by
  unfold thirdOf
  refine sum_congr rfl fun l _ => ?_
  by_cases hl : l ∈ A
  · rw [h1 l hl]
    congr 1
    refine sum_congr rfl fun o _ => ?_
    by_cases ho : o ∈ A
    · rw [h2 o ho l hl]
      congr 4
      refine sum_congr rfl fun p _ => ?_
      by_cases hp : p ∈ A
      · rw [h3 p hp o ho l hl]
      · rw [f1 p hp k hk, zero_mul, zero_mul]
    · simp [f1 o ho k hk, f1 o ho q hq, f2 o ho q hq k hk]
  · simp [f1 l hl y hy, f1 l hl q hq, f2 l hl y hy k hk, f2 l hl y hy q hq, f2 l hl k hk q hq, f2 l hl q hq y hy,
      f3 l hl y hy k hk q hq]

theorem secondOf_eq {g1 : Fin nr → ℝ} {g2 : Fin nr → Fin nr → ℝ} {M : ℝ} {dr : Fin nr → Fin na → ℝ}
    {d2r : Fin nr → Fin na → Fin na → ℝ} (s2 : ∀ i j, g2 i j = g2 j i) (r2 : ∀ i j k, d2r i j k = d2r i k j) (y k : Fin na) :
    secondOf g1 g2 M dr d2r y k = hessian g1 g2 M dr d2r k y := by
  unfold secondOf hessian
  refine sum_congr rfl fun l _ => ?_
  have e : ∑ o, dr o y * g2 o l = ∑ o, g2 l o * dr o y := sum_congr rfl fun o _ => by rw [s2 o l, mul_comm]
  rw [e, r2 l y k]
  ring

theorem secondOf_agree {g1 g1' : Fin nr → ℝ} {g2 g2' : Fin nr → Fin nr → ℝ} {M : ℝ}
    {dr : Fin nr → Fin na → ℝ} {d2r : Fin nr → Fin na → Fin na → ℝ}
    (A : Finset (Fin nr)) (on? : Fin na → Prop) (h1 : ∀ i ∈ A, g1 i = g1' i) (h2 : ∀ i ∈ A, ∀ j ∈ A, g2 i j = g2' i j)
    (f1 : ∀ i ∉ A, ∀ j, on? j → dr i j = 0) (f2 : ∀ i ∉ A, ∀ j, on? j → ∀ k, on? k → d2r i j k = 0)
    {y k : Fin na} (hy : on? y) (hk : on? k) : secondOf g1 g2 M dr d2r y k = secondOf g1' g2' M dr d2r y k := by
  unfold secondOf
  refine sum_congr rfl fun l _ => ?_
  by_cases hl : l ∈ A
  · rw [h1 l hl]
    congr 2
    refine sum_congr rfl fun o _ => ?_
    by_cases ho : o ∈ A
    · rw [h2 o ho l hl]
    · rw [f1 o ho y hy, zero_mul, zero_mul]
  · simp [f1 l hl y hy, f1 l hl k hk, f2 l hl y hy k hk]

theorem flat3 (C : Conversion na nr) (hC : C.Consistent) (A : Finset (Fin nr)) (on? : Fin na → Prop)
    (hst : ∀ m' : Fin na → ℝ, (∀ j, ¬ on? j → m' j = 0) → ∀ i ∉ A, C.toR m' i = 0) {m : Fin na → ℝ}
    (hm : ∀ j, ¬ on? j → m j = 0) (h0 : ∑ i, m i ≠ 0) {i : Fin nr} (hi : i ∉ A) {j l q : Fin na}
    (hj : on? j) (hl : on? l) (hq : on? q) : C.d3m m i j l q = 0 := by
  have h := hC.third m h0 i j l q
  unfold Partial at h
  have e : (fun h => C.d2m (bump m q h) i j l) =ᶠ[𝓝 0] fun _ => 0 := by
    filter_upwards [sum_bump_ne C hC A on? hst h0 q] with h hh
    exact flat2 C hC A on? hst (bump_face C hC A on? hst hm hq h) hh hi hj hl
  exact (h.congr_of_eventuallyEq e.symm).unique (hasDerivAt_const _ _)

section amounts
variable (g : s.Good T P m)
include g

/-- Derivative in the moles of a component of a partial molar property of mixing, as written in the code. -/
theorem pmix_m {j l : Fin s.ph.na} (hj : j ∈ s.on) (hl : l ∈ s.on) (hp : s.ph.pure = false)
    (X : Mix s.ph.nr → Molar s.ph.na s.ph.nr)
    (hX : ∀ A r, (∀ i ∉ A, r i = 0) → Agree A r (X s.ph.mix) (X (on A s.ph.mix)))
    (hG : ∀ M I, ConsistentOn M I → ∀ r, I T P r → Grad (X M).p r ((X M).dp r) ∧ ∀ i, Grad (fun r => (X M).dp r i) r ((X M).d2p r i)) :
    Partial (fun m => pmix s (X s.ph.mix).p (X s.ph.mix).dp m j) m l (second s (X s.ph.mix).dp (X s.ph.mix).d2p m l j) := by
  obtain ⟨h0, hC, A, I, hM, hr, hst, -⟩ := g.sol hp
  have hI : ∀ᶠ r in 𝓝 (s.ph.conv.toR m), I T P r :=
    (Continuous.tendsto (f := fun r => (T, P, r)) (by fun_prop) (s.ph.conv.toR m)).eventually hr
  have hA := hst m g.face
  have f := face_second s.ph.conv hC A (· ∈ s.on) hst (fun m' hm' => hX A _ (hst m' hm')) g.face h0
    (hG _ I hM _ hI.self_of_nhds).1 (hG _ I hM _ hI.self_of_nhds).2 hj hl
  have sym : ∀ i j, (X (on A s.ph.mix)).d2p (s.ph.conv.toR m) i j = (X (on A s.ph.mix)).d2p (s.ph.conv.toR m) j i :=
    grad_symm (hI.mono fun r hr => (hG _ I hM r hr).1) (hG _ I hM _ hI.self_of_nhds).2
  have ag := hX A _ hA
  have e : second s (X s.ph.mix).dp (X s.ph.mix).d2p m l j = d2 (X s.ph.mix) s.ph.conv m j l := by
    rw [d2_agree s.ph.conv hC A (· ∈ s.on) hst g.face h0 ag hj hl, d2, ← secondOf_eq sym (d2m_symm hC h0)]
    exact secondOf_agree A (· ∈ s.on) ag.dp ag.d2p
      (fun i hi j hj => flat1 s.ph.conv hC A (· ∈ s.on) hst g.face h0 hi hj)
      (fun i hi j hj k hk => flat2 s.ph.conv hC A (· ∈ s.on) hst g.face h0 hi hj hk) hl hj
  rw [e]
  have f' := HasDerivAt.sub_const ((X s.ph.mix).q j) f
  refine f'.congr_of_eventuallyEq (Eventually.of_forall fun h => ?_)
  change _ = d1 (X s.ph.mix) s.ph.conv (bump m l h) j - _
  rw [← pmix_d1 hp]
  ring

theorem ent_m {j l : Fin s.ph.na} (hj : j ∈ s.on) (hl : l ∈ s.on) (hp : s.ph.pure = false) :
    Partial (fun m => pmix s (s.ph.mix.s T P) (s.ph.mix.sr T P) m j) m l
      (second s (s.ph.mix.sr T P) (s.ph.mix.srr T P) m l j) :=
  pmix_m g hj hl hp (fun M => ⟨M.s T P, M.sr T P, M.srr T P, fun _ => 0⟩)
    (fun A r h => ⟨(on_s s.ph.mix T P A r h).symm, fun _ hi => (on_sr s.ph.mix T P A r h hi).symm,
      fun _ hi _ hj => (on_srr s.ph.mix T P A r h hi hj).symm, rfl⟩)
    (fun _ _ hM r hr => ⟨hM.s_r T P r hr, hM.s_rr T P r hr⟩)

theorem vol_m {j l : Fin s.ph.na} (hj : j ∈ s.on) (hl : l ∈ s.on) (hp : s.ph.pure = false) :
    Partial (fun m => pmix s (s.ph.mix.v T P) (s.ph.mix.vr T P) m j) m l
      (second s (s.ph.mix.vr T P) (s.ph.mix.vrr T P) m l j) :=
  pmix_m g hj hl hp (fun M => ⟨M.v T P, M.vr T P, M.vrr T P, fun _ => 0⟩)
    (fun A r h => ⟨(on_v s.ph.mix T P A r h).symm, fun _ hi => (on_vr s.ph.mix T P A r h hi).symm,
      fun _ hi _ hj => (on_vrr s.ph.mix T P A r h hi hj).symm, rfl⟩)
    (fun _ _ hM r hr => ⟨hM.v_r T P r hr, hM.v_rr T P r hr⟩)

theorem gib_m {j l : Fin s.ph.na} (hj : j ∈ s.on) (hl : l ∈ s.on) (hp : s.ph.pure = false) :
    Partial (fun m => pmix s (s.ph.mix.g T P) (s.ph.mix.gr T P) m j) m l
      (second s (s.ph.mix.gr T P) (s.ph.mix.grr T P) m l j) :=
  pmix_m g hj hl hp (fun M => ⟨M.g T P, M.gr T P, M.grr T P, fun _ => 0⟩)
    (fun A r h => ⟨(on_g s.ph.mix T P A r h).symm, fun _ hi => (on_gr s.ph.mix T P A r h hi).symm,
      fun _ hi _ hj => (on_grr s.ph.mix T P A r h hi hj).symm, rfl⟩)
    (fun _ _ hM r hr => ⟨hM.g_r T P r hr, hM.g_rr T P r hr⟩)

/-- The activity and its derivative give the potential of mixing and its derivative. -/
theorem act_pot {j : Fin s.ph.na} (hj : j ∈ s.on) : 0 < a' s T P m j ∧
    R * T * Real.log (a' s T P m j) = pmix s (s.ph.mix.g T P) (s.ph.mix.gr T P) m j := by
  cases hp : s.ph.pure
  · obtain ⟨h0, hC, A, I, hM, hr, hst, ha⟩ := g.sol hp
    have h := (ha T P m g.tpos g.face h0 hr.self_of_nhds j hj).1
    simp only [a', hp, Bool.false_eq_true, if_false, h]
    refine ⟨Real.exp_pos _, ?_⟩
    rw [Real.log_exp, pmix_grad hp]
    have := Thermo.Mixing.R_pos.ne'
    have := g.tpos.ne'
    field_simp
  · simp [a', pmix, hp]

theorem dadm_eq {j l : Fin s.ph.na} (hj : j ∈ s.on) (hl : l ∈ s.on) (hp : s.ph.pure = false) :
    dadm s T P m j l / a' s T P m j * (R * T) = second s (s.ph.mix.gr T P) (s.ph.mix.grr T P) m l j := by
  have h1 := gib_m g hj hl hp
  have hpos := (act_pot g hj).1
  have h2 : Partial (fun m => a' s T P m j) m l (dadm s T P m j l) := by
    obtain ⟨h0, hC, A, I, hM, hr, hst, ha⟩ := g.sol hp
    simpa only [a', dadm, hp, Bool.false_eq_true, if_false] using (ha T P m g.tpos g.face h0 hr.self_of_nhds j hj).2 l hl
  have h3 : Partial (fun m => R * T * Real.log (a' s T P m j)) m l (R * T * (dadm s T P m j l / a' s T P m j)) := by
    unfold Partial at h2 ⊢
    have := (h2.log (by rw [bump_zero]; exact hpos.ne')).const_mul (R * T)
    simpa only [bump_zero] using this
  unfold Partial at h1 h3
  have h4 := h3.congr_of_eventuallyEq (f₁ := fun h => pmix s (s.ph.mix.g T P) (s.ph.mix.gr T P) (bump m l h) j) (by
    filter_upwards [g.near_m hl] with h hh
    exact ((act_pot hh hj).2).symm)
  rw [h1.unique h4]
  ring

/-- Third derivative of the Gibbs energy of mixing. -/
theorem gib_third {j l q : Fin s.ph.na} (hj : j ∈ s.on) (hl : l ∈ s.on) (hq : q ∈ s.on) (hp : s.ph.pure = false) :
    Partial (fun m => second s (s.ph.mix.gr T P) (s.ph.mix.grr T P) m l j) m q (third s T P m j q l) := by
  obtain ⟨h0, hC, A, I, hM, hr, hst, -⟩ := g.sol hp
  have hI : ∀ᶠ r in 𝓝 (s.ph.conv.toR m), I T P r :=
    (Continuous.tendsto (f := fun r => (T, P, r)) (by fun_prop) (s.ph.conv.toR m)).eventually hr
  have hA := hst m g.face
  set N := on A s.ph.mix with hN
  have sym2 : ∀ᶠ r in 𝓝 (s.ph.conv.toR m), ∀ i j, N.grr T P r i j = N.grr T P r j i := by
    filter_upwards [hI.eventually_nhds] with r h i j
    exact grad_symm (h.mono fun r hr => hM.g_r T P r hr) (fun i => hM.g_rr T P r h.self_of_nhds i) i j
  have sym3' : ∀ i j k, N.grrr T P (s.ph.conv.toR m) i j k = N.grrr T P (s.ph.conv.toR m) i k j := fun i =>
    grad_symm (f := fun r => N.gr T P r i) (f1 := fun r => N.grr T P r i) (hI.mono fun r hr => hM.g_rr T P r hr i)
      (fun j => hM.g_rrr T P _ hI.self_of_nhds i j)
  have sym3 : ∀ i j k, N.grrr T P (s.ph.conv.toR m) i j k = N.grrr T P (s.ph.conv.toR m) j i k := by
    intro i j k
    have h1 := hM.g_rrr T P _ hI.self_of_nhds i j
    have h2 := hM.g_rrr T P _ hI.self_of_nhds j i
    have e : (fun r => N.grr T P r i j) =ᶠ[𝓝 (s.ph.conv.toR m)] fun r => N.grr T P r j i := sym2.mono fun r h => h i j
    have h3 := HasFDerivAt.unique (h1.congr_of_eventuallyEq e.symm) h2
    have := congrArg (fun L : (Fin s.ph.nr → ℝ) →L[ℝ] ℝ => L (Pi.single k 1)) h3
    simpa [Pi.single_apply] using this
  have key := partial_hess s.ph.conv.toR m (N.gr T P) (N.grr T P) (N.grrr T P (s.ph.conv.toR m)) s.ph.conv.dm s.ph.conv.d2m
    (s.ph.conv.d3m m) (hC.first m h0) (hC.second m h0) (hC.third m h0) (fun i => hM.g_rr T P _ hI.self_of_nhds i)
    (fun i k => hM.g_rrr T P _ hI.self_of_nhds i k) j l q
  have r3 : ∀ i j k l, s.ph.conv.d3m m i j k l = s.ph.conv.d3m m i j l k := fun i j k l => by
    rw [d3m_lin hC h0, d3m_lin hC h0]; ring
  have e : third s T P m j q l = hess3 (N.gr T P (s.ph.conv.toR m)) (N.grr T P (s.ph.conv.toR m)) (N.grrr T P (s.ph.conv.toR m))
      (∑ i, m i) (s.ph.conv.dm m) (s.ph.conv.d2m m) (s.ph.conv.d3m m) j l q := by
    rw [← thirdOf_eq sym2.self_of_nhds sym3 sym3' (d2m_symm hC h0) r3]
    refine thirdOf_agree A (· ∈ s.on) (fun i hi => (on_gr s.ph.mix T P A _ hA hi).symm)
      (fun i hi j hj => (on_grr s.ph.mix T P A _ hA hi hj).symm) (fun i hi j hj k hk => ?_)
      (fun i hi j hj => flat1 s.ph.conv hC A (· ∈ s.on) hst g.face h0 hi hj)
      (fun i hi j hj k hk => flat2 s.ph.conv hC A (· ∈ s.on) hst g.face h0 hi hj hk)
      (fun i hi j hj k hk l hl => flat3 s.ph.conv hC A (· ∈ s.on) hst g.face h0 hi hj hk hl) hj hq hl
    have := on_vals s.ph.mix T P A (s.ph.conv.toR m) hA (fun v => v.grrr i j k)
    simpa [MixVal.cut, valOf, hi, hj, hk] using this.symm
  rw [e]
  unfold Partial at key ⊢
  refine key.congr_of_eventuallyEq ?_
  have hc : ContinuousAt (fun h => s.ph.conv.toR (bump m q h)) 0 :=
    continuousAt_pi.mpr fun i => (hC.first m h0 i q).continuousAt
  have hc' : Tendsto (fun h => s.ph.conv.toR (bump m q h)) (𝓝 0) (𝓝 (s.ph.conv.toR m)) := by
    have := hc.tendsto
    rwa [bump_zero] at this
  filter_upwards [hc'.eventually sym2, sum_near hC h0 q] with h hs hb
  have hf := bump_on g.face hq h
  have hA' := hst _ hf
  rw [← secondOf_eq hs (d2m_symm hC hb)]
  exact secondOf_agree A (· ∈ s.on) (fun i hi => (on_gr s.ph.mix T P A _ hA' hi).symm)
    (fun i hi j hj => (on_grr s.ph.mix T P A _ hA' hi hj).symm)
    (fun i hi j hj => flat1 s.ph.conv hC A (· ∈ s.on) hst hf hb hi hj)
    (fun i hi j hj k hk => flat2 s.ph.conv hC A (· ∈ s.on) hst hf hb hi hj hk) hl hj

end amounts

end

end Magma.Engine.SubO2
