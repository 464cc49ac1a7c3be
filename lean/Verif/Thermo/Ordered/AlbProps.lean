import Verif.Thermo.Ordered.Albite
import Verif.Thermo.OrderExist
import Verif.Thermo.StdState

/-!
The ordering contribution of albite: `albite()`, /repo/sources/albite.c 490-625, and with it the standard state
properties of albite and of soda melilite, which `gibbs()` builds from it.
-/

namespace Verif.Thermo.Ordering.Albite

open Finset Filter Topology
open Verif.Thermo.StdState (Std Consistent)

noncomputable section

/-- `order`, `dt` (albite.c 423-427). -/
def dt (y : Var 0 2 → ℝ) : Fin 2 → ℝ := solve (jets macros) y (macros y).d2gdsdt

/-- `order`, `dp` (albite.c 429-433). -/
def dp (y : Var 0 2 → ℝ) : Fin 2 → ℝ := solve (jets macros) y (macros y).d2gdsdp

/-- `order`, `dt2` (albite.c 435-450). -/
def dt2 (y : Var 0 2 → ℝ) : Fin 2 → ℝ := solve (jets macros) y fun j =>
  (macros y).d3gdsdt2 j + ∑ k, (2 * (macros y).d3gds2dt j k * dt y k
    + ∑ l, (macros y).d3gds3 j k l * dt y k * dt y l)

/-- `order`, `dtp` (albite.c 452-469). -/
def dtp (y : Var 0 2 → ℝ) : Fin 2 → ℝ := solve (jets macros) y fun j =>
  (macros y).d3gdsdtdp j + ∑ k, ((macros y).d3gds2dt j k * dp y k + (macros y).d3gds2dp j k * dt y k
    + ∑ l, (macros y).d3gds3 j k l * dt y k * dp y l)

/-- `order`, `dp2` (albite.c 471-486). -/
def dp2 (y : Var 0 2 → ℝ) : Fin 2 → ℝ := solve (jets macros) y fun j =>
  (macros y).d3gdsdp2 j + ∑ k, (2 * (macros y).d3gds2dp j k * dp y k
    + ∑ l, (macros y).d3gds3 j k l * dp y k * dp y l)

/-- `temp`, the second temperature derivative at equilibrium order (albite.c 533-538). -/
def temp (y : Var 0 2 → ℝ) : ℝ :=
  (macros y).d2gdt2 + ∑ i, (2 * (macros y).d2gdsdt i * dt y i + ∑ j, (macros y).d2gds2 i j * dt y i * dt y j)

/-- The eleven outputs of `albite` when the ordering state is not skipped, albite.c 522-623. -/
def values (y : Var 0 2 → ℝ) (t : ℝ) : Std where
  g := (macros y).g
  h := (macros y).g - t * (macros y).dgdt
  s := -(macros y).dgdt
  cp := temp y * -t
  dcpdt := -t * ((macros y).d3gdt3 + ∑ i, (3 * (macros y).d3gdsdt2 i * dt y i + 3 * (macros y).d2gdsdt i * dt2 y i
      + ∑ j, (3 * (macros y).d2gds2 i j * dt y i * dt2 y j + 3 * (macros y).d3gds2dt i j * dt y i * dt y j
        + ∑ k, (macros y).d3gds3 i j k * dt y i * dt y j * dt y k))) - temp y
  v := (macros y).dgdp
  dvdt := (macros y).d2gdtdp + ∑ i, ((macros y).d2gdsdt i * dp y i + (macros y).d2gdsdp i * dt y i
      + ∑ j, (macros y).d2gds2 i j * dt y i * dp y j)
  dvdp := (macros y).d2gdp2 + ∑ i, (2 * (macros y).d2gdsdp i * dp y i
      + ∑ j, (macros y).d2gds2 i j * dp y i * dp y j)
  d2vdt2 := (macros y).d3gdt2dp + ∑ i, ((macros y).d3gdsdt2 i * dp y i + 2 * (macros y).d2gdsdt i * dtp y i
      + (macros y).d2gdsdp i * dt2 y i + 2 * (macros y).d3gdsdtdp i * dt y i
      + ∑ j, (2 * (macros y).d3gds2dt i j * dt y i * dp y j + (macros y).d2gds2 i j * dt2 y i * dp y j
        + 2 * (macros y).d2gds2 i j * dt y i * dtp y j + (macros y).d3gds2dp i j * dt y i * dt y j
        + ∑ k, (macros y).d3gds3 i j k * dt y i * dt y j * dp y k))
  d2vdtdp := (macros y).d3gdtdp2 + ∑ i, (2 * (macros y).d3gdsdtdp i * dp y i + (macros y).d2gdsdt i * dp2 y i
      + 2 * (macros y).d2gdsdp i * dtp y i + (macros y).d3gdsdp2 i * dt y i
      + ∑ j, (2 * (macros y).d3gds2dp i j * dt y i * dp y j + (macros y).d2gds2 i j * dt y i * dp2 y j
        + 2 * (macros y).d2gds2 i j * dtp y i * dp y j + (macros y).d3gds2dt i j * dp y i * dp y j
        + ∑ k, (macros y).d3gds3 i j k * dt y i * dp y j * dp y k))
  d2vdp2 := (macros y).d3gdp3 + ∑ i, (3 * (macros y).d3gdsdp2 i * dp y i + 3 * (macros y).d2gdsdp i * dp2 y i
      + ∑ j, (3 * (macros y).d2gds2 i j * dp y i * dp2 y j + 3 * (macros y).d3gds2dp i j * dp y i * dp y j
        + ∑ k, (macros y).d3gds3 i j k * dp y i * dp y j * dp y k))

/-- `skip`, albite.c 509. -/
def skip (s : Fin 2 → ℝ) : Prop := |s 0| < √dblEps ∧ |s 1| < √dblEps

/-- `albite`, albite.c 490-625, with `X` the ordering state found by `order`. -/
def albite (X : (Ext 0 → ℝ) → Fin 2 → ℝ) (t p : ℝ) : Std := by
  classical
  exact if skip (X (env ![] t p)) then ⟨0, 0, 0, 0, 0, 0, 0, 0, 0, 0, 0⟩ else values (pt X (env ![] t p)) t

/-! ### The sums of the code are the derivatives along the equilibrium state -/

section
variable (y : Var 0 2 → ℝ)

lemma dt_eq : dt y = dS (jets macros) y iT := rfl
lemma dp_eq : dp y = dS (jets macros) y iP := rfl

lemma dt2_eq : dt2 y = d2S (jets macros) y iT iT := by
  unfold dt2 d2S
  rw [dt_eq]
  congr 1; funext k
  change (macros y).d3gdsdt2 k + _ = (macros y).d3gdsdt2 k + ∑ l, ((macros y).d3gds2dt k l * _
    + (macros y).d3gds2dt k l * _ + ∑ m, (macros y).d3gds3 k l m * _ * _)
  simp only [Fin.sum_univ_two]; ring

lemma dtp_eq : dtp y = d2S (jets macros) y iT iP := by
  unfold dtp d2S
  rw [dt_eq, dp_eq]
  rfl

lemma dp2_eq : dp2 y = d2S (jets macros) y iP iP := by
  unfold dp2 d2S
  rw [dp_eq]
  congr 1; funext k
  change (macros y).d3gdsdp2 k + _ = (macros y).d3gdsdp2 k + ∑ l, ((macros y).d3gds2dp k l * _
    + (macros y).d3gds2dp k l * _ + ∑ m, (macros y).d3gds3 k l m * _ * _)
  simp only [Fin.sum_univ_two]; ring

lemma temp_eq : temp y = r2 (jets macros) y iT iT := by
  unfold temp r2
  rw [dt_eq]
  change (macros y).d2gdt2 + _ = (macros y).d2gdt2 + ∑ k, ((macros y).d2gdsdt k * _ + (macros y).d2gdsdt k * _
    + ∑ l, (macros y).d2gds2 k l * _ * _)
  simp only [Fin.sum_univ_two]; ring

lemma dvdt_eq (t : ℝ) : (values y t).dvdt = r2 (jets macros) y iT iP := by
  simp only [values]
  unfold r2
  rw [dt_eq, dp_eq]
  rfl

lemma dvdp_eq (t : ℝ) : (values y t).dvdp = r2 (jets macros) y iP iP := by
  simp only [values]
  unfold r2
  rw [dp_eq]
  change (macros y).d2gdp2 + _ = (macros y).d2gdp2 + ∑ k, ((macros y).d2gdsdp k * _ + (macros y).d2gdsdp k * _
    + ∑ l, (macros y).d2gds2 k l * _ * _)
  simp only [Fin.sum_univ_two]; ring

/-- Symmetry of the arrays that albite.c fills. -/
lemma sy : (macros y).Symm := symm _ y

/-- The third derivatives written with the arrays. -/
lemma r3_arrays (i j m : Ext 0) (d3 : ℝ) (h3 : (macros y).at3 (.inl i) (.inl j) (.inl m) = d3) :
    r3 (jets macros) y i j m = d3
      + ∑ k, ((macros y).at3 (.inr k) (.inl i) (.inl j) * dS (jets macros) y m k
      + (macros y).at3 (.inr k) (.inl i) (.inl m) * dS (jets macros) y j k
      + (macros y).at3 (.inr k) (.inl j) (.inl m) * dS (jets macros) y i k
      + (macros y).at2 (.inr k) (.inl i) * d2S (jets macros) y j m k
      + (macros y).at2 (.inr k) (.inl j) * d2S (jets macros) y i m k
      + (macros y).at2 (.inr k) (.inl m) * d2S (jets macros) y i j k
    + ∑ l, ((macros y).d2gds2 k l * dS (jets macros) y i k * d2S (jets macros) y j m l
        + (macros y).d2gds2 k l * dS (jets macros) y j k * d2S (jets macros) y i m l
        + (macros y).d2gds2 k l * dS (jets macros) y m k * d2S (jets macros) y i j l
        + (macros y).at3 (.inr k) (.inr l) (.inl i) * dS (jets macros) y j k * dS (jets macros) y m l
        + (macros y).at3 (.inr k) (.inr l) (.inl j) * dS (jets macros) y i k * dS (jets macros) y m l
        + (macros y).at3 (.inr k) (.inr l) (.inl m) * dS (jets macros) y i k * dS (jets macros) y j l
      + ∑ n, (macros y).d3gds3 k l n * dS (jets macros) y i k * dS (jets macros) y j l * dS (jets macros) y m n)) := by
  rw [← h3]; rfl

lemma dcpdt_eq (t : ℝ) :
    (values y t).dcpdt = -t * r3 (jets macros) y iT iT iT - r2 (jets macros) y iT iT := by
  rw [r3_arrays y iT iT iT _ rfl, ← temp_eq, ← dt2_eq, ← dt_eq]
  simp only [values, Tables.at3, Tables.at2, tp3, Matrix.cons_val_zero]
  simp only [Fin.sum_univ_two]; ring

lemma d2vdt2_eq (t : ℝ) : (values y t).d2vdt2 = r3 (jets macros) y iT iT iP := by
  rw [r3_arrays y iT iT iP _ rfl, ← dt2_eq, ← dtp_eq, ← dt_eq, ← dp_eq]
  have h1 := (sy y).ss 0 1
  have h2 := (sy y).sst 0 1
  have h3 := (sy y).ssp 0 1
  have h4 := (sy y).sss 0 0 1
  have h5 := (sy y).sss 0 1 0
  have h6 := (sy y).sss 0 1 1
  have h7 := (sy y).sss 1 0 1
  simp only [values, Tables.at3, Tables.at2, tp3, Matrix.cons_val_zero, Matrix.cons_val_one]
  simp only [Fin.sum_univ_two, h1, h2, h3]; ring

lemma d2vdtdp_eq (t : ℝ) : (values y t).d2vdtdp = r3 (jets macros) y iT iP iP := by
  rw [r3_arrays y iT iP iP _ rfl, ← dp2_eq, ← dtp_eq, ← dt_eq, ← dp_eq]
  have h1 := (sy y).ss 0 1
  have h2 := (sy y).sst 0 1
  have h3 := (sy y).ssp 0 1
  simp only [values, Tables.at3, Tables.at2, tp3, Matrix.cons_val_zero, Matrix.cons_val_one]
  simp only [Fin.sum_univ_two, h1, h2, h3]; ring

lemma d2vdp2_eq (t : ℝ) : (values y t).d2vdp2 = r3 (jets macros) y iP iP iP := by
  rw [r3_arrays y iP iP iP _ rfl, ← dp2_eq, ← dp_eq]
  simp only [values, Tables.at3, Tables.at2, tp3, Matrix.cons_val_zero, Matrix.cons_val_one]
  simp only [Fin.sum_univ_two]; ring

end

/-- Away from the point where the code starts to skip the ordering contribution. -/
def NotAtSkip (s : Fin 2 → ℝ) : Prop := skip s ∨ √dblEps < |s 0| ∨ √dblEps < |s 1|

lemma env_line_t (p : ℝ) : Continuous fun t : ℝ => (env ![] t p : Ext 0 → ℝ) := by
  refine continuous_pi fun b => ?_
  rcases b with i | k
  · exact i.elim0
  · fin_cases k
    · exact continuous_id
    · exact continuous_const

lemma env_line_p (t : ℝ) : Continuous fun p : ℝ => (env ![] t p : Ext 0 → ℝ) := by
  refine continuous_pi fun b => ?_
  rcases b with i | k
  · exact i.elim0
  · fin_cases k
    · exact continuous_const
    · exact continuous_id

lemma consistent_congr {F F' : ℝ → ℝ → Std} {t p : ℝ} (ht : ∀ᶠ t' in 𝓝 t, F t' p = F' t' p)
    (hp : ∀ᶠ p' in 𝓝 p, F t p' = F' t p') (h : Consistent F' t p) : Consistent F t p := by
  have h0 : F t p = F' t p := ht.self_of_nhds
  refine ⟨by rw [h0]; exact h.gibbs, ?_, ?_, ?_, ?_, ?_, ?_, ?_, ?_, ?_, ?_, ?_, ?_⟩ <;> rw [h0]
  · exact h.entropy.congr_of_eventuallyEq (ht.mono fun _ e => by beta_reduce; rw [e])
  · exact h.volume.congr_of_eventuallyEq (hp.mono fun _ e => by beta_reduce; rw [e])
  · exact h.heat.congr_of_eventuallyEq (ht.mono fun _ e => by beta_reduce; rw [e])
  · exact h.heatS.congr_of_eventuallyEq (ht.mono fun _ e => by beta_reduce; rw [e])
  · exact h.maxwell.congr_of_eventuallyEq (hp.mono fun _ e => by beta_reduce; rw [e])
  · exact h.dcpdt.congr_of_eventuallyEq (ht.mono fun _ e => by beta_reduce; rw [e])
  · exact h.dvdt.congr_of_eventuallyEq (ht.mono fun _ e => by beta_reduce; rw [e])
  · exact h.dvdp.congr_of_eventuallyEq (hp.mono fun _ e => by beta_reduce; rw [e])
  · exact h.d2vdt2.congr_of_eventuallyEq (ht.mono fun _ e => by beta_reduce; rw [e])
  · exact h.d2vdp2.congr_of_eventuallyEq (hp.mono fun _ e => by beta_reduce; rw [e])
  · exact h.d2vdtdp.congr_of_eventuallyEq (hp.mono fun _ e => by beta_reduce; rw [e])
  · exact h.d2vdpdt.congr_of_eventuallyEq (ht.mono fun _ e => by beta_reduce; rw [e])

lemma consistent_zero (t p : ℝ) : Consistent (fun _ _ => (⟨0, 0, 0, 0, 0, 0, 0, 0, 0, 0, 0⟩ : Std)) t p := by
  constructor <;> simp <;> exact hasDerivAt_const _ _

/-- The unskipped outputs are consistent wherever the ordering state is a smooth equilibrium. -/
lemma values_consistent {X : (Ext 0 → ℝ) → Fin 2 → ℝ} {U : Set (Ext 0 → ℝ)} (h : Solved (jets macros) Dom X U)
    {t p : ℝ} (ht : t ≠ 0) (hu : env ![] t p ∈ U) :
    Consistent (fun t p => values (pt X (env ![] t p)) t) t p := by
  have hJ := ok
  have h0 := grad_r0 hJ h hu
  have h1 := fun i => grad_r1 hJ h hu i
  have h2 := fun i j => grad_r2 hJ h hu i j
  have hD := h.dom _ hu
  have s2 := r2_symm hJ hD
  have s1 : ∀ i j m, _ = _ := r3_symm12 hJ h hu
  have s3 : ∀ i j m, r3 (jets macros) (pt X (env ![] t p)) i j m = r3 (jets macros) (pt X (env ![] t p)) i m j :=
    fun i j m => r3_symm23 hJ hD i j m (d2S_symm hJ hD)
  have hg : ∀ t p, (macros (pt X (env ![] t p))).g = (jets macros).g (pt X (env ![] t p)) := fun _ _ => rfl
  have hdt : ∀ t p, (macros (pt X (env ![] t p))).dgdt = r1 (jets macros) (pt X (env ![] t p)) iT := fun _ _ => rfl
  have hdp : ∀ t p, (macros (pt X (env ![] t p))).dgdp = r1 (jets macros) (pt X (env ![] t p)) iP := fun _ _ => rfl
  have eg : ∀ t p, (values (pt X (env ![] t p)) t).g = (jets macros).g (pt X (env ![] t p)) := fun _ _ => rfl
  have es : ∀ t p, (values (pt X (env ![] t p)) t).s = -r1 (jets macros) (pt X (env ![] t p)) iT := fun _ _ => rfl
  have ev : ∀ t p, (values (pt X (env ![] t p)) t).v = r1 (jets macros) (pt X (env ![] t p)) iP := fun _ _ => rfl
  have eh : ∀ t p, (values (pt X (env ![] t p)) t).h
      = (jets macros).g (pt X (env ![] t p)) - t * r1 (jets macros) (pt X (env ![] t p)) iT := fun _ _ => rfl
  have ecp : ∀ t p, (values (pt X (env ![] t p)) t).cp = r2 (jets macros) (pt X (env ![] t p)) iT iT * -t := by
    intro t p; rw [← temp_eq]; rfl
  constructor
  · simp only [eg, eh, es]; ring
  · simp only [eg, es, neg_neg]; exact line_t h0
  · simp only [eg, ev]; exact line_p h0
  · simp only [eh, ecp]
    refine ((line_t h0).sub ((hasDerivAt_id' t).mul (line_t (h1 iT)))).congr_deriv ?_
    ring
  · simp only [es, ecp]
    refine (line_t (h1 iT)).neg.congr_deriv ?_
    field_simp
  · simp only [es, dvdt_eq]
    exact (line_p (h1 iT)).neg
  · simp only [ecp, dcpdt_eq]
    refine ((line_t (h2 iT iT)).mul (hasDerivAt_id' t).fun_neg).congr_deriv ?_
    ring
  · simp only [ev, dvdt_eq]
    rw [s2]
    exact line_t (h1 iP)
  · simp only [ev, dvdp_eq]
    exact line_p (h1 iP)
  · simp only [dvdt_eq, d2vdt2_eq]
    rw [s3]
    exact line_t (h2 iT iP)
  · simp only [dvdp_eq, d2vdp2_eq]
    exact line_p (h2 iP iP)
  · simp only [dvdt_eq, d2vdtdp_eq]
    exact line_p (h2 iT iP)
  · simp only [dvdp_eq, d2vdtdp_eq]
    rw [s1, s3]
    exact line_t (h2 iP iP)

/-- **C60.** Albite: the eleven quantities of its ordering contribution are consistent, wherever the ordering state
found is a smooth equilibrium and not just at the size at which the code starts to ignore it. -/
theorem C60_albite {X : (Ext 0 → ℝ) → Fin 2 → ℝ} {U : Set (Ext 0 → ℝ)} (h : Solved (jets macros) Dom X U)
    {t p : ℝ} (ht : t ≠ 0) (hu : env ![] t p ∈ U) (hs : NotAtSkip (X (env ![] t p))) :
    Consistent (albite X) t p := by
  have hcX := h.cont _ hu
  have ct : Tendsto (fun t' => X (env ![] t' p)) (𝓝 t) (𝓝 (X (env ![] t p))) :=
    ContinuousAt.comp (f := fun t' => (env ![] t' p : Ext 0 → ℝ)) hcX (env_line_t p).continuousAt
  have cp : Tendsto (fun p' => X (env ![] t p')) (𝓝 p) (𝓝 (X (env ![] t p))) :=
    ContinuousAt.comp (f := fun p' => (env ![] t p' : Ext 0 → ℝ)) hcX (env_line_p t).continuousAt
  have ca : ∀ k, Continuous fun s : Fin 2 → ℝ => |s k| := fun k => (continuous_apply k).abs
  rcases hs with hs | hs
  · have ho : ∀ᶠ s in 𝓝 (X (env ![] t p)), skip s :=
      ((isOpen_lt (ca 0) continuous_const).inter (isOpen_lt (ca 1) continuous_const)).mem_nhds hs
    refine consistent_congr ?_ ?_ (consistent_zero t p)
    · filter_upwards [ct.eventually ho] with t' h'; unfold albite; rw [if_pos h']
    · filter_upwards [cp.eventually ho] with p' h'; unfold albite; rw [if_pos h']
  · have ho : ∀ᶠ s in 𝓝 (X (env ![] t p)), ¬ skip s := by
      have h1 : ∀ᶠ s : Fin 2 → ℝ in 𝓝 (X (env ![] t p)), √dblEps < |s 0| ∨ √dblEps < |s 1| :=
        ((isOpen_lt continuous_const (ca 0)).union (isOpen_lt continuous_const (ca 1))).mem_nhds hs
      filter_upwards [h1] with s h2 h3
      rcases h2 with h2 | h2
      · exact lt_asymm h2 h3.1
      · exact lt_asymm h2 h3.2
    refine consistent_congr ?_ ?_ (values_consistent h ht hu)
    · filter_upwards [ct.eventually ho] with t' h'; unfold albite; rw [if_neg h']
    · filter_upwards [cp.eventually ho] with p' h'; unfold albite; rw [if_neg h']

open Verif.Thermo.StdState in
/-- **C60.** Every named solid of the general branch of `gibbs()`, with the albite term computed by `albite()`,
reports consistent properties. -/
theorem C60_named_solid_albite (V : Solver) {X : (Ext 0 → ℝ) → Fin 2 → ℝ} {U : Set (Ext 0 → ℝ)}
    (h : Solved (jets macros) Dom X U) (name : String) (r : Ref) {t p : ℝ} (ht : 0 < t) (hu : env ![] t p ∈ U)
    (hs : NotAtSkip (X (env ![] t p))) (hT : NotAtTransition r t) (hVr : SolverOk r V t p)
    (hVn : name = "vc-nepheline" ∨ name = "ca-nepheline" → SolverOk (naNepheline 0) V t p)
    (hsw : t ∉ switches name) : Consistent (gibbsSolid V (albite X) name r) t p :=
  C60_named_solid V (albite X) name r ht hT hVr hVn (fun _ => C60_albite h ht.ne' hu hs) hsw

/-! ### The hypotheses are met -/

lemma g2_ss (y : Var 0 2 → ℝ) (k l : Fin 2) : (jets macros).g2 y (.inr k) (.inr l) = (macros y).d2gds2 k l := rfl

/-- An equilibrium ordering state of albite at 1000 K and 1 bar, with both parameters well away from zero. -/
lemma ordered_point : ∃ s : Fin 2 → ℝ, 57 / 100 ≤ s 0 ∧ s 0 ≤ 58 / 100 ∧
    (∀ k, (jets macros).g1 (join (env ![] 1000 1, s)) (.inr k) = 0) ∧
    (negHess (jets macros) (join (env ![] 1000 1, s))).det ≠ 0 := by
  set D : ℝ := -2505171 / 1000 with hD
  set z : ℝ → ℝ := fun x => -(5479 / 1000 * (1000 - 1251) * x + 6854 * x ^ 3) / D with hz
  set f : ℝ → ℝ := fun x => 4162 / 100 * (1000 - 8241 / 10) * z x + -9301 * z x ^ 3 + 43600 * z x ^ 5 + D * x
    with hf
  have hfc : ContinuousOn f (Set.Icc (57 / 100) (58 / 100)) := by
    refine Continuous.continuousOn ?_
    simp only [hf, hz]; fun_prop
  have h1 : f (57 / 100) ≤ 0 := by simp only [hf, hz, hD]; norm_num
  have h2 : 0 ≤ f (58 / 100) := by simp only [hf, hz, hD]; norm_num
  obtain ⟨x, hx, hfx⟩ := intermediate_value_Icc (by norm_num) hfc (show (0 : ℝ) ∈ Set.Icc _ _ from ⟨h1, h2⟩)
  refine ⟨![x, z x], hx.1, hx.2, ?_, ?_⟩
  · intro k
    fin_cases k
    · change DGDS0 1000 1 x (z x) = 0
      unfold DGDS0
      simp only [hz, hD, a0, tc, b, d0, d1, d2, d3]
      ring
    · change DGDS1 1000 1 x (z x) = 0
      unfold DGDS1
      rw [← hfx]
      simp only [hf, hD, aod0, tod, bod, cod, d0, d1, d2, d3]
      ring
  · rw [Matrix.det_fin_two]
    simp only [negHess, Matrix.of_apply, g2_ss]
    change -(D2GDS0S0 1000 1 x) * -(D2GDS1S1 1000 1 (z x)) - -(D2GDS0S1 1000 1) * -(D2GDS0S1 1000 1) ≠ 0
    have e0 : D2GDS0S1 1000 1 = D := by
      unfold D2GDS0S1
      simp only [hD, d0, d1, d2, d3]
      norm_num
    have hz0 : 0 ≤ z x ∧ z x ≤ 23 / 100 := by
      have hx1 := hx.1
      have hx2 := hx.2
      have e : z x = (6854 * x ^ 3 - 5479 / 1000 * 251 * x) * (1000 / 2505171) := by
        simp only [hz, hD]; ring
      have hx3 : (57 / 100) ^ 3 ≤ x ^ 3 := pow_le_pow_left₀ (by norm_num) hx1 3
      have hx4 : x ^ 3 ≤ (58 / 100) ^ 3 := pow_le_pow_left₀ (by linarith) hx2 3
      rw [e]
      constructor <;> norm_num at hx3 hx4 ⊢ <;> nlinarith
    have b0 : 5000 ≤ D2GDS0S0 1000 1 x := by
      unfold D2GDS0S0
      simp only [a0, tc, b]
      nlinarith [hx.1, hx.2]
    have b1 : 5000 ≤ D2GDS1S1 1000 1 (z x) := by
      unfold D2GDS1S1
      simp only [aod0, tod, bod, cod]
      have : z x * z x ≤ 23 / 100 * (23 / 100) := mul_le_mul hz0.2 hz0.2 hz0.1 (by norm_num)
      have : 0 ≤ z x * z x * z x * z x := by have := hz0.1; positivity
      nlinarith
    rw [e0]
    have : (5000 : ℝ) * 5000 ≤ D2GDS0S0 1000 1 x * D2GDS1S1 1000 1 (z x) :=
      mul_le_mul b0 b1 (by norm_num) (by linarith)
    have hDD : D * D < 5000 * 5000 := by simp only [hD]; norm_num
    intro h
    nlinarith

/-- Around 1000 K and 1 bar there is an equilibrium ordering state to which the theorem applies. -/
example : ∃ X U, Solved (jets macros) Dom X U ∧ env ![] 1000 1 ∈ U ∧ NotAtSkip (X (env ![] 1000 1)) ∧
    ¬ skip (X (env ![] 1000 1)) := by
  obtain ⟨s, h1, h2, h3, h4⟩ := ordered_point
  obtain ⟨X, U, hu, hX, hs⟩ := solved_near (s := s) ok dom_open trivial h3 h4
  have he : √dblEps < |s 0| := by
    rw [abs_of_nonneg (by linarith)]
    refine lt_of_lt_of_le ?_ h1
    rw [Real.sqrt_lt' (by norm_num)]
    unfold dblEps
    rw [zpow_neg]
    norm_num
  refine ⟨X, U, hs, hu, Or.inr (Or.inl ?_), fun hk => ?_⟩
  · rw [hX]; exact he
  · rw [hX] at hk; exact lt_asymm he hk.1

end

end Verif.Thermo.Ordering.Albite
