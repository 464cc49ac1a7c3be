import Verif.Thermo.OrderTables
import Verif.Thermo.StdState

/-!
Phases with ordering whose end members order by themselves (spinel.c, rhombohedral.c, ortho-oxide.c, melilite.c,
orthopyroxene.c, clinopyroxene.c). `pureOrder` finds the ordering state of every pure end member, `pure*` the energies and
their derivatives at that state, and the mixing functions subtract them, weighted with the composition (`ENDMEMBERS`,
`DENDDR0`, …).
-/

namespace Verif.Thermo.Ordering

open Finset Filter Topology
open Magma.Thermo.Mixing Magma.Thermo.Extensive
open Verif.Thermo.StdState (Std Consistent)

noncomputable section

/-- `pure*` for one end member, as written in spinel.c 1160-1440 (masks THIRD to THIRTEENTH): `J` are its macros (`SP_G,
DSP_GDS0, …`), `E` its macro `SP_S`, `X` its ordering state (`pureOrder`, spinel.c 880-1011). The entries for the ordering
parameters of the other end members are zero (spinel.c 1022-1158) and left out. -/
def pureStd {ns : ℕ} (J : Jets (Ext 0) (Fin ns)) (E : (Ext 0 ⊕ Fin ns → ℝ) → ℝ) (X : (Ext 0 → ℝ) → Fin ns → ℝ) (t p : ℝ) :
    Std where
  g := J.g (pt X (env ![] t p))
  h := J.g (pt X (env ![] t p)) + t * E (pt X (env ![] t p))
  s := E (pt X (env ![] t p))
  v := J.g1 (pt X (env ![] t p)) (.inl iP)
  cp := r2 J (pt X (env ![] t p)) iT iT * -t
  dcpdt := -t * r3 J (pt X (env ![] t p)) iT iT iT - r2 J (pt X (env ![] t p)) iT iT
  dvdt := r2 J (pt X (env ![] t p)) iT iP
  dvdp := r2 J (pt X (env ![] t p)) iP iP
  d2vdt2 := r3 J (pt X (env ![] t p)) iT iT iP
  d2vdp2 := r3 J (pt X (env ![] t p)) iP iP iP
  d2vdtdp := r3 J (pt X (env ![] t p)) iT iP iP

/-- An end member whose cations have no choice (`CR_H, CR_S`, spinel.c 790-823): enthalpy and entropy are constants. -/
def fixedStd (H S t _p : ℝ) : Std where
  g := H - t * S
  h := H - t * S + t * S
  s := S
  v := 0
  cp := 0
  dcpdt := 0
  dvdt := 0
  dvdp := 0
  d2vdt2 := 0
  d2vdp2 := 0
  d2vdtdp := 0

/-- With one ordering parameter the linear system of `pureOrder` is a division (spinel.c 956, 965: `- d2gdsdt[i]/d2gds2[i]`). -/
theorem solve_one (J : Jets (Ext 0) (Fin 1)) (x : Ext 0 ⊕ Fin 1 → ℝ) (b : Fin 1 → ℝ) :
    solve J x b 0 = -b 0 / J.g2 x (.inr 0) (.inr 0) := by
  unfold solve
  rw [Matrix.inv_def, Matrix.adjugate_fin_one, Matrix.det_fin_one]
  simp [negHess, Matrix.mulVec, dotProduct]
  rw [div_eq_mul_inv]; ring

/-- The reported properties of a pure end member are consistent wherever its ordering state is a smooth equilibrium. -/
theorem pureStd_consistent {ns : ℕ} {J : Jets (Ext 0) (Fin ns)} {D : (Ext 0 ⊕ Fin ns → ℝ) → Prop}
    {E : (Ext 0 ⊕ Fin ns → ℝ) → ℝ} {X : (Ext 0 → ℝ) → Fin ns → ℝ} {U : Set (Ext 0 → ℝ)} (hJ : J.Ok D)
    (hE : ∀ x, D x → J.g1 x (.inl iT) = -E x) (h : Solved J D X U) {t p : ℝ} (ht : t ≠ 0) (hu : env ![] t p ∈ U) :
    Consistent (pureStd J E X) t p := by
  have h0 := grad_r0 hJ h hu
  have h1 := fun i => grad_r1 hJ h hu i
  have h2 := fun i j => grad_r2 hJ h hu i j
  have hD := h.dom _ hu
  have s2 := r2_symm hJ hD
  have s1 : ∀ i j m, _ = _ := r3_symm12 hJ h hu
  have s3 : ∀ i j m, r3 J (pt X (env ![] t p)) i j m = r3 J (pt X (env ![] t p)) i m j :=
    fun i j m => r3_symm23 hJ hD i j m (d2S_symm hJ hD)
  have hM := C24_ordering hJ hE h
  have hEt : HasDerivAt (fun t => E (pt X (env ![] t p))) (-r2 J (pt X (env ![] t p)) iT iT) t := by
    refine (line_t (h1 iT)).neg.congr_of_eventuallyEq ?_
    have hc : Tendsto (fun t : ℝ => (env ![] t p : Ext 0 → ℝ)) (𝓝 t) (𝓝 (env ![] t p)) := by
      refine Continuous.tendsto (continuous_pi fun i => ?_) t
      rcases i with i | i
      · exact i.elim0
      · fin_cases i
        · exact continuous_id
        · exact continuous_const
    filter_upwards [hc (h.isOpen.mem_nhds hu)] with t' h'
    have := hE _ (h.dom _ h')
    change _ = -J.g1 _ _
    linarith
  have hEp : HasDerivAt (fun p => E (pt X (env ![] t p))) (-r2 J (pt X (env ![] t p)) iT iP) p := by
    refine (line_p (h1 iT)).neg.congr_of_eventuallyEq ?_
    have hc : Tendsto (fun p : ℝ => (env ![] t p : Ext 0 → ℝ)) (𝓝 p) (𝓝 (env ![] t p)) := by
      refine Continuous.tendsto (continuous_pi fun i => ?_) p
      rcases i with i | i
      · exact i.elim0
      · fin_cases i
        · exact continuous_const
        · exact continuous_id
    filter_upwards [hc (h.isOpen.mem_nhds hu)] with p' h'
    have := hE _ (h.dom _ h')
    change _ = -J.g1 _ _
    linarith
  constructor
  · simp only [pureStd]; ring
  · exact hM.g_t t p ![] hu
  · exact hM.g_p t p ![] hu
  · exact hM.h_t t p ![] hu
  · refine hEt.congr_deriv ?_
    simp only [pureStd]; field_simp
  · exact hEp
  · exact hM.cp_t t p ![] hu
  · exact hM.v_t t p ![] hu
  · exact hM.v_p t p ![] hu
  · exact hM.v_tt t p ![] hu
  · exact hM.v_pp t p ![] hu
  · exact hM.v_tp t p ![] hu
  · simp only [pureStd]
    rw [s1, s3]
    exact line_t (h2 iP iP)

theorem fixedStd_consistent (H S t p : ℝ) : Consistent (fixedStd H S) t p := by
  constructor <;> simp only [fixedStd, zero_div, neg_zero]
  any_goals exact hasDerivAt_const _ _
  · ring
  · refine (((hasDerivAt_id' t).mul_const S).const_sub H).congr_deriv (by ring)
  · refine HasDerivAt.congr_deriv (((((hasDerivAt_id' t).mul_const S).const_sub H)).add ((hasDerivAt_id' t).mul_const S)) (by ring)

/-- The mixing functions of spinel.c 3150-3910: the properties `M` of the solution less those of the end members `P`
(`ENDMEMBERS`, spinel.c 1563-1564, weights `w`) and the composition derivatives less `DENDDR0`, … (spinel.c 1566-1569, `d`). The
second composition derivatives of the end-member part are zero and nothing is subtracted there. -/
def lessEnds {nr na : ℕ} (M : Mix nr) (w : (Fin nr → ℝ) → Fin na → ℝ) (d : Fin nr → Fin na → ℝ)
    (P : Fin na → ℝ → ℝ → Std) : Mix nr where
  g t p r := M.g t p r - ∑ a, w r a * (P a t p).g
  gr t p r i := M.gr t p r i - ∑ a, d i a * (P a t p).g
  grr := M.grr
  grrr := M.grrr
  h t p r := M.h t p r - ∑ a, w r a * (P a t p).h
  s t p r := M.s t p r - ∑ a, w r a * (P a t p).s
  sr t p r i := M.sr t p r i - ∑ a, d i a * (P a t p).s
  srr := M.srr
  cp t p r := M.cp t p r - ∑ a, w r a * (P a t p).cp
  cpt t p r := M.cpt t p r - ∑ a, w r a * (P a t p).dcpdt
  cpr t p r i := M.cpr t p r i - ∑ a, d i a * (P a t p).cp
  v t p r := M.v t p r - ∑ a, w r a * (P a t p).v
  vr t p r i := M.vr t p r i - ∑ a, d i a * (P a t p).v
  vrr := M.vrr
  vt t p r := M.vt t p r - ∑ a, w r a * (P a t p).dvdt
  vp t p r := M.vp t p r - ∑ a, w r a * (P a t p).dvdp
  vtt t p r := M.vtt t p r - ∑ a, w r a * (P a t p).d2vdt2
  vtp t p r := M.vtp t p r - ∑ a, w r a * (P a t p).d2vdtdp
  vpp t p r := M.vpp t p r - ∑ a, w r a * (P a t p).d2vdp2
  vrt t p r i := M.vrt t p r i - ∑ a, d i a * (P a t p).dvdt
  vrp t p r i := M.vrp t p r i - ∑ a, d i a * (P a t p).dvdp
  fx := M.fx

section
variable {nr na : ℕ} {w : (Fin nr → ℝ) → Fin na → ℝ} {d : Fin nr → Fin na → ℝ}

lemma grad_w {w0 : Fin na → ℝ} (hw : ∀ r a, w r a = w0 a + ∑ j, d j a * r j) (r : Fin nr → ℝ) (q : Fin na → ℝ) :
    Grad (fun r => ∑ a, w r a * q a) r (fun i => ∑ a, d i a * q a) := by
  have e : (fun r : Fin nr → ℝ => ∑ a, w r a * q a) =
      fun r => ∑ a, w0 a * q a + (∑ i, (∑ a, d i a * q a) • (ContinuousLinearMap.proj i : (Fin nr → ℝ) →L[ℝ] ℝ)) r := by
    funext r
    simp only [hw, add_mul, Finset.sum_add_distrib, _root_.sum_apply, _root_.smul_apply,
      ContinuousLinearMap.proj_apply, smul_eq_mul, Finset.sum_mul]
    rw [Finset.sum_comm]
    congr 1
    exact Finset.sum_congr rfl fun _ _ => Finset.sum_congr rfl fun _ _ => by ring
  unfold Grad
  rw [e]
  exact (ContinuousLinearMap.hasFDerivAt _).const_add _

lemma grad_sub {f g : (Fin nr → ℝ) → ℝ} {r a b : Fin nr → ℝ} (hf : Grad f r a) (hg : Grad g r b) :
    Grad (fun r => f r - g r) r (fun i => a i - b i) := by
  unfold Grad at *
  refine (hf.sub hg).congr_fderiv ?_
  rw [← Finset.sum_sub_distrib]
  exact Finset.sum_congr rfl fun i _ => (sub_smul _ _ _).symm

lemma grad_sub_const {f : (Fin nr → ℝ) → ℝ} {r a : Fin nr → ℝ} (hf : Grad f r a) (c : ℝ) :
    Grad (fun r => f r - c) r a := by
  unfold Grad at *
  exact hf.sub_const c

lemma deriv_less {f : ℝ → ℝ} {f' x : ℝ} (hf : HasDerivAt f f' x) {q : Fin na → ℝ → ℝ} {q' : Fin na → ℝ}
    (hq : ∀ a, HasDerivAt (q a) (q' a) x) (c : Fin na → ℝ) :
    HasDerivAt (fun x => f x - ∑ a, c a * q a x) (f' - ∑ a, c a * q' a) x :=
  hf.fun_sub (HasDerivAt.fun_sum fun a _ => (hq a).const_mul (c a))

/-- **C24.** Subtracting consistent end members with weights linear in the composition keeps every relation. -/
theorem C24_less_ends {M : Mix nr} {I : ℝ → ℝ → (Fin nr → ℝ) → Prop} (hM : ConsistentOn M I) {P : Fin na → ℝ → ℝ → Std}
    {Q : ℝ → ℝ → Prop} (hP : ∀ t p, Q t p → ∀ a, Consistent (P a) t p) {w0 : Fin na → ℝ}
    (hw : ∀ r a, w r a = w0 a + ∑ j, d j a * r j) :
    ConsistentOn (lessEnds M w d P) fun t p r => I t p r ∧ Q t p where
  g_r t p r h := grad_sub (hM.g_r t p r h.1) (grad_w hw r _)
  g_rr t p r h i := grad_sub_const (hM.g_rr t p r h.1 i) _
  g_rrr t p r h := hM.g_rrr t p r h.1
  g_t t p r h := (deriv_less (hM.g_t t p r h.1) (fun a => (hP t p h.2 a).entropy) _).congr_deriv (by
    simp only [lessEnds, mul_neg, Finset.sum_neg_distrib]; ring)
  h_eq t p r h := by
    simp only [lessEnds, hM.h_eq t p r h.1, mul_sub, Finset.mul_sum]
    have e : ∀ a, w r a * (P a t p).h = w r a * (P a t p).g + t * (w r a * (P a t p).s) := fun a => by
      rw [(hP t p h.2 a).gibbs]; ring
    simp only [e, Finset.sum_add_distrib]; ring
  s_r t p r h := grad_sub (hM.s_r t p r h.1) (grad_w hw r _)
  s_rr t p r h i := grad_sub_const (hM.s_rr t p r h.1 i) _
  h_t t p r h := deriv_less (hM.h_t t p r h.1) (fun a => (hP t p h.2 a).heat) _
  cp_t t p r h := deriv_less (hM.cp_t t p r h.1) (fun a => (hP t p h.2 a).dcpdt) _
  cp_r t p r h := grad_sub (hM.cp_r t p r h.1) (grad_w hw r _)
  g_p t p r h := deriv_less (hM.g_p t p r h.1) (fun a => (hP t p h.2 a).volume) _
  v_r t p r h := grad_sub (hM.v_r t p r h.1) (grad_w hw r _)
  v_rr t p r h i := grad_sub_const (hM.v_rr t p r h.1 i) _
  v_t t p r h := deriv_less (hM.v_t t p r h.1) (fun a => (hP t p h.2 a).dvdt) _
  v_p t p r h := deriv_less (hM.v_p t p r h.1) (fun a => (hP t p h.2 a).dvdp) _
  v_tt t p r h := deriv_less (hM.v_tt t p r h.1) (fun a => (hP t p h.2 a).d2vdt2) _
  v_tp t p r h := deriv_less (hM.v_tp t p r h.1) (fun a => (hP t p h.2 a).d2vdtdp) _
  v_pp t p r h := deriv_less (hM.v_pp t p r h.1) (fun a => (hP t p h.2 a).d2vdp2) _
  v_rt t p r h i := deriv_less (hM.v_rt t p r h.1 i) (fun a => (hP t p h.2 a).dvdt) _
  v_rp t p r h i := deriv_less (hM.v_rp t p r h.1 i) (fun a => (hP t p h.2 a).dvdp) _
  g_rt t p r h i := (deriv_less (hM.g_rt t p r h.1 i) (fun a => (hP t p h.2 a).entropy) _).congr_deriv (by
    simp only [lessEnds, mul_neg, Finset.sum_neg_distrib]; ring)
  g_rp t p r h i := deriv_less (hM.g_rp t p r h.1 i) (fun a => (hP t p h.2 a).volume) _
  s_rt t p r h ht i := (deriv_less (hM.s_rt t p r h.1 ht i) (fun a => (hP t p h.2 a).heatS) _).congr_deriv (by
    simp only [lessEnds, sub_div, Finset.sum_div, mul_div_assoc])
  vp_r t p r h := grad_sub (hM.vp_r t p r h.1) (grad_w hw r _)
  sym2 t p r h := hM.sym2 t p r h.1
  sym3 t p r h := hM.sym3 t p r h.1

/-- `mu[i]` of `act*`, spinel.c 3047-3062: the end member's own energy is subtracted. -/
def muE (M : Mix nr) (P : Fin na → ℝ → ℝ → Std) (fr : (Fin nr → ℝ) → Fin na → Fin nr → ℝ) (t p : ℝ) (r : Fin nr → ℝ)
    (a : Fin na) : ℝ := M.g t p r - (P a t p).g + ∑ j, fr r a j * M.gr t p r j

/-- `a0[i]` of `pure*`, spinel.c 1184-1195. -/
def act0 (P : Fin na → ℝ → ℝ → Std) (t p : ℝ) (a : Fin na) : ℝ := Real.exp ((P a t p).g / (R * t))

/-- `a[i]` of `act*`, spinel.c 3033-3045. -/
def actE (M : Mix nr) (P : Fin na → ℝ → ℝ → Std) (fr : (Fin nr → ℝ) → Fin na → Fin nr → ℝ) (t p : ℝ) (r : Fin nr → ℝ)
    (a : Fin na) : ℝ :=
  if act0 P t p a ≠ 0 then actO M fr t p r a / act0 P t p a else actO M fr t p r a

/-- `dx[i][k]` of `act*`, spinel.c 3064-3116. -/
def dactE {ns : ℕ} (J : Jets (Ext nr) (Fin ns)) (X : (Ext nr → ℝ) → Fin ns → ℝ) (P : Fin na → ℝ → ℝ → Std)
    (fr : (Fin nr → ℝ) → Fin na → Fin nr → ℝ) (dfr : Fin na → Fin nr → ℝ) (gs : (Fin nr → ℝ) → (Fin ns → ℝ) → Fin na → Fin ns → ℝ)
    (t p : ℝ) (r : Fin nr → ℝ) (i : Fin na) (k : Fin nr) : ℝ :=
  let x := pt X (env r t p)
  let a := Real.exp ((J.g x + ∑ j, fr r i j * J.g1 x (.inl (.inl j))) / (R * t))
  (if act0 P t p i ≠ 0 then a / act0 P t p i else a)
    * (((1 + dfr i k) * J.g1 x (.inl (.inl k))
        + ∑ j, (fr r i j * J.g2 x (.inl (.inl j)) (.inl (.inl k))
          + ∑ l, fr r i j * J.g2 x (.inr l) (.inl (.inl j)) * dS J x (.inl k) l)
        + ∑ j, (gs r (X (env r t p)) i j * J.g2 x (.inr j) (.inl (.inl k))
          + ∑ l, gs r (X (env r t p)) i j * J.g2 x (.inr j) (.inr l) * dS J x (.inl k) l)) / (R * t))

lemma actE_eq (M : Mix nr) (P : Fin na → ℝ → ℝ → Std) (fr : (Fin nr → ℝ) → Fin na → Fin nr → ℝ) (t p : ℝ) (r : Fin nr → ℝ)
    (a : Fin na) : actE M P fr t p r a = actO M fr t p r a / act0 P t p a := if_pos (Real.exp_ne_zero _)

/-- **C24.** Activities relative to the pure end members are `exp(μ/RT)`. -/
theorem C24_ends_activity (M : Mix nr) (P : Fin na → ℝ → ℝ → Std) (fr : (Fin nr → ℝ) → Fin na → Fin nr → ℝ) (t p : ℝ)
    (ht : t ≠ 0) (r : Fin nr → ℝ) (a : Fin na) : R * t * Real.log (actE M P fr t p r a) = muE M P fr t p r a := by
  have hR := R_pos.ne'
  rw [actE_eq]
  unfold actO act0 muE
  rw [Real.log_div (Real.exp_ne_zero _) (Real.exp_ne_zero _), Real.log_exp, Real.log_exp]
  field_simp
  ring

/-- The reported potentials are those of the mixing energy, if weights and `FR` table fit together. -/
lemma muE_eq (M : Mix nr) (P : Fin na → ℝ → ℝ → Std) (fr : (Fin nr → ℝ) → Fin na → Fin nr → ℝ) (t p : ℝ) (r : Fin nr → ℝ)
    (hf : ∀ a b, w r b + ∑ j, fr r a j * d j b = if a = b then 1 else 0) (a : Fin na) :
    muE M P fr t p r a = muO (lessEnds M w d P) fr t p r a := by
  unfold muE muO
  simp only [lessEnds, mul_sub, Finset.sum_sub_distrib, Finset.mul_sum]
  rw [Finset.sum_comm (s := univ) (t := univ) (f := fun j b => fr r a j * (d j b * (P b t p).g))]
  have e : (P a t p).g = ∑ b, (w r b * (P b t p).g + ∑ j, fr r a j * (d j b * (P b t p).g)) := by
    have : ∀ b, w r b * (P b t p).g + ∑ j, fr r a j * (d j b * (P b t p).g) = (if a = b then 1 else 0) * (P b t p).g := by
      intro b
      rw [← hf a b, add_mul, Finset.sum_mul]
      congr 1
      exact Finset.sum_congr rfl fun _ _ => by ring
    simp only [this, ite_mul, one_mul, zero_mul, Finset.sum_ite_eq, Finset.mem_univ, if_true]
  rw [Finset.sum_add_distrib] at e
  rw [e]; ring

open Magma.Thermo.Compo in
/-- **C24.** The chemical potentials reported relative to the pure end members are the derivatives of the total Gibbs energy
of mixing in the moles of the end members. -/
theorem C24_ends_potential {M : Mix nr} {I : ℝ → ℝ → (Fin nr → ℝ) → Prop} {P : Fin na → ℝ → ℝ → Std}
    (hM : ConsistentOn (lessEnds M w d P) I) (C : Conversion na nr) (hC : C.Consistent)
    {fr : (Fin nr → ℝ) → Fin na → Fin nr → ℝ} (t p : ℝ) (m : Fin na → ℝ) (h0 : ∑ i, m i ≠ 0)
    (hfr : ∀ i j, (∑ i, m i) * C.dm m j i = fr (C.toR m) i j)
    (hf : ∀ a b, w (C.toR m) b + ∑ j, fr (C.toR m) a j * d j b = if a = b then 1 else 0) (hr : I t p (C.toR m)) (i : Fin na) :
    Partial (fun m => (∑ i, m i) * (lessEnds M w d P).g t p (C.toR m)) m i (muE M P fr t p (C.toR m) i) := by
  rw [muE_eq M P fr t p _ hf]
  exact C24_ordering_potential hM C hC t p m h0 hfr hr i

/-- **C24.** The composition derivatives of the activities relative to the pure end members are their derivatives. -/
theorem C24_ends_activity_derivative {ns : ℕ} {J : Jets (Ext nr) (Fin ns)}
    {D : (Ext nr ⊕ Fin ns → ℝ) → Prop} {E : (Ext nr ⊕ Fin ns → ℝ) → ℝ} {X : (Ext nr → ℝ) → Fin ns → ℝ}
    {U : Set (Ext nr → ℝ)} (hJ : J.Ok D) (hE : ∀ x, D x → J.g1 x (.inl iT) = -E x) (h : Solved J D X U)
    (P : Fin na → ℝ → ℝ → Std)
    {fr : (Fin nr → ℝ) → Fin na → Fin nr → ℝ} {dfr : Fin na → Fin nr → ℝ} {e : Fin na → Fin nr → ℝ}
    {gs : (Fin nr → ℝ) → (Fin ns → ℝ) → Fin na → Fin ns → ℝ}
    (hfr : ∀ r i j, fr r i j = e i j - r j) (hdfr : ∀ i k, dfr i k = -1) {t p : ℝ} {r : Fin nr → ℝ}
    (hu : On U t p r) (i : Fin na) (k : Fin nr) :
    Partial (fun r => actE (ordMix J E X) P fr t p r i) r k (dactE J X P fr dfr gs t p r i k) := by
  have h1 := C24_ordering_activity_derivative (gs := fun s => gs r s) hJ hE h hfr hdfr hu i k
  have h2 : HasDerivAt _ _ (0 : ℝ) := HasDerivAt.div_const h1 (act0 P t p i)
  unfold Partial
  simp only [actE_eq]
  refine h2.congr_deriv ?_
  unfold dactE dactO
  simp only [ne_eq, if_pos (show act0 P t p i ≠ 0 from Real.exp_ne_zero _)]
  ring

end

end

end Verif.Thermo.Ordering
