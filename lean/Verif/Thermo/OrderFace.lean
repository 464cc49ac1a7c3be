import Verif.Thermo.OrderExist
import Verif.Thermo.OrderTables
import Verif.Thermo.StdState

/-!
Phases with ordering whose formulas skip absent components.

When a component is absent its terms are skipped by guards, so the tables are derivatives only along compositions
from which the component stays absent.  Here: restriction of a phase to the compositions with given components
present (`on`), of its tables (`Jets.cut`), to a fixed ordering state (`Jets.pin`), and the conversion between
properties of the solution and properties of mixing (`mech`).
-/

namespace Verif.Thermo.Ordering

open Finset Filter Topology Matrix
open Magma.Thermo.Mixing (R R_pos Mix)
open Verif.Thermo.StdState (Std)

noncomputable section

set_option linter.unusedSectionVars false

variable {ι κ : Type} [Fintype ι] [Fintype κ] [DecidableEq ι] [DecidableEq κ]

/-! ### Values of the properties at one point -/

/-- What the mixing functions of a phase return at one temperature, pressure and composition. -/
@[ext] structure MixVal (nr : ℕ) where
  g : ℝ
  gr : Fin nr → ℝ
  grr : Fin nr → Fin nr → ℝ
  grrr : Fin nr → Fin nr → Fin nr → ℝ
  h : ℝ
  s : ℝ
  sr : Fin nr → ℝ
  srr : Fin nr → Fin nr → ℝ
  cp : ℝ
  cpt : ℝ
  cpr : Fin nr → ℝ
  v : ℝ
  vr : Fin nr → ℝ
  vrr : Fin nr → Fin nr → ℝ
  vt : ℝ
  vp : ℝ
  vtt : ℝ
  vtp : ℝ
  vpp : ℝ
  vrt : Fin nr → ℝ
  vrp : Fin nr → ℝ

/-- The values of a phase's functions. -/
def valOf {nr : ℕ} (M : Mix nr) (t p : ℝ) (r : Fin nr → ℝ) : MixVal nr where
  g := M.g t p r
  gr := M.gr t p r
  grr := M.grr t p r
  grrr := M.grrr t p r
  h := M.h t p r
  s := M.s t p r
  sr := M.sr t p r
  srr := M.srr t p r
  cp := M.cp t p r
  cpt := M.cpt t p r
  cpr := M.cpr t p r
  v := M.v t p r
  vr := M.vr t p r
  vrr := M.vrr t p r
  vt := M.vt t p r
  vp := M.vp t p r
  vtt := M.vtt t p r
  vtp := M.vtp t p r
  vpp := M.vpp t p r
  vrt := M.vrt t p r
  vrp := M.vrp t p r

/-- The phase with given values. -/
def ofVal {nr : ℕ} (f : ℝ → ℝ → (Fin nr → ℝ) → MixVal nr) : Mix nr where
  g t p r := (f t p r).g
  gr t p r := (f t p r).gr
  grr t p r := (f t p r).grr
  grrr t p r := (f t p r).grrr
  h t p r := (f t p r).h
  s t p r := (f t p r).s
  sr t p r := (f t p r).sr
  srr t p r := (f t p r).srr
  cp t p r := (f t p r).cp
  cpt t p r := (f t p r).cpt
  cpr t p r := (f t p r).cpr
  v t p r := (f t p r).v
  vr t p r := (f t p r).vr
  vrr t p r := (f t p r).vrr
  vt t p r := (f t p r).vt
  vp t p r := (f t p r).vp
  vtt t p r := (f t p r).vtt
  vtp t p r := (f t p r).vtp
  vpp t p r := (f t p r).vpp
  vrt t p r := (f t p r).vrt
  vrp t p r := (f t p r).vrp
  fx r := r

/-- Sum of two contributions to the properties. -/
def MixVal.add {nr : ℕ} (a b : MixVal nr) : MixVal nr where
  g := a.g + b.g
  gr i := a.gr i + b.gr i
  grr i j := a.grr i j + b.grr i j
  grrr i j k := a.grrr i j k + b.grrr i j k
  h := a.h + b.h
  s := a.s + b.s
  sr i := a.sr i + b.sr i
  srr i j := a.srr i j + b.srr i j
  cp := a.cp + b.cp
  cpt := a.cpt + b.cpt
  cpr i := a.cpr i + b.cpr i
  v := a.v + b.v
  vr i := a.vr i + b.vr i
  vrr i j := a.vrr i j + b.vrr i j
  vt := a.vt + b.vt
  vp := a.vp + b.vp
  vtt := a.vtt + b.vtt
  vtp := a.vtp + b.vtp
  vpp := a.vpp + b.vpp
  vrt i := a.vrt i + b.vrt i
  vrp i := a.vrp i + b.vrp i

open Classical in
/-- Only the derivatives with respect to the components of `A`. -/
def MixVal.cut {nr : ℕ} (A : Finset (Fin nr)) (a : MixVal nr) : MixVal nr where
  g := a.g
  gr i := if i ∈ A then a.gr i else 0
  grr i j := if i ∈ A ∧ j ∈ A then a.grr i j else 0
  grrr i j k := if i ∈ A ∧ j ∈ A ∧ k ∈ A then a.grrr i j k else 0
  h := a.h
  s := a.s
  sr i := if i ∈ A then a.sr i else 0
  srr i j := if i ∈ A ∧ j ∈ A then a.srr i j else 0
  cp := a.cp
  cpt := a.cpt
  cpr i := if i ∈ A then a.cpr i else 0
  v := a.v
  vr i := if i ∈ A then a.vr i else 0
  vrr i j := if i ∈ A ∧ j ∈ A then a.vrr i j else 0
  vt := a.vt
  vp := a.vp
  vtt := a.vtt
  vtp := a.vtp
  vpp := a.vpp
  vrt i := if i ∈ A then a.vrt i else 0
  vrp i := if i ∈ A then a.vrp i else 0

/-- The composition with the components outside `A` removed. -/
def mask {nr : ℕ} (A : Finset (Fin nr)) (r : Fin nr → ℝ) (i : Fin nr) : ℝ := if i ∈ A then r i else 0

/-- A phase restricted to the compositions without the components outside `A`: the functions are evaluated there,
and derivatives with respect to absent components are dropped (specification). -/
def on {nr : ℕ} (A : Finset (Fin nr)) (M : Mix nr) : Mix nr := ofVal fun t p r => (valOf M t p (mask A r)).cut A

/-! ### Consistency of sums and of equal phases -/

lemma Gr.const {α : Type} [Fintype α] (c : ℝ) (x : α → ℝ) : Gr (fun _ => c) x (fun _ => 0) := by
  unfold Gr
  simpa using hasFDerivAt_const c x

/-- Two phases with the same values on an open set. -/
theorem ConsistentOn.congr {nr : ℕ} {M M' : Mix nr} {U : Set (Ext nr → ℝ)} (hU : IsOpen U)
    (h : ConsistentOn M (On U)) (e : ∀ t p r, On U t p r → valOf M' t p r = valOf M t p r) :
    ConsistentOn M' (On U) := by
  have cr : ∀ t p r, On U t p r → ∀ᶠ r' in 𝓝 r, On U t p r' := by
    intro t p r hu
    have : ContinuousAt (fun r' : Fin nr → ℝ => env r' t p) r := by
      refine Continuous.continuousAt (continuous_pi fun b => ?_)
      rcases b with b | b
      · exact continuous_apply b
      · exact continuous_const
    exact this.eventually (hU.mem_nhds hu)
  have ct : ∀ t p r, On U t p r → ∀ᶠ t' in 𝓝 t, On U t' p r := by
    intro t p r hu
    have : ContinuousAt (fun t' : ℝ => env r t' p) t := by
      refine Continuous.continuousAt (continuous_pi fun b => ?_)
      rcases b with b | b
      · exact continuous_const
      · fin_cases b
        · exact continuous_id
        · exact continuous_const
    exact this.eventually (hU.mem_nhds hu)
  have cp : ∀ t p r, On U t p r → ∀ᶠ p' in 𝓝 p, On U t p' r := by
    intro t p r hu
    have : ContinuousAt (fun p' : ℝ => env r t p') p := by
      refine Continuous.continuousAt (continuous_pi fun b => ?_)
      rcases b with b | b
      · exact continuous_const
      · fin_cases b
        · exact continuous_const
        · exact continuous_id
    exact this.eventually (hU.mem_nhds hu)
  have kr : ∀ (f : MixVal nr → ℝ) (d : MixVal nr → Fin nr → ℝ) t p r, On U t p r →
      Gr (fun r => f (valOf M t p r)) r (d (valOf M t p r)) →
      Gr (fun r => f (valOf M' t p r)) r (d (valOf M' t p r)) := by
    intro f d t p r hu k
    rw [e t p r hu]
    exact k.congr ((cr t p r hu).mono fun r' h' => by rw [e t p r' h'])
  have kt : ∀ (f d : MixVal nr → ℝ) t p r, On U t p r →
      HasDerivAt (fun t => f (valOf M t p r)) (d (valOf M t p r)) t →
      HasDerivAt (fun t => f (valOf M' t p r)) (d (valOf M' t p r)) t := by
    intro f d t p r hu k
    rw [e t p r hu]
    exact k.congr_of_eventuallyEq ((ct t p r hu).mono fun r' h' => by simp only [e _ p r h'])
  have kp : ∀ (f d : MixVal nr → ℝ) t p r, On U t p r →
      HasDerivAt (fun p => f (valOf M t p r)) (d (valOf M t p r)) p →
      HasDerivAt (fun p => f (valOf M' t p r)) (d (valOf M' t p r)) p := by
    intro f d t p r hu k
    rw [e t p r hu]
    exact k.congr_of_eventuallyEq ((cp t p r hu).mono fun r' h' => by simp only [e t _ r h'])
  constructor
  · exact fun t p r hu => kr (·.g) (·.gr) t p r hu (h.g_r t p r hu)
  · exact fun t p r hu i => kr (·.gr i) (·.grr i) t p r hu (h.g_rr t p r hu i)
  · exact fun t p r hu i j => kr (·.grr i j) (·.grrr i j) t p r hu (h.g_rrr t p r hu i j)
  · exact fun t p r hu => kt (·.g) (-·.s) t p r hu (h.g_t t p r hu)
  · intro t p r hu
    have := h.h_eq t p r hu
    change (valOf M t p r).h = (valOf M t p r).g + t * (valOf M t p r).s at this
    rwa [← e t p r hu] at this
  · exact fun t p r hu => kr (·.s) (·.sr) t p r hu (h.s_r t p r hu)
  · exact fun t p r hu i => kr (·.sr i) (·.srr i) t p r hu (h.s_rr t p r hu i)
  · exact fun t p r hu => kt (·.h) (·.cp) t p r hu (h.h_t t p r hu)
  · exact fun t p r hu => kt (·.cp) (·.cpt) t p r hu (h.cp_t t p r hu)
  · exact fun t p r hu => kr (·.cp) (·.cpr) t p r hu (h.cp_r t p r hu)
  · exact fun t p r hu => kp (·.g) (·.v) t p r hu (h.g_p t p r hu)
  · exact fun t p r hu => kr (·.v) (·.vr) t p r hu (h.v_r t p r hu)
  · exact fun t p r hu i => kr (·.vr i) (·.vrr i) t p r hu (h.v_rr t p r hu i)
  · exact fun t p r hu => kt (·.v) (·.vt) t p r hu (h.v_t t p r hu)
  · exact fun t p r hu => kp (·.v) (·.vp) t p r hu (h.v_p t p r hu)
  · exact fun t p r hu => kt (·.vt) (·.vtt) t p r hu (h.v_tt t p r hu)
  · exact fun t p r hu => kp (·.vt) (·.vtp) t p r hu (h.v_tp t p r hu)
  · exact fun t p r hu => kp (·.vp) (·.vpp) t p r hu (h.v_pp t p r hu)
  · exact fun t p r hu i => kt (·.vr i) (·.vrt i) t p r hu (h.v_rt t p r hu i)
  · exact fun t p r hu i => kp (·.vr i) (·.vrp i) t p r hu (h.v_rp t p r hu i)
  · exact fun t p r hu i => kt (·.gr i) (-·.sr i) t p r hu (h.g_rt t p r hu i)
  · exact fun t p r hu i => kp (·.gr i) (·.vr i) t p r hu (h.g_rp t p r hu i)
  · intro t p r hu ht i
    have k := h.s_rt t p r hu ht i
    have c : M'.cpr t p r i = M.cpr t p r i := congrArg (fun a => MixVal.cpr a i) (e t p r hu)
    rw [c]
    exact k.congr_of_eventuallyEq ((ct t p r hu).mono fun t' h' => congrArg (fun a => MixVal.sr a i) (e t' p r h'))
  · exact fun t p r hu => kr (·.vp) (·.vrp) t p r hu (h.vp_r t p r hu)
  · intro t p r hu i j
    have := h.sym2 t p r hu i j
    change (valOf M t p r).grr i j = (valOf M t p r).grr j i at this
    rwa [← e t p r hu] at this
  · intro t p r hu i j k
    have := h.sym3 t p r hu i j k
    change (valOf M t p r).grrr i j k = (valOf M t p r).grrr j i k ∧
      (valOf M t p r).grrr i j k = (valOf M t p r).grrr i k j at this
    rwa [← e t p r hu] at this

/-- Contributions that fit together separately fit together in sum. -/
theorem ConsistentOn.add {nr : ℕ} {M M' : Mix nr} {I : ℝ → ℝ → (Fin nr → ℝ) → Prop} (h : ConsistentOn M I)
    (h' : ConsistentOn M' I) : ConsistentOn (ofVal fun t p r => (valOf M t p r).add (valOf M' t p r)) I := by
  constructor
  · exact fun t p r hu => Gr.add (h.g_r t p r hu) (h'.g_r t p r hu)
  · exact fun t p r hu i => Gr.add (h.g_rr t p r hu i) (h'.g_rr t p r hu i)
  · exact fun t p r hu i j => Gr.add (h.g_rrr t p r hu i j) (h'.g_rrr t p r hu i j)
  · exact fun t p r hu => ((h.g_t t p r hu).add (h'.g_t t p r hu)).congr_deriv (neg_add _ _).symm
  · intro t p r hu
    have a := h.h_eq t p r hu
    have b := h'.h_eq t p r hu
    change M.h t p r + M'.h t p r = M.g t p r + M'.g t p r + t * (M.s t p r + M'.s t p r)
    rw [a, b]; ring
  · exact fun t p r hu => Gr.add (h.s_r t p r hu) (h'.s_r t p r hu)
  · exact fun t p r hu i => Gr.add (h.s_rr t p r hu i) (h'.s_rr t p r hu i)
  · exact fun t p r hu => (h.h_t t p r hu).add (h'.h_t t p r hu)
  · exact fun t p r hu => (h.cp_t t p r hu).add (h'.cp_t t p r hu)
  · exact fun t p r hu => Gr.add (h.cp_r t p r hu) (h'.cp_r t p r hu)
  · exact fun t p r hu => (h.g_p t p r hu).add (h'.g_p t p r hu)
  · exact fun t p r hu => Gr.add (h.v_r t p r hu) (h'.v_r t p r hu)
  · exact fun t p r hu i => Gr.add (h.v_rr t p r hu i) (h'.v_rr t p r hu i)
  · exact fun t p r hu => (h.v_t t p r hu).add (h'.v_t t p r hu)
  · exact fun t p r hu => (h.v_p t p r hu).add (h'.v_p t p r hu)
  · exact fun t p r hu => (h.v_tt t p r hu).add (h'.v_tt t p r hu)
  · exact fun t p r hu => (h.v_tp t p r hu).add (h'.v_tp t p r hu)
  · exact fun t p r hu => (h.v_pp t p r hu).add (h'.v_pp t p r hu)
  · exact fun t p r hu i => (h.v_rt t p r hu i).add (h'.v_rt t p r hu i)
  · exact fun t p r hu i => (h.v_rp t p r hu i).add (h'.v_rp t p r hu i)
  · exact fun t p r hu i => ((h.g_rt t p r hu i).add (h'.g_rt t p r hu i)).congr_deriv (neg_add _ _).symm
  · exact fun t p r hu i => (h.g_rp t p r hu i).add (h'.g_rp t p r hu i)
  · exact fun t p r hu ht i => ((h.s_rt t p r hu ht i).add (h'.s_rt t p r hu ht i)).congr_deriv (add_div _ _ _).symm
  · exact fun t p r hu => Gr.add (h.vp_r t p r hu) (h'.vp_r t p r hu)
  · intro t p r hu i j
    have a := h.sym2 t p r hu i j
    have b := h'.sym2 t p r hu i j
    change M.grr t p r i j + M'.grr t p r i j = M.grr t p r j i + M'.grr t p r j i
    rw [a, b]
  · intro t p r hu i j k
    have a := h.sym3 t p r hu i j k
    have b := h'.sym3 t p r hu i j k
    change M.grrr t p r i j k + M'.grrr t p r i j k = M.grrr t p r j i k + M'.grrr t p r j i k ∧
      M.grrr t p r i j k + M'.grrr t p r i j k = M.grrr t p r i k j + M'.grrr t p r i k j
    rw [← a.1, ← b.1, ← a.2, ← b.2]
    exact ⟨rfl, rfl⟩

lemma Gr.mask {nr : ℕ} {A : Finset (Fin nr)} {f : (Fin nr → ℝ) → ℝ} {r d : Fin nr → ℝ} (h : Gr f (mask A r) d) :
    Gr (fun r => f (Ordering.mask A r)) r (fun i => if i ∈ A then d i else 0) := by
  refine (Gr.comp (φ := Ordering.mask A) (M := fun b a => if b ∈ A then (if a = b then 1 else 0) else 0) h
    fun b => ?_).congr_d ?_
  · unfold Ordering.mask
    by_cases hb : b ∈ A
    · simp only [hb, if_true]; exact Gr.coord r b
    · simpa only [hb, if_false] using Gr.const 0 r
  · funext i
    simp only [mul_ite, mul_one, mul_zero]
    rw [Finset.sum_eq_single i]
    · simp
    · intro b _ hb; simp [hb.symm]
    · simp

lemma Gr.ite0 {α : Type} [Fintype α] {f : (α → ℝ) → ℝ} {x d : α → ℝ} {q : Prop} [Decidable q] (h : Gr f x d) :
    Gr (fun x => if q then f x else 0) x (fun i => if q then d i else 0) := by
  by_cases hq : q
  · simpa only [hq, if_true] using h
  · simpa only [hq, if_false] using Gr.const 0 x

lemma hasDerivAt_ite0 {f : ℝ → ℝ} {d x : ℝ} {q : Prop} [Decidable q] (h : HasDerivAt f d x) :
    HasDerivAt (fun x => if q then f x else 0) (if q then d else 0) x := by
  by_cases hq : q
  · simpa only [hq, if_true] using h
  · simpa only [hq, if_false] using hasDerivAt_const x (0 : ℝ)

/-- A phase that is consistent is consistent when some components are absent. -/
theorem ConsistentOn.on {nr : ℕ} {M : Mix nr} {I : ℝ → ℝ → (Fin nr → ℝ) → Prop} (h : ConsistentOn M I)
    (A : Finset (Fin nr)) : ConsistentOn (on A M) fun t p r => I t p (mask A r) := by
  have sw : ∀ {a b : Prop} [Decidable a] [Decidable b] (x : ℝ),
      (if a then (if b then x else 0) else 0) = if b ∧ a then x else 0 := by
    intro a b _ _ x; by_cases a <;> by_cases b <;> simp [*]
  have sw' : ∀ {a b : Prop} [Decidable a] [Decidable b] (x : ℝ),
      (if a then (if b then x else 0) else 0) = if a ∧ b then x else 0 := by
    intro a b _ _ x; by_cases a <;> by_cases b <;> simp [*]
  constructor
  · exact fun t p r hu => Gr.mask (h.g_r t p _ hu)
  · exact fun t p r hu i => (Gr.ite0 (Gr.mask (h.g_rr t p _ hu i))).congr_d (funext fun j => sw' _)
  · exact fun t p r hu i j => (Gr.ite0 (Gr.mask (h.g_rrr t p _ hu i j))).congr_d (funext fun k => by
      rw [sw']; simp only [and_assoc]; rfl)
  · exact fun t p r hu => h.g_t t p _ hu
  · exact fun t p r hu => h.h_eq t p _ hu
  · exact fun t p r hu => Gr.mask (h.s_r t p _ hu)
  · exact fun t p r hu i => (Gr.ite0 (Gr.mask (h.s_rr t p _ hu i))).congr_d (funext fun j => sw' _)
  · exact fun t p r hu => h.h_t t p _ hu
  · exact fun t p r hu => h.cp_t t p _ hu
  · exact fun t p r hu => Gr.mask (h.cp_r t p _ hu)
  · exact fun t p r hu => h.g_p t p _ hu
  · exact fun t p r hu => Gr.mask (h.v_r t p _ hu)
  · exact fun t p r hu i => (Gr.ite0 (Gr.mask (h.v_rr t p _ hu i))).congr_d (funext fun j => sw' _)
  · exact fun t p r hu => h.v_t t p _ hu
  · exact fun t p r hu => h.v_p t p _ hu
  · exact fun t p r hu => h.v_tt t p _ hu
  · exact fun t p r hu => h.v_tp t p _ hu
  · exact fun t p r hu => h.v_pp t p _ hu
  · exact fun t p r hu i => hasDerivAt_ite0 (h.v_rt t p _ hu i)
  · exact fun t p r hu i => hasDerivAt_ite0 (h.v_rp t p _ hu i)
  · exact fun t p r hu i => (hasDerivAt_ite0 (h.g_rt t p _ hu i)).congr_deriv (by
      change _ = -(if i ∈ A then _ else _); split_ifs
      · rfl
      · exact neg_zero.symm)
  · exact fun t p r hu i => hasDerivAt_ite0 (h.g_rp t p _ hu i)
  · exact fun t p r hu ht i => (hasDerivAt_ite0 (h.s_rt t p _ hu ht i)).congr_deriv (by
      change _ = (if i ∈ A then _ else _) / t; split_ifs
      · rfl
      · exact (zero_div t).symm)
  · exact fun t p r hu => Gr.mask (h.vp_r t p _ hu)
  · intro t p r hu i j
    have := h.sym2 t p _ hu i j
    change (if i ∈ A ∧ j ∈ A then M.grr t p (mask A r) i j else 0)
      = if j ∈ A ∧ i ∈ A then M.grr t p (mask A r) j i else 0
    rw [this]; simp only [and_comm]
  · intro t p r hu i j k
    have := h.sym3 t p _ hu i j k
    change (if i ∈ A ∧ j ∈ A ∧ k ∈ A then M.grrr t p (mask A r) i j k else 0)
      = (if j ∈ A ∧ i ∈ A ∧ k ∈ A then M.grrr t p (mask A r) j i k else 0) ∧
      (if i ∈ A ∧ j ∈ A ∧ k ∈ A then M.grrr t p (mask A r) i j k else 0)
      = if i ∈ A ∧ k ∈ A ∧ j ∈ A then M.grrr t p (mask A r) i k j else 0
    rw [← this.1, ← this.2]
    constructor
    · simp only [and_left_comm]
    · simp only [and_comm]

/-! ### Properties of mixing -/

/-- Contribution of the end members that turns properties of the solution into properties of mixing
(liquid_CO2.c 3503-3506 and the like): minus the mechanical mixture. -/
def mechVal {nr : ℕ} (e : Fin (nr + 1) → Std) (t : ℝ) (r : Fin nr → ℝ) : MixVal nr :=
  let lin : (Std → ℝ) → ℝ := fun f => -f (e 0) + ∑ i, r i * (f (e 0) - f (e i.succ))
  let slope : (Std → ℝ) → Fin nr → ℝ := fun f i => f (e 0) - f (e i.succ)
  { g := lin (·.g)
    gr := slope (·.g)
    grr := fun _ _ => 0
    grrr := fun _ _ _ => 0
    h := lin (fun x => x.g + t * x.s)
    s := lin (·.s)
    sr := slope (·.s)
    srr := fun _ _ => 0
    cp := lin (·.cp)
    cpt := lin (·.dcpdt)
    cpr := slope (·.cp)
    v := lin (·.v)
    vr := slope (·.v)
    vrr := fun _ _ => 0
    vt := lin (·.dvdt)
    vp := lin (·.dvdp)
    vtt := lin (·.d2vdt2)
    vtp := lin (·.d2vdtdp)
    vpp := lin (·.d2vdp2)
    vrt := slope (·.dvdt)
    vrp := slope (·.dvdp) }

/-- The derivatives a standard state must have (specification). -/
structure EndOk (F : ℝ → ℝ → Std) (t p : ℝ) : Prop where
  g_t : HasDerivAt (fun t => (F t p).g) (-(F t p).s) t
  s_t : HasDerivAt (fun t => (F t p).s) ((F t p).cp / t) t
  cp_t : HasDerivAt (fun t => (F t p).cp) (F t p).dcpdt t
  g_p : HasDerivAt (fun p => (F t p).g) (F t p).v p
  v_t : HasDerivAt (fun t => (F t p).v) (F t p).dvdt t
  v_p : HasDerivAt (fun p => (F t p).v) (F t p).dvdp p
  v_tt : HasDerivAt (fun t => (F t p).dvdt) (F t p).d2vdt2 t
  v_tp : HasDerivAt (fun p => (F t p).dvdt) (F t p).d2vdtdp p
  v_pp : HasDerivAt (fun p => (F t p).dvdp) (F t p).d2vdp2 p

theorem mech_consistent {nr : ℕ} (e : Fin (nr + 1) → ℝ → ℝ → Std) :
    ConsistentOn (ofVal fun t p r => mechVal (fun i => e i t p) t r)
      fun t p _ => t ≠ 0 ∧ ∀ i, EndOk (e i) t p := by
  have kl : ∀ (f : Std → ℝ) (a : Fin (nr + 1) → Std) (r : Fin nr → ℝ),
      Gr (fun r => -f (a 0) + ∑ i, r i * (f (a 0) - f (a i.succ))) r fun i => f (a 0) - f (a i.succ) := by
    intro f a r
    refine (Gr.add (Gr.const _ r) (Gr.sum (s := univ) fun i _ => Gr.mulc (Gr.coord r i) _)).congr_d ?_
    funext i
    simp
  have kd : ∀ (f f' : Fin (nr + 1) → ℝ → ℝ) (r : Fin nr → ℝ) (x : ℝ),
      (∀ i, HasDerivAt (f i) (f' i x) x) →
      HasDerivAt (fun x => -f 0 x + ∑ i : Fin nr, r i * (f 0 x - f i.succ x))
        (-f' 0 x + ∑ i : Fin nr, r i * (f' 0 x - f' i.succ x)) x := by
    intro f f' r x h
    exact (h 0).neg.add (HasDerivAt.fun_sum fun i _ => ((h 0).sub (h i.succ)).const_mul (r i))
  constructor
  · exact fun t p r hu => kl (·.g) (fun i => e i t p) r
  · exact fun t p r hu i => Gr.const _ r
  · exact fun t p r hu i j => Gr.const _ r
  · intro t p r hu
    refine (kd (fun i t => (e i t p).g) (fun i t => -(e i t p).s) r t fun i => (hu.2 i).g_t).congr_deriv ?_
    change _ = -(-(e 0 t p).s + ∑ i : Fin nr, r i * ((e 0 t p).s - (e i.succ t p).s))
    rw [neg_add, ← Finset.sum_neg_distrib]
    congr 1
    exact Finset.sum_congr rfl fun i _ => by ring
  · intro t p r hu
    change -((e 0 t p).g + t * (e 0 t p).s) + ∑ i : Fin nr, r i * ((e 0 t p).g + t * (e 0 t p).s
      - ((e i.succ t p).g + t * (e i.succ t p).s)) = (-(e 0 t p).g + ∑ i : Fin nr, r i * ((e 0 t p).g - (e i.succ t p).g))
      + t * (-(e 0 t p).s + ∑ i : Fin nr, r i * ((e 0 t p).s - (e i.succ t p).s))
    rw [mul_add, Finset.mul_sum, add_add_add_comm, ← Finset.sum_add_distrib]
    congr 1
    · ring
    · exact Finset.sum_congr rfl fun i _ => by ring
  · exact fun t p r hu => kl (·.s) (fun i => e i t p) r
  · exact fun t p r hu i => Gr.const _ r
  · intro t p r hu
    refine kd (fun i t => (e i t p).g + t * (e i t p).s) (fun i t => (e i t p).cp) r t fun i => ?_
    have := hu.1
    refine ((hu.2 i).g_t.add ((hasDerivAt_id' t).mul (hu.2 i).s_t)).congr_deriv ?_
    field_simp; ring
  · exact fun t p r hu => kd (fun i t => (e i t p).cp) (fun i t => (e i t p).dcpdt) r t fun i => (hu.2 i).cp_t
  · exact fun t p r hu => kl (·.cp) (fun i => e i t p) r
  · exact fun t p r hu => kd (fun i p => (e i t p).g) (fun i p => (e i t p).v) r p fun i => (hu.2 i).g_p
  · exact fun t p r hu => kl (·.v) (fun i => e i t p) r
  · exact fun t p r hu i => Gr.const _ r
  · exact fun t p r hu => kd (fun i t => (e i t p).v) (fun i t => (e i t p).dvdt) r t fun i => (hu.2 i).v_t
  · exact fun t p r hu => kd (fun i p => (e i t p).v) (fun i p => (e i t p).dvdp) r p fun i => (hu.2 i).v_p
  · exact fun t p r hu => kd (fun i t => (e i t p).dvdt) (fun i t => (e i t p).d2vdt2) r t fun i => (hu.2 i).v_tt
  · exact fun t p r hu => kd (fun i p => (e i t p).dvdt) (fun i p => (e i t p).d2vdtdp) r p fun i => (hu.2 i).v_tp
  · exact fun t p r hu => kd (fun i p => (e i t p).dvdp) (fun i p => (e i t p).d2vdp2) r p fun i => (hu.2 i).v_pp
  · exact fun t p r hu i => (hu.2 0).v_t.sub (hu.2 i.succ).v_t
  · exact fun t p r hu i => (hu.2 0).v_p.sub (hu.2 i.succ).v_p
  · exact fun t p r hu i => ((hu.2 0).g_t.sub (hu.2 i.succ).g_t).congr_deriv (by
      change _ = -((e 0 t p).s - (e i.succ t p).s); ring)
  · exact fun t p r hu i => (hu.2 0).g_p.sub (hu.2 i.succ).g_p
  · exact fun t p r hu ht i => ((hu.2 0).s_t.sub (hu.2 i.succ).s_t).congr_deriv (sub_div _ _ _).symm
  · exact fun t p r hu => kl (·.dvdp) (fun i => e i t p) r
  · exact fun t p r hu i j => rfl
  · exact fun t p r hu i j k => ⟨rfl, rfl⟩

/-! ### Tables restricted to present components -/

open Classical in
/-- The external variables of `q` kept, the others set to zero. -/
def cutE (q : ι → Prop) (θ : ι → ℝ) (i : ι) : ℝ := if q i then θ i else 0

/-- The same on all variables; ordering variables are kept. -/
def keepV (q : ι → Prop) : ι ⊕ κ → Prop := Sum.elim q fun _ => True

open Classical in
/-- Tables of the function restricted to the variables of `q`. -/
def Jets.cut (J : Jets ι κ) (q : ι → Prop) : Jets ι κ where
  g x := J.g (cutE (keepV q) x)
  g1 x i := if keepV q i then J.g1 (cutE (keepV q) x) i else 0
  g2 x i j := if keepV q i then (if keepV q j then J.g2 (cutE (keepV q) x) i j else 0) else 0
  g3 x i j k := if keepV q i then (if keepV q j then
    (if keepV q k then J.g3 (cutE (keepV q) x) i j k else 0) else 0) else 0

open Classical in
lemma Gr.cutE {α : Type} [Fintype α] [DecidableEq α] {q : α → Prop} {f : (α → ℝ) → ℝ} {x d : α → ℝ}
    (h : Gr f (cutE q x) d) : Gr (fun x => f (Ordering.cutE q x)) x (fun i => if q i then d i else 0) := by
  refine (Gr.comp (φ := Ordering.cutE q) (M := fun b a => if q b then (if a = b then 1 else 0) else 0) h
    fun b => ?_).congr_d ?_
  · unfold Ordering.cutE
    by_cases hb : q b
    · simp only [hb, if_true]; exact Gr.coord x b
    · simpa only [hb, if_false] using Gr.const 0 x
  · funext i
    simp only [mul_ite, mul_one, mul_zero]
    rw [Finset.sum_eq_single i]
    · simp
    · intro b _ hb; simp [hb.symm]
    · simp

open Classical in
theorem Jets.cut_ok {J : Jets ι κ} {D : (ι ⊕ κ → ℝ) → Prop} (h : J.Ok D) (q : ι → Prop) :
    (J.cut q).Ok fun x => D (cutE (keepV q) x) := by
  constructor
  · exact fun x hx => Gr.cutE (h.d1 _ hx)
  · exact fun x hx i => Gr.ite0 (Gr.cutE (h.d2 _ hx i))
  · exact fun x hx i j => Gr.ite0 (Gr.ite0 (Gr.cutE (h.d3 _ hx i j)))
  · intro x hx i j
    simp only [Jets.cut, h.sym2 _ hx i j]
    by_cases a : keepV q i <;> by_cases b : keepV q j <;> simp [a, b]
  · intro x hx i j k
    have := h.sym3 _ hx i j k
    simp only [Jets.cut]
    by_cases a : keepV q i <;> by_cases b : keepV q j <;> by_cases c : keepV q k <;>
      simp only [a, b, c, if_true, if_false, and_self]
    exact this

section cutlemmas
variable (J : Jets ι κ) (q : ι → Prop) (x : ι ⊕ κ → ℝ)

open Classical in
lemma cut_g1 (i : ι ⊕ κ) : (J.cut q).g1 x i = if keepV q i then J.g1 (cutE (keepV q) x) i else 0 := rfl
open Classical in
lemma cut_g2 (i j : ι ⊕ κ) : (J.cut q).g2 x i j
    = if keepV q i then (if keepV q j then J.g2 (cutE (keepV q) x) i j else 0) else 0 := rfl
open Classical in
lemma cut_g3 (i j k : ι ⊕ κ) : (J.cut q).g3 x i j k = if keepV q i then (if keepV q j then
    (if keepV q k then J.g3 (cutE (keepV q) x) i j k else 0) else 0) else 0 := rfl
lemma keepV_l (i : ι) : keepV (κ := κ) q (.inl i) ↔ q i := Iff.rfl
lemma keepV_r (k : κ) : keepV q (.inr k) ↔ True := Iff.rfl

lemma cut_negHess : negHess (J.cut q) x = negHess J (cutE (keepV q) x) := by
  ext k l; simp [negHess, cut_g1, cut_g2, cut_g3, keepV_l, keepV_r]

lemma solve_zero : solve J x (fun _ => 0) = fun _ => 0 := by
  unfold solve; exact Matrix.mulVec_zero _

lemma cut_solve (b : κ → ℝ) : solve (J.cut q) x b = solve J (cutE (keepV q) x) b := by
  unfold solve; rw [cut_negHess]

open Classical in
lemma cut_dS (i : ι) : dS (J.cut q) x i = if q i then dS J (cutE (keepV q) x) i else fun _ => 0 := by
  unfold dS
  rw [cut_solve]
  by_cases h : q i
  · rw [if_pos h]; simp [cut_g1, cut_g2, cut_g3, keepV_l, keepV_r, h]
  · rw [if_neg h]
    have : (fun k : κ => (J.cut q).g2 x (.inr k) (.inl i)) = fun _ => 0 := by
      funext k; simp [cut_g1, cut_g2, cut_g3, keepV_l, keepV_r, h]
    rw [this, solve_zero]

open Classical in
lemma cut_d2S (i j : ι) :
    d2S (J.cut q) x i j = if q i ∧ q j then d2S J (cutE (keepV q) x) i j else fun _ => 0 := by
  unfold d2S
  rw [cut_solve]
  by_cases h : q i <;> by_cases h' : q j
  · simp only [h, h', and_self, if_true, cut_dS]
    congr 1; funext k; simp [cut_g1, cut_g2, cut_g3, keepV_l, keepV_r, h, h']
  all_goals
    have e : (fun k : κ => (J.cut q).g3 x (.inr k) (.inl i) (.inl j)
      + ∑ l, ((J.cut q).g3 x (.inr k) (.inr l) (.inl i) * dS (J.cut q) x j l
        + (J.cut q).g3 x (.inr k) (.inr l) (.inl j) * dS (J.cut q) x i l
      + ∑ m, (J.cut q).g3 x (.inr k) (.inr l) (.inr m) * dS (J.cut q) x i l * dS (J.cut q) x j m)) = fun _ => 0 := by
      funext k; simp [cut_g1, cut_g2, cut_g3, keepV_l, keepV_r, h, h', cut_dS]
    rw [e, solve_zero]; simp [h, h']

open Classical in
lemma cut_r1 (i : ι) : r1 (J.cut q) x i = if q i then r1 J (cutE (keepV q) x) i else 0 := by
  simp [r1, cut_g1, cut_g2, cut_g3, keepV_l, keepV_r]

open Classical in
lemma cut_r2 (i j : ι) : r2 (J.cut q) x i j = if q i ∧ q j then r2 J (cutE (keepV q) x) i j else 0 := by
  unfold r2
  by_cases h : q i <;> by_cases h' : q j <;> simp [cut_dS, cut_g1, cut_g2, cut_g3, keepV_l, keepV_r, h, h']

open Classical in
lemma cut_r3 (i j m : ι) :
    r3 (J.cut q) x i j m = if q i ∧ q j ∧ q m then r3 J (cutE (keepV q) x) i j m else 0 := by
  unfold r3
  by_cases h : q i <;> by_cases h' : q j <;> by_cases h2 : q m <;>
    simp [cut_dS, cut_d2S, cut_g1, cut_g2, cut_g3, keepV_l, keepV_r, h, h', h2]

open Classical in
lemma cut_r3s (i j m : ι) :
    r3s (J.cut q) x i j m = if q i ∧ q j ∧ q m then r3s J (cutE (keepV q) x) i j m else 0 := by
  unfold r3s
  by_cases h : q i <;> by_cases h' : q j <;> by_cases h2 : q m <;>
    simp [cut_dS, cut_g1, cut_g2, cut_g3, keepV_l, keepV_r, h, h', h2]

end cutlemmas

/-- Present components, temperature and pressure. -/
def present {nr : ℕ} (A : Finset (Fin nr)) : Ext nr → Prop := Sum.elim (· ∈ A) fun _ => True

lemma cutE_env {nr : ℕ} (A : Finset (Fin nr)) (r : Fin nr → ℝ) (t p : ℝ) :
    cutE (present A) (env r t p) = env (mask A r) t p := by
  funext i
  rcases i with i | i
  · by_cases h : i ∈ A <;> simp [cutE, present, env, mask, h]
  · simp [cutE, present, env]

lemma cutE_pt {nr ns : ℕ} (A : Finset (Fin nr)) (X : (Ext nr → ℝ) → Fin ns → ℝ) (θ : Ext nr → ℝ) :
    cutE (keepV (present A)) (pt (fun θ => X (cutE (present A) θ)) θ) = pt X (cutE (present A) θ) := by
  funext i
  rcases i with i | i
  · by_cases h : present A i <;> simp [cutE, pt, keepV, h]
  · simp [cutE, pt, keepV]

/-- The phase computed with the restricted tables is the restriction of the phase. -/
theorem valOf_cut {nr ns : ℕ} (A : Finset (Fin nr)) (J : Jets (Ext nr) (Fin ns)) (E : (Ext nr ⊕ Fin ns → ℝ) → ℝ)
    (X : (Ext nr → ℝ) → Fin ns → ℝ) (t p : ℝ) (r : Fin nr → ℝ) :
    valOf (ordMix (J.cut (present A)) (fun x => E (cutE (keepV (present A)) x)) fun θ => X (cutE (present A) θ)) t p r
      = valOf (on A (ordMix J E X)) t p r := by
  have e : cutE (keepV (present A)) (pt (fun θ => X (cutE (present A) θ)) (env r t p)) = pt X (env (mask A r) t p) := by
    rw [cutE_pt, cutE_env]
  have pr : ∀ i, present A (.inl i) ↔ i ∈ A := fun i => Iff.rfl
  have pt' : ∀ k : Fin 2, present A (.inr k) ↔ True := fun i => Iff.rfl
  have eg : (J.cut (present A)).g = fun x => J.g (cutE (keepV (present A)) x) := rfl
  ext <;> simp only [valOf, ordMix, on, ofVal, MixVal.cut, cut_r1, cut_r2, cut_r3, cut_r3s, cut_g1, keepV_l, eg, e, pr,
    pt', true_and, and_true, if_true, ite_mul, zero_mul]
  all_goals (split_ifs <;> rfl)

/-! ### Fixed ordering state -/

/-- Embedding with the ordering variables equal to zero. -/
def pin0 (κ : Type) (x : ι ⊕ Fin 0 → ℝ) : ι ⊕ κ → ℝ := Sum.elim (fun i => x (.inl i)) fun _ => 0

/-- Tables of the function with the ordering variables fixed to zero. -/
def Jets.pin (J : Jets ι κ) : Jets ι (Fin 0) where
  g x := J.g (pin0 κ x)
  g1 x i := Sum.elim (fun i => J.g1 (pin0 κ x) (.inl i)) (fun k => k.elim0) i
  g2 x i j := Sum.elim (fun i => Sum.elim (fun j => J.g2 (pin0 κ x) (.inl i) (.inl j)) (fun k => k.elim0) j)
    (fun k => k.elim0) i
  g3 x i j m := Sum.elim (fun i => Sum.elim (fun j => Sum.elim (fun m => J.g3 (pin0 κ x) (.inl i) (.inl j) (.inl m))
    (fun k => k.elim0) m) (fun k => k.elim0) j) (fun k => k.elim0) i

lemma Gr.pin {f : (ι ⊕ κ → ℝ) → ℝ} {x : ι ⊕ Fin 0 → ℝ} {d : ι ⊕ κ → ℝ} (h : Gr f (pin0 κ x) d) :
    Gr (fun x => f (pin0 κ x)) x (Sum.elim (fun i => d (.inl i)) fun k => k.elim0) := by
  refine (Gr.comp (φ := pin0 κ) (M := Sum.elim (fun b a => if a = .inl b then 1 else 0) fun _ _ => 0) h
    fun b => ?_).congr_d ?_
  · rcases b with b | b
    · exact Gr.coord x (.inl b)
    · exact Gr.const 0 x
  · funext i
    rcases i with i | i
    · simp [Fintype.sum_sum_type]
    · exact i.elim0

theorem Jets.pin_ok {J : Jets ι κ} {D : (ι ⊕ κ → ℝ) → Prop} (h : J.Ok D) :
    J.pin.Ok fun x => D (pin0 κ x) := by
  constructor
  · exact fun x hx => Gr.pin (h.d1 _ hx)
  · rintro x hx (i | i)
    · exact Gr.pin (h.d2 _ hx (.inl i))
    · exact i.elim0
  · rintro x hx (i | i) (j | j)
    · exact Gr.pin (h.d3 _ hx (.inl i) (.inl j))
    · exact j.elim0
    · exact i.elim0
    · exact i.elim0
  · rintro x hx (i | i) (j | j)
    · exact h.sym2 _ hx _ _
    · exact j.elim0
    · exact i.elim0
    · exact i.elim0
  · rintro x hx (i | i) (j | j) (k | k)
    · exact h.sym3 _ hx _ _ _
    all_goals first | exact k.elim0 | exact j.elim0 | exact i.elim0

lemma pin_r1 (J : Jets ι κ) (x : ι ⊕ Fin 0 → ℝ) (i : ι) : r1 J.pin x i = J.g1 (pin0 κ x) (.inl i) := rfl
lemma pin_r2 (J : Jets ι κ) (x : ι ⊕ Fin 0 → ℝ) (i j : ι) : r2 J.pin x i j = J.g2 (pin0 κ x) (.inl i) (.inl j) := by
  simp [r2, Jets.pin]
lemma pin_r3 (J : Jets ι κ) (x : ι ⊕ Fin 0 → ℝ) (i j k : ι) :
    r3 J.pin x i j k = J.g3 (pin0 κ x) (.inl i) (.inl j) (.inl k) := by simp [r3, Jets.pin]
lemma pin_r3s (J : Jets ι κ) (x : ι ⊕ Fin 0 → ℝ) (i j k : ι) :
    r3s J.pin x i j k = J.g3 (pin0 κ x) (.inl i) (.inl j) (.inl k) := by simp [r3s, Jets.pin]

end

end Verif.Thermo.Ordering
