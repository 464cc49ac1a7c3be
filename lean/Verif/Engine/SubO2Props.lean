import Verif.Engine.SubO2Deriv

/-!
# C75: the oxygen potential of an assemblage without liquid
-/

namespace Magma.Engine.SubO2

open Finset Filter Topology Magma.Engine.System Magma.Thermo.Extensive Magma.Thermo.Compo
open Magma.Thermo.Mixing (Mix R)
open Verif.Thermo.StdState (Std oxygen)

noncomputable section

variable {K : ℕ} {S : Fin K → Solid} {nu : Reaction S} {T P : ℝ} {m : Amounts S}

/-! ### Specification -/

/-- The amounts with `h` moles of component `l` added to solid `i`. -/
def push (m : Amounts S) (i : Fin K) (l : Fin (S i).ph.na) (h : ℝ) : Amounts S := Function.update m i (bump (m i) l h)

/-- The tables of every solid fit together around the state. -/
def AllGood (S : Fin K → Solid) (T P : ℝ) (m : Amounts S) : Prop := ∀ i, (S i).Good T P (m i)

/-- No activity is at the lower limit. -/
def Free (S : Fin K → Solid) (T P : ℝ) (m : Amounts S) : Prop :=
  ∀ i, ∀ j ∈ (S i).on, (S i).ph.pure = false → 1 / 10 ^ 16 < (S i).act T P ((S i).ph.conv.toR (m i)) j

/-- The reaction is `O2 + 4 FeO = 2 Fe2O3` in the oxides, written in the components present. -/
structure Balanced (S : Fin K → Solid) (nc feo fe2o3 : ℕ) (nu : Reaction S) : Prop where
  oxy : nu.o = -1
  bal : ∀ o < nc, csum S (fun i j => nu.c i j * (S i).ph.ox j o) = if o = fe2o3 then 2 else if o = feo then -4 else 0

/-! ### The value -/

theorem a_eq {s : Solid} {m : Fin s.ph.na → ℝ} {j : Fin s.ph.na}
    (h : s.ph.pure = false → 1 / 10 ^ 16 < s.act T P (s.ph.conv.toR m) j) : a s T P m j = a' s T P m j := by
  unfold a a'
  cases hp : s.ph.pure
  · simp only [Bool.false_eq_true, if_false]
    exact max_eq_left (h hp).le
  · rfl

theorem csum_add (f g : ∀ i, Fin (S i).ph.na → ℝ) : csum S (fun i j => f i j + g i j) = csum S f + csum S g := by
  simp only [csum, sum_add_distrib]

theorem csum_mul (c : ℝ) (f : ∀ i, Fin (S i).ph.na → ℝ) : csum S (fun i j => c * f i j) = c * csum S f := by
  simp only [csum, mul_sum]

theorem csum_congr {f g : ∀ i, Fin (S i).ph.na → ℝ} (h : ∀ i, ∀ j ∈ (S i).on, f i j = g i j) : csum S f = csum S g :=
  sum_congr rfl fun i _ => sum_congr rfl fun j hj => h i j hj

theorem muO2_pot (hg : AllGood S T P m) (hf : Free S T P m) :
    muO2 S nu T P m = nu.o * (oxygen T P).g + csum S fun i j => nu.c i j * pot (S i) T P (m i) j := by
  unfold muO2
  have hlog : Real.log (∏ i, ∏ j ∈ (S i).on, a (S i) T P (m i) j ^ nu.c i j)
      = csum S fun i j => nu.c i j * Real.log (a' (S i) T P (m i) j) := by
    have hpos : ∀ i, ∀ j ∈ (S i).on, 0 < a (S i) T P (m i) j := fun i j hj => by
      rw [a_eq (hf i j hj)]; exact (act_pot (hg i) hj).1
    rw [Real.log_prod fun i _ => (prod_pos fun j hj => Real.rpow_pos_of_pos (hpos i j hj) _).ne']
    refine sum_congr rfl fun i _ => ?_
    rw [Real.log_prod fun j hj => (Real.rpow_pos_of_pos (hpos i j hj) _).ne']
    refine sum_congr rfl fun j hj => ?_
    rw [Real.log_rpow (hpos i j hj), a_eq (hf i j hj)]
  rw [hlog, ← csum_mul, add_assoc, ← csum_add]
  congr 1
  refine csum_congr fun i j hj => ?_
  rw [pot, ← (act_pot (hg i) hj).2]
  ring

/-- **C75.** The value returned is the change of Gibbs energy of the reaction without the mixing part of oxygen: each
coefficient times the derivative of the Gibbs energy of the solid in the moles of the component, and for oxygen the
standard state. -/
theorem C75_value (hg : AllGood S T P m) (hf : Free S T P m) (mu : ∀ i, Fin (S i).ph.na → ℝ)
    (hmu : ∀ i, ∀ j ∈ (S i).on, Partial ((S i).ph.G T P) (m i) j (mu i j)) :
    muO2 S nu T P m = nu.o * (oxygen T P).g + csum S fun i j => nu.c i j * mu i j := by
  rw [muO2_pot hg hf]
  congr 1
  refine csum_congr fun i j hj => ?_
  rw [(pot_first (hg i) hj).unique (hmu i j hj)]

/-- **C75.** If the solids are in equilibrium, their components having the potentials `λ` of the oxides would give, and the
reaction is balanced, the value returned is the potential of oxygen in the assemblage relative to the standard state:
`2 λ(Fe2O3) - 4 λ(FeO)` minus the Gibbs energy of oxygen, whichever balanced reaction was found or remembered. -/
theorem C75_equilibrium (hg : AllGood S T P m) (hf : Free S T P m) {nc feo fe2o3 : ℕ} (hfe : feo < nc) (hfe3 : fe2o3 < nc)
    (hne : feo ≠ fe2o3) (hb : Balanced S nc feo fe2o3 nu) (lam : ℕ → ℝ)
    (he : ∀ i, ∀ j ∈ (S i).on, Partial ((S i).ph.G T P) (m i) j (∑ o ∈ range nc, (S i).ph.ox j o * lam o)) :
    muO2 S nu T P m = 2 * lam fe2o3 - 4 * lam feo - (oxygen T P).g := by
  rw [C75_value hg hf _ he, hb.oxy]
  have e : csum S (fun i j => nu.c i j * ∑ o ∈ range nc, (S i).ph.ox j o * lam o)
      = ∑ o ∈ range nc, (if o = fe2o3 then 2 else if o = feo then -4 else 0) * lam o := by
    simp only [csum, mul_sum]
    rw [sum_congr rfl fun i _ => sum_comm, sum_comm]
    refine sum_congr rfl fun o ho => ?_
    rw [← hb.bal o (mem_range.1 ho), csum, sum_mul]
    refine sum_congr rfl fun i _ => ?_
    rw [sum_mul]
    exact sum_congr rfl fun j _ => by ring
  rw [e]
  have e2 : ∀ o ∈ range nc, (if o = fe2o3 then (2 : ℝ) else if o = feo then -4 else 0) * lam o
      = (if o = fe2o3 then 2 * lam o else 0) + if o = feo then -4 * lam o else 0 := by
    intro o _
    by_cases h1 : o = fe2o3
    · simp [h1, hne.symm]
    · simp [h1]
  rw [sum_congr rfl e2, sum_add_distrib, sum_ite_eq', sum_ite_eq', if_pos (mem_range.2 hfe), if_pos (mem_range.2 hfe3)]
  ring

/-! ### Derivatives -/

theorem above {φ f : ℝ → ℝ} {x c : ℝ} (hc : 0 < c) (hφ : ContinuousAt φ x) (e : ∀ᶠ h in 𝓝 x, 0 < f h ∧ Real.log (f h) = φ h)
    (hx : c < f x) : ∀ᶠ h in 𝓝 x, c < f h := by
  have h0 := e.self_of_nhds
  have h1 : Real.log c < φ x := by rw [← h0.2]; exact Real.log_lt_log hc hx
  filter_upwards [hφ.eventually (lt_mem_nhds h1), e] with h a b
  rw [← b.2] at a
  exact (Real.log_lt_log_iff hc b.1).1 a

theorem log_a {s : Solid} {m : Fin s.ph.na → ℝ} (g : s.Good T P m) {j : Fin s.ph.na} (hj : j ∈ s.on) :
    Real.log (a' s T P m j) = (pot s T P m j - (s.ph.std j T P).g) / (R * T) := by
  have h := (act_pot g hj).2
  have := Thermo.Mixing.R_pos.ne'
  have := g.tpos.ne'
  rw [pot, add_sub_cancel_left, ← h]
  field_simp

theorem good_T (hg : AllGood S T P m) : ∀ᶠ t in 𝓝 T, AllGood S t P m := eventually_all.2 fun i => (hg i).near_T

theorem good_P (hg : AllGood S T P m) : ∀ᶠ p in 𝓝 P, AllGood S T p m := eventually_all.2 fun i => (hg i).near_P

theorem push_self (i : Fin K) (l : Fin (S i).ph.na) (h : ℝ) : push m i l h i = bump (m i) l h := Function.update_self ..

theorem push_ne {i i' : Fin K} (hi : i' ≠ i) (l : Fin (S i).ph.na) (h : ℝ) : push m i l h i' = m i' := Function.update_of_ne hi ..

theorem push_zero (i : Fin K) (l : Fin (S i).ph.na) : push m i l 0 = m := by
  unfold push; rw [bump_zero, Function.update_eq_self]

theorem good_m (hg : AllGood S T P m) {i : Fin K} {l : Fin (S i).ph.na} (hl : l ∈ (S i).on) :
    ∀ᶠ h in 𝓝 (0 : ℝ), AllGood S T P (push m i l h) := by
  filter_upwards [(hg i).near_m hl] with h hh i'
  by_cases e : i' = i
  · subst e; rw [push_self]; exact hh
  · rw [push_ne e]; exact hg i'

theorem free_a {s : Solid} {m : Fin s.ph.na → ℝ} (hp : s.ph.pure = false) (j : Fin s.ph.na) :
    a' s T P m j = s.act T P (s.ph.conv.toR m) j := by simp [a', hp]

theorem free_T (hg : AllGood S T P m) (hf : Free S T P m) : ∀ᶠ t in 𝓝 T, Free S t P m := by
  refine eventually_all.2 fun i => (eventually_all_finset _).2 fun j hj => ?_
  by_cases hp : (S i).ph.pure = false
  · have hc : ContinuousAt (fun t => (pot (S i) t P (m i) j - ((S i).ph.std j t P).g) / (R * t)) T :=
      ((pot_T (hg i) hj).continuousAt.sub ((hg i).std.self_of_nhds j).entropy.continuousAt).div
        (by fun_prop) (mul_pos Thermo.Mixing.R_pos (hg i).tpos).ne'
    have h := above (c := 1 / 10 ^ 16) (by norm_num) hc ((hg i).near_T.mono fun t ht => ⟨(act_pot ht hj).1, log_a ht hj⟩)
      (by rw [free_a hp]; exact hf i j hj hp)
    filter_upwards [h] with t ht _
    rwa [free_a hp] at ht
  · exact Eventually.of_forall fun _ h => absurd h hp

theorem free_P (hg : AllGood S T P m) (hf : Free S T P m) : ∀ᶠ p in 𝓝 P, Free S T p m := by
  refine eventually_all.2 fun i => (eventually_all_finset _).2 fun j hj => ?_
  by_cases hp : (S i).ph.pure = false
  · have hc : ContinuousAt (fun p => (pot (S i) T p (m i) j - ((S i).ph.std j T p).g) / (R * T)) P :=
      ((pot_P (hg i) hj).continuousAt.sub ((hg i).std.self_of_nhds j).volume.continuousAt).div_const _
    have h := above (c := 1 / 10 ^ 16) (by norm_num) hc ((hg i).near_P.mono fun t ht => ⟨(act_pot ht hj).1, log_a ht hj⟩)
      (by rw [free_a hp]; exact hf i j hj hp)
    filter_upwards [h] with t ht _
    rwa [free_a hp] at ht
  · exact Eventually.of_forall fun _ h => absurd h hp

theorem free_m (hg : AllGood S T P m) (hf : Free S T P m) {i : Fin K} {l : Fin (S i).ph.na} (hl : l ∈ (S i).on) :
    ∀ᶠ h in 𝓝 (0 : ℝ), Free S T P (push m i l h) := by
  refine eventually_all.2 fun i' => (eventually_all_finset _).2 fun j hj => ?_
  by_cases e : i' = i
  · subst e
    simp only [push_self]
    by_cases hp : (S i').ph.pure = false
    · have hd : HasDerivAt _ _ _ := gib_m (hg i') hj hl hp
      have hc : ContinuousAt (fun h => (pot (S i') T P (bump (m i') l h) j - ((S i').ph.std j T P).g) / (R * T)) 0 := by
        simp only [pot, add_sub_cancel_left]
        exact hd.continuousAt.div_const _
      have h := above (c := 1 / 10 ^ 16) (by norm_num) hc (((hg i').near_m hl).mono fun t ht => ⟨(act_pot ht hj).1, log_a ht hj⟩)
        (by rw [free_a hp, bump_zero]; exact hf i' j hj hp)
      filter_upwards [h] with t ht _
      rwa [free_a hp] at ht
    · exact Eventually.of_forall fun _ h => absurd h hp
  · simp only [push_ne e]
    exact Eventually.of_forall fun _ => hf i' j hj

theorem oxygen_T (hT : 0 < T) : HasDerivAt (fun t => (oxygen t P).g) (-(oxygen T P).s) T ∧
    HasDerivAt (fun t => (oxygen t P).s) ((oxygen T P).cp / T) T := by
  have h := Verif.Thermo.StdState.C60_oxygen P hT
  refine ⟨h.2.1, ?_⟩
  have e : (fun t => (oxygen t P).s) =ᶠ[𝓝 T] fun t => ((oxygen t P).h - (oxygen t P).g) / t := by
    filter_upwards [lt_mem_nhds hT] with t ht
    rw [(Verif.Thermo.StdState.C60_oxygen P ht).1]
    field_simp
    ring
  refine (((h.2.2.1.sub h.2.1).div (hasDerivAt_id' T) hT.ne').congr_deriv ?_).congr_of_eventuallyEq e
  simp only [Pi.sub_apply, h.1]
  field_simp
  ring

theorem oxygen_P (p p' : ℝ) : (oxygen T p).g = (oxygen T p').g := rfl

theorem csum_deriv {f : ℝ → ∀ i, Fin (S i).ph.na → ℝ} {d : ∀ i, Fin (S i).ph.na → ℝ} {x : ℝ} (c : ∀ i, Fin (S i).ph.na → ℝ)
    (h : ∀ i, ∀ j ∈ (S i).on, HasDerivAt (fun t => f t i j) (d i j) x) :
    HasDerivAt (fun t => csum S fun i j => c i j * f t i j) (csum S fun i j => c i j * d i j) x :=
  HasDerivAt.fun_sum fun i _ => HasDerivAt.fun_sum fun j hj => (h i j hj).const_mul (c i j)

theorem csum_push {f : ∀ i, (Fin (S i).ph.na → ℝ) → Fin (S i).ph.na → ℝ} {i : Fin K} {l : Fin (S i).ph.na}
    {d : Fin (S i).ph.na → ℝ} (c : ∀ i, Fin (S i).ph.na → ℝ)
    (h : ∀ j ∈ (S i).on, Partial (fun m => f i m j) (m i) l (d j)) :
    HasDerivAt (fun h => csum S fun i' j => c i' j * f i' (push m i l h i') j) (∑ j ∈ (S i).on, c i j * d j) 0 := by
  have h1 := HasDerivAt.fun_sum (u := (univ : Finset (Fin K))) (x := (0 : ℝ))
    (A := fun i' h => ∑ j ∈ (S i').on, c i' j * f i' (push m i l h i') j)
    (A' := fun i' => if i' = i then ∑ j ∈ (S i).on, c i j * d j else 0) fun i' _ => by
      by_cases e : i' = i
      · subst e
        simp only [push_self, if_pos]
        exact HasDerivAt.fun_sum fun j hj => (h j hj).const_mul (c i' j)
      · simp only [push_ne e, e, if_false]
        exact hasDerivAt_const _ _
  rw [sum_ite_eq', if_pos (mem_univ i)] at h1
  exact h1

variable (nu) (hg : AllGood S T P m)
include hg

/-- **C75.** The temperature derivative returned. -/
theorem C75_dt (hT : 0 < T) (hf : Free S T P m) : HasDerivAt (fun t => muO2 S nu t P m) (dt S nu T P m) T := by
  have h := ((oxygen_T (P := P) hT).1.const_mul nu.o).add (csum_deriv nu.c fun i j hj => pot_T (hg i) hj)
  refine (h.congr_deriv ?_).congr_of_eventuallyEq ?_
  · rw [dt, ← sub_eq_zero]
    simp only [mul_neg, mul_add, csum_add, csum, sum_neg_distrib, neg_add, sum_add_distrib]
    ring
  · filter_upwards [good_T hg, free_T hg hf] with t a b
    exact muO2_pot a b

/-- **C75.** The pressure derivative returned. -/
theorem C75_dp (hf : Free S T P m) : HasDerivAt (fun p => muO2 S nu T p m) (dp S nu T P m) P := by
  have h := (hasDerivAt_const P (nu.o * (oxygen T P).g)).add (csum_deriv nu.c fun i j hj => pot_P (hg i) hj)
  refine (h.congr_deriv ?_).congr_of_eventuallyEq ?_
  · rw [dp]
    simp only [mul_add, csum_add]
    ring
  · filter_upwards [good_P hg, free_P hg hf] with t a b
    exact muO2_pot a b

theorem dm_eq {i : Fin K} {l : Fin (S i).ph.na} (hl : l ∈ (S i).on) :
    dm S nu T P m i l = if (S i).ph.pure then 0
      else ∑ j ∈ (S i).on, nu.c i j * second (S i) ((S i).ph.mix.gr T P) ((S i).ph.mix.grr T P) (m i) l j := by
  unfold dm
  cases hp : (S i).ph.pure
  · simp only [Bool.false_eq_true, if_false]
    rw [sum_mul]
    refine sum_congr rfl fun j hj => ?_
    rw [← dadm_eq (hg i) hj hl hp]
    ring
  · simp [dadm, hp]

/-- **C75.** The derivative returned in the moles of a component that is present. -/
theorem C75_dm (hf : Free S T P m) {i : Fin K} {l : Fin (S i).ph.na} (hl : l ∈ (S i).on) :
    HasDerivAt (fun h => muO2 S nu T P (push m i l h)) (dm S nu T P m i l) 0 := by
  have h := (csum_push (m := m) (l := l) (f := fun i m j => pot (S i) T P m j) nu.c (i := i)
    (d := fun j => if (S i).ph.pure then 0 else second (S i) ((S i).ph.mix.gr T P) ((S i).ph.mix.grr T P) (m i) l j)
    fun j hj => ?_).const_add (nu.o * (oxygen T P).g)
  · refine (h.congr_deriv ?_).congr_of_eventuallyEq ?_
    · rw [dm_eq nu hg hl]
      split_ifs with hp <;> simp
    · filter_upwards [good_m hg hl, free_m hg hf hl] with t a b
      exact muO2_pot a b
  · unfold Partial pot
    cases hp : (S i).ph.pure
    · simp only [Bool.false_eq_true, if_false]
      exact HasDerivAt.const_add _ (gib_m (hg i) hj hl hp)
    · simp only [pmix, hp, if_true]
      exact hasDerivAt_const _ _

/-- **C75.** The second temperature derivative returned is the derivative of the first. -/
theorem C75_d2t2 (hT : 0 < T) : HasDerivAt (fun t => dt S nu t P m) (d2t2 S nu T P m) T := by
  have h := (((oxygen_T (P := P) hT).2.const_mul nu.o).add (csum_deriv nu.c fun i j hj => ent_T (hg i) hj)).neg
  refine (h.congr_deriv ?_).congr_of_eventuallyEq (Eventually.of_forall fun t => ?_)
  · rw [d2t2]
    simp only [mul_div_assoc', ← sum_div, mul_add, csum, sum_add_distrib]
    ring
  · change dt S nu t P m = -(_ + _)
    rw [dt]
    simp only [mul_add, csum_add]
    ring

/-- **C75.** The second pressure derivative returned is the derivative of the first. -/
theorem C75_d2p2 : HasDerivAt (fun p => dp S nu T p m) (d2p2 S nu T P m) P := by
  have h := csum_deriv nu.c fun i j hj => vol_P (hg i) hj
  refine (h.congr_deriv ?_).congr_of_eventuallyEq (Eventually.of_forall fun t => ?_)
  · rw [d2p2]
    simp only [mul_add, csum_add]
    ring
  · simp only [dp, mul_add, csum_add]
    ring

/-- **C75.** The mixed derivative returned is the temperature derivative of the pressure derivative. -/
theorem C75_d2tp : HasDerivAt (fun t => dp S nu t P m) (d2tp S nu T P m) T := by
  have h := csum_deriv nu.c fun i j hj => vol_T (hg i) hj
  refine (h.congr_deriv ?_).congr_of_eventuallyEq (Eventually.of_forall fun t => ?_)
  · rw [d2tp]
    simp only [mul_add, csum_add]
    ring
  · simp only [dp, mul_add, csum_add]
    ring

/-- **C75.** The derivative in temperature and moles returned is the derivative in moles of the temperature derivative. -/
theorem C75_d2mt {i : Fin K} {l : Fin (S i).ph.na} (hl : l ∈ (S i).on) :
    HasDerivAt (fun h => dt S nu T P (push m i l h)) (d2mt S nu T P m i l) 0 := by
  have h := (csum_push (m := m) (l := l) (f := fun i m j => pmix (S i) ((S i).ph.mix.s T P) ((S i).ph.mix.sr T P) m j) nu.c (i := i)
    (d := fun j => if (S i).ph.pure then 0 else second (S i) ((S i).ph.mix.sr T P) ((S i).ph.mix.srr T P) (m i) l j)
    fun j hj => ?_).const_sub (-(nu.o * (oxygen T P).s + csum S (fun i j => nu.c i j * ((S i).ph.std j T P).s)))
  · refine h.congr_deriv ?_
    rw [d2mt]
    split_ifs with hp <;> simp
  · unfold Partial
    cases hp : (S i).ph.pure
    · simp only [Bool.false_eq_true, if_false]
      exact ent_m (hg i) hj hl hp
    · simp only [pmix, hp, if_true]
      exact hasDerivAt_const _ _

/-- **C75.** The derivative in pressure and moles returned is the derivative in moles of the pressure derivative. -/
theorem C75_d2mp {i : Fin K} {l : Fin (S i).ph.na} (hl : l ∈ (S i).on) :
    HasDerivAt (fun h => dp S nu T P (push m i l h)) (d2mp S nu T P m i l) 0 := by
  have h := (csum_push (m := m) (l := l) (f := fun i m j => pmix (S i) ((S i).ph.mix.v T P) ((S i).ph.mix.vr T P) m j) nu.c (i := i)
    (d := fun j => if (S i).ph.pure then 0 else second (S i) ((S i).ph.mix.vr T P) ((S i).ph.mix.vrr T P) (m i) l j)
    fun j hj => ?_).const_add (nu.o * 0 + csum S (fun i j => nu.c i j * ((S i).ph.std j T P).v))
  · refine h.congr_deriv ?_
    rw [d2mp]
    split_ifs with hp <;> simp
  · unfold Partial
    cases hp : (S i).ph.pure
    · simp only [Bool.false_eq_true, if_false]
      exact vol_m (hg i) hj hl hp
    · simp only [pmix, hp, if_true]
      exact hasDerivAt_const _ _

/-- **C75.** The second derivatives in moles returned are the derivatives of the first ones, for components of the same solid
or of different solids. -/
theorem C75_d2m {i : Fin K} {l : Fin (S i).ph.na} (hl : l ∈ (S i).on) {i' : Fin K} {q : Fin (S i').ph.na} (hq : q ∈ (S i').on) :
    HasDerivAt (fun h => dm S nu T P (push m i' q h) i l) (d2m S nu T P m i l i' q) 0 := by
  by_cases e : i' = i
  · subst e
    have hd : d2m S nu T P m i' l i' q = d2same S nu T P m i' l q := by simp [d2m]
    rw [hd, d2same]
    have ev : (fun h => dm S nu T P (push m i' q h) i' l) =ᶠ[𝓝 0] fun h => if (S i').ph.pure then 0
        else ∑ j ∈ (S i').on, nu.c i' j * second (S i') ((S i').ph.mix.gr T P) ((S i').ph.mix.grr T P) (bump (m i') q h) l j := by
      filter_upwards [good_m hg hq] with h hh
      rw [dm_eq nu hh hl, push_self]
    refine HasDerivAt.congr_of_eventuallyEq ?_ ev
    cases hp : (S i').ph.pure
    · simp only [Bool.false_eq_true, if_false]
      exact HasDerivAt.fun_sum fun j hj => (gib_third (hg i') hj hl hq hp).const_mul _
    · simp only [if_true]
      exact hasDerivAt_const _ _
  · have hd : d2m S nu T P m i l i' q = 0 := by simp [d2m, e]
    rw [hd]
    have : (fun h => dm S nu T P (push m i' q h) i l) = fun _ => dm S nu T P m i l := by
      funext h
      simp only [dm, push_ne (Ne.symm e)]
    rw [this]
    exact hasDerivAt_const _ _

end

end Magma.Engine.SubO2
