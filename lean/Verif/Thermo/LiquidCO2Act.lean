import Verif.Thermo.LiquidCO2Props

/-!
C66: activities and chemical potentials of the silicate liquid with a dissolved carbonate species
(`actLiq_CO2`, liquid_CO2.c 3098-3185; `actLiq_CO2_H2O` is the same function).

Line numbers are those of liquid_CO2.c.
-/

namespace Verif.Thermo.LiquidCO2

open Finset Filter Topology
open Verif.Thermo.Ordering
open Verif.Thermo.StdState (Std)
open Magma.Thermo.Mixing (R R_pos Mix partial_of_grad)
open Magma.Thermo.Extensive
open Magma.Thermo.Compo

noncomputable section

variable (P : Par)

/-! ### Model -/

/-- `rsEndmembers[i][j]`, lines 300-336, for the components. -/
def rsE (i : Fin 19) (j : Fin 18) : ℝ := if i = j.succ then 1 else 0

/-- `fr[i][j]`, line 3119. -/
def frL (r : Fin 18 → ℝ) (i : Fin 19) (j : Fin 18) : ℝ := rsE i j - r j

/-- `mu[i]`, lines 3136-3142; `X` is the speciation found by `order()`. -/
def liqMu (X : (Ext 18 → ℝ) → Fin 1 → ℝ) (t p : ℝ) (r : Fin 18 → ℝ) (i : Fin 19) : ℝ :=
  let T := code P (pt X (env r t p))
  T.g + ∑ j, frL r i j * T.dgdr j - P.G t p i.castSucc

/-- `a[i]`, lines 3128-3134. -/
def liqAct (X : (Ext 18 → ℝ) → Fin 1 → ℝ) (t p : ℝ) (r : Fin 18 → ℝ) (i : Fin 19) : ℝ :=
  let T := code P (pt X (env r t p))
  Real.exp ((T.g + ∑ j, frL r i j * T.dgdr j - P.G t p i.castSucc) / (R * t))

/-- `dx[i][k]`, lines 3144-3186: `gs[i][0]` is `0 - s`, `dfrdr` is `-1`. -/
def liqDact (X : (Ext 18 → ℝ) → Fin 1 → ℝ) (t p : ℝ) (r : Fin 18 → ℝ) (i : Fin 19) (k : Fin 18) : ℝ :=
  let T := code P (pt X (env r t p))
  let s := X (env r t p) 0
  let dsdr := ds T s (.inl k) 0
  ((1 + -1) * T.dgdr k
    + ∑ j, (frL r i j * T.d2gdr2 j k + frL r i j * T.d2gdrds j 0 * dsdr)
    + ((0 - s) * T.d2gdrds k 0 + (0 - s) * T.d2gds2 0 0 * dsdr)) * (liqAct P X t p r i / (R * t))

/-! ### The potentials in terms of the Gibbs energy of mixing -/

variable {P} {X : (Ext 18 → ℝ) → Fin 1 → ℝ}

lemma sum_rsE (i : Fin 19) (f : Fin 18 → ℝ) (g : ℝ) (c : Fin 19 → ℝ) (hc : ∀ j, f j = c 0 - c j.succ) :
    ∑ j, rsE i j * f j = c 0 - c i := by
  refine Fin.cases ?_ (fun j => ?_) i
  · have : ∀ j : Fin 18, rsE 0 j = 0 := fun j => if_neg (Fin.succ_ne_zero j).symm
    simp [this]
  · simp [rsE, Fin.succ_inj, hc]

/-- Subtracting the end member is the same as subtracting the mechanical mixture. -/
lemma liqMu_eq (t p : ℝ) (r : Fin 18 → ℝ) (i : Fin 19) : liqMu P X t p r i = muO (liqMix P X) frL t p r i := by
  have h := sum_rsE i (fun j => P.G t p (0 : Fin 20) - P.G t p j.succ.castSucc) 0 (fun i => P.G t p i.castSucc)
    fun j => rfl
  simp only [liqMu, muO, liqMix, ofVal, MixVal.add, rawVal, mechVal, Par.endStd, mul_add, sum_add_distrib]
  have e : ∑ j, frL r i j * (P.G t p (Fin.castSucc (0 : Fin 19)) - P.G t p j.succ.castSucc)
      = (P.G t p 0 - P.G t p i.castSucc) - ∑ j, r j * (P.G t p 0 - P.G t p j.succ.castSucc) := by
    have h' : ∑ j, rsE i j * (P.G t p (0 : Fin 20) - P.G t p j.succ.castSucc) = P.G t p 0 - P.G t p i.castSucc := h
    rw [← h', ← sum_sub_distrib]
    refine sum_congr rfl fun j _ => ?_
    simp only [frL, Fin.castSucc_zero]; ring
  rw [e]
  simp only [Fin.castSucc_zero]
  ring

/-- Component `i` of the liquid is SiO2 or among the components `A`. -/
def inLiq (A : Finset (Fin 18)) (i : Fin 19) : Prop := i = 0 ∨ ∃ j ∈ A, i = j.succ

lemma fr_absent {A : Finset (Fin 18)} {i : Fin 19} (hi : inLiq A i) {r : Fin 18 → ℝ} (hr : ∀ j, j ∉ A → r j = 0)
    {j : Fin 18} (hj : j ∉ A) : frL r i j = 0 := by
  unfold frL rsE
  rw [hr j hj, sub_zero, if_neg]
  rintro rfl
  rcases hi with h | ⟨k, hk, h⟩
  · exact Fin.succ_ne_zero _ h
  · exact hj (Fin.succ_injective _ h ▸ hk)

lemma mask_self {A : Finset (Fin 18)} {r : Fin 18 → ℝ} (hr : ∀ j, j ∉ A → r j = 0) : mask A r = r := by
  funext j
  by_cases h : j ∈ A
  · simp [mask, h]
  · simp [mask, h, hr j h]

lemma muO_on {M : Mix 18} {A : Finset (Fin 18)} {i : Fin 19} (hi : inLiq A i) {t p : ℝ} {r : Fin 18 → ℝ}
    (hr : ∀ j, j ∉ A → r j = 0) : muO (on A M) frL t p r i = muO M frL t p r i := by
  unfold muO
  have e1 : (on A M).g t p r = M.g t p r := by
    change M.g t p (mask A r) = _; rw [mask_self hr]
  rw [e1]
  congr 1
  refine sum_congr rfl fun j _ => ?_
  by_cases h : j ∈ A
  · change frL r i j * (if j ∈ A then M.gr t p (mask A r) j else 0) = _
    rw [if_pos h, mask_self hr]
  · rw [fr_absent hi hr h]; simp

/-- The chemical potential reported for a component of the liquid that is present is the derivative of
the liquid's total Gibbs energy of mixing in the moles of that component. -/
lemma potential_of {A : Finset (Fin 18)} {U : Set (Ext 18 → ℝ)} (hC : ConsistentOn (on A (liqMix P X)) (On U))
    {t p : ℝ} {m : Fin 19 → ℝ} (hm : ∑ i, m i ≠ 0) (hA : ∀ j, j ∉ A → m j.succ = 0)
    (hU : env (fun k => m k.succ / ∑ i, m i) t p ∈ U) {i : Fin 19} (hi : inLiq A i) :
    Partial (fun m => (∑ i, m i) * (liqMix P X).g t p (fun k => m k.succ / ∑ i, m i)) m i
      (liqMu P X t p (fun k => m k.succ / ∑ i, m i) i) := by
  have e1 : ∀ m : Fin 19 → ℝ, (simpleConv (0 : Fin 19)).toR m = fun k => m k.succ / ∑ i, m i := by
    intro m; funext k
    change (if total m ≠ 0 then m ((0 : Fin 19).succAbove k) / total m else 0) = _
    by_cases h : total m = 0
    · have h' : ∑ i, m i = 0 := h
      simp [h, h']
    · rw [if_pos h]; simp [total]
  have hr : ∀ m : Fin 19 → ℝ, (∀ j, j ∉ A → m j.succ = 0) → ∀ j, j ∉ A → m j.succ / ∑ i, m i = 0 :=
    fun m h j hj => by rw [h j hj, zero_div]
  have hfr : ∀ i j, (∑ i, m i) * (simpleConv (0 : Fin 19)).dm m j i = frL ((simpleConv (0 : Fin 19)).toR m) i j := by
    intro i j
    rw [e1]
    have ht : total m ≠ 0 := hm
    change (∑ i, m i) * (if total m = 0 then 0 else if (0 : Fin 19).succAbove j = i then
      (1 - m ((0 : Fin 19).succAbove j) / total m) / total m else - m ((0 : Fin 19).succAbove j) / total m ^ 2) = _
    rw [if_neg ht]
    simp only [Fin.succAbove_zero, frL, rsE, total]
    by_cases h : i = j.succ
    · simp only [h, if_true]; field_simp
    · have h' : ¬(j.succ = i) := fun e => h e.symm
      simp only [h, h', if_false]; field_simp; ring
  have h := C24_ordering_potential hC (simpleConv (0 : Fin 19)) (C25_simple 0) (fr := frL) t p m hm hfr
    (by rw [e1]; exact hU) i
  rw [e1, muO_on hi (hr m hA), ← liqMu_eq] at h
  refine h.congr_of_eventuallyEq (Eventually.of_forall fun y => ?_)
  have hb : ∀ j, j ∉ A → bump m i y j.succ = 0 := by
    intro j hj
    unfold bump
    rw [hA j hj, if_neg, add_zero]
    intro e
    rcases hi with h | ⟨k, hk, h⟩
    · exact Fin.succ_ne_zero _ (e.trans h)
    · exact hj (Fin.succ_injective _ (e.trans h) ▸ hk)
  simp only [e1]
  congr 1
  change _ = (liqMix P X).g t p (mask A _)
  rw [mask_self (hr _ hb)]

/-- **C66.** With dissolved carbonate, the reported chemical potential of each component present is the derivative
of the total Gibbs energy of mixing in its moles. -/
theorem C66_potential {A : Finset (Fin 18)} {U : Set (Ext 18 → ℝ)} (h : Speciated P A X U)
    {t p : ℝ} {m : Fin 19 → ℝ} (hm : ∑ i, m i ≠ 0) (hA : ∀ j, j ∉ A → m j.succ = 0)
    (hU : env (fun k => m k.succ / ∑ i, m i) t p ∈ U) {i : Fin 19} (hi : i = 0 ∨ ∃ j ∈ A, i = j.succ) :
    Partial (fun m => (∑ i, m i) * (liqMix P X).g t p (fun k => m k.succ / ∑ i, m i)) m i
      (liqMu P X t p (fun k => m k.succ / ∑ i, m i) i) :=
  potential_of (C66_speciated h) hm hA hU hi

/-- **C66.** The same without carbonate. -/
theorem C66_potential_unspeciated {A : Finset (Fin 18)} {U : Set (Ext 18 → ℝ)} (h : Pinned P A X U)
    {t p : ℝ} {m : Fin 19 → ℝ} (hm : ∑ i, m i ≠ 0) (hA : ∀ j, j ∉ A → m j.succ = 0)
    (hU : env (fun k => m k.succ / ∑ i, m i) t p ∈ U) {i : Fin 19} (hi : i = 0 ∨ ∃ j ∈ A, i = j.succ) :
    Partial (fun m => (∑ i, m i) * (liqMix P X).g t p (fun k => m k.succ / ∑ i, m i)) m i
      (liqMu P X t p (fun k => m k.succ / ∑ i, m i) i) :=
  potential_of (C66_unspeciated h) hm hA hU hi

/-- **C66.** The logarithm of the reported activity is the reported potential over `RT`. -/
theorem C66_activity {t : ℝ} (ht : t ≠ 0) (p : ℝ) (r : Fin 18 → ℝ) (i : Fin 19) :
    R * t * Real.log (liqAct P X t p r i) = liqMu P X t p r i := by
  have := R_pos.ne'
  unfold liqAct liqMu
  rw [Real.log_exp]
  field_simp

/-- **C66.** The potentials weighted with the mole fractions sum to the Gibbs energy of mixing. -/
theorem C66_euler (t p : ℝ) (r : Fin 18 → ℝ) :
    (1 - ∑ j, r j) * liqMu P X t p r 0 + ∑ j, r j * liqMu P X t p r j.succ = (liqMix P X).g t p r := by
  have h := C24_ordering_euler (liqMix P X) frL t p r (Fin.cons (1 - ∑ j, r j) r) (by
    rw [Fin.sum_univ_succ]; simp) (by
    intro j
    rw [Fin.sum_univ_succ]
    simp only [Fin.cons_zero, Fin.cons_succ, frL, rsE, mul_sub, sum_sub_distrib, Fin.succ_inj]
    have : ¬((0 : Fin 19) = j.succ) := (Fin.succ_ne_zero j).symm
    simp only [this, if_false, mul_ite, mul_one, mul_zero, sum_ite_eq', mem_univ, if_true, ← sum_mul]
    ring)
  rw [Fin.sum_univ_succ] at h
  simpa only [Fin.cons_zero, Fin.cons_succ, ← liqMu_eq] using h

/-- Derivative of the activity from consistency of the mixing functions. -/
lemma dact_of {A : Finset (Fin 18)} {U : Set (Ext 18 → ℝ)} (hC : ConsistentOn (on A (liqMix P X)) (On U))
    {t p : ℝ} {r : Fin 18 → ℝ} (hA : ∀ j, j ∉ A → r j = 0) (hU : env r t p ∈ U) {i : Fin 19} (hi : inLiq A i)
    {k : Fin 18} (hk : k ∈ A) :
    Partial (fun r => liqAct P X t p r i) r k
      (liqAct P X t p r i * ((∑ j, frL r i j * (liqMix P X).grr t p r j k) / (R * t))) := by
  set M := on A (liqMix P X) with hM
  have h1 : HasDerivAt (fun y => M.g t p (bump r k y)) (M.gr t p r k) 0 := partial_of_grad (hC.g_r t p r hU) k
  have h2 : ∀ j, HasDerivAt (fun y => M.gr t p (bump r k y) j) (M.grr t p r j k) 0 := fun j =>
    partial_of_grad (hC.g_rr t p r hU j) k
  have h3 : ∀ j, HasDerivAt (fun y => frL (bump r k y) i j) (-(if j = k then 1 else 0)) 0 := by
    intro j
    unfold frL bump
    split_ifs
    · exact ((hasDerivAt_id' (0 : ℝ)).const_add (r j)).const_sub _
    · simpa using hasDerivAt_const (0 : ℝ) (rsE i j - (r j + 0))
  have hb : ∀ y, ∀ j, j ∉ A → bump r k y j = 0 := by
    intro y j hj
    unfold bump
    rw [hA j hj, if_neg (fun e => hj (by rw [e]; exact hk)), add_zero]
  have b0 : bump r k 0 = r := by funext j; simp [bump]
  have h4 := h1.add (HasDerivAt.fun_sum fun j (_ : j ∈ univ) => (h3 j).mul (h2 j))
  have h5 : HasDerivAt (fun y => liqMu P X t p (bump r k y) i) (∑ j, frL r i j * (liqMix P X).grr t p r j k) 0 := by
    refine (h4.congr_of_eventuallyEq (Eventually.of_forall fun y => ?_)).congr_deriv ?_
    · simp only [Pi.add_apply, Pi.mul_apply]
      rw [liqMu_eq, ← muO_on hi (hb y)]
      rfl
    · rw [b0, sum_add_distrib]
      have e1 : ∑ j, -(if j = k then (1 : ℝ) else 0) * M.gr t p r j = -M.gr t p r k := by simp
      rw [e1]
      have e2 : ∀ j, frL r i j * M.grr t p r j k = frL r i j * (liqMix P X).grr t p r j k := by
        intro j
        by_cases h : j ∈ A
        · change frL r i j * (if j ∈ A ∧ k ∈ A then (liqMix P X).grr t p (mask A r) j k else 0) = _
          rw [if_pos ⟨h, hk⟩, mask_self hA]
        · rw [fr_absent hi hA h]; simp
      simp only [e2]
      ring
  have h6 := (h5.div_const (R * t)).exp
  refine HasDerivAt.congr_deriv (f := fun y => liqAct P X t p (bump r k y) i) h6 ?_
  rw [b0]
  rfl

lemma rawVal_grr (t p : ℝ) (r : Fin 18 → ℝ) (j k : Fin 18) : (liqMix P X).grr t p r j k
    = q2 (arr (code P (pt X (env r t p)))) 0 (ds (code P (pt X (env r t p))) (X (env r t p) 0)) (.inl j) (.inl k) := by
  simp [liqMix, ofVal, MixVal.add, rawVal, mechVal]

/-- **C66.** The reported derivatives of the activities are their derivatives: of every component present, with
respect to the amount of every component present, with dissolved carbonate. -/
theorem C66_activity_derivative {A : Finset (Fin 18)} {U : Set (Ext 18 → ℝ)} (h : Speciated P A X U)
    {t p : ℝ} {r : Fin 18 → ℝ} (hA : ∀ j, j ∉ A → r j = 0) (hU : env r t p ∈ U) {i : Fin 19}
    (hi : i = 0 ∨ ∃ j ∈ A, i = j.succ) {k : Fin 18} (hk : k ∈ A) :
    Partial (fun r => liqAct P X t p r i) r k (liqDact P X t p r i k) := by
  have h1 := dact_of (C66_speciated h) hA hU hi hk
  have h0 : 0 < X (env r t p) 0 := by
    have := h.caco3 _ hU
    rwa [spAt, spOf, sp_last, cutE_env, mask_self hA] at this
  have hreg := h.regular _ hU
  rw [cutE_env, mask_self hA] at hreg
  refine HasDerivAt.congr_deriv h1 ?_
  unfold liqDact
  set T := code P (pt X (env r t p)) with hT
  set s := X (env r t p) 0 with hs
  have z : T.d2gdrds k 0 + T.d2gds2 0 0 * ds T s (.inl k) 0 = 0 := by
    have hdet : (negHess (arr T) (pt (fun _ : Ext 18 → ℝ => (0 : Fin 1 → ℝ)) 0)).det ≠ 0 := by
      rw [Matrix.det_fin_one]; exact neg_ne_zero.2 hreg
    have e := solve_row hdet (fun k' => (arr T).g2 0 (.inr k') (.inl (.inl k))) 0
    have e' : T.d2gds2 0 0 * ds T s (.inl k) 0 = -T.d2gdrds k 0 := by
      unfold ds
      rw [if_pos h0]
      rw [Fin.sum_univ_one] at e
      exact e
    rw [e']; ring
  have e2 : ∀ j, (liqMix P X).grr t p r j k = T.d2gdr2 j k + T.d2gdrds j 0 * ds T s (.inl k) 0 := by
    intro j
    rw [rawVal_grr]
    have q : q2 (arr T) 0 (ds T s) (.inl j) (.inl k)
      = T.d2gdr2 j k + ∑ l : Fin 1, (T.d2gdrds j l * ds T s (.inl k) l + T.d2gdrds k l * ds T s (.inl j) l
        + ∑ n : Fin 1, T.d2gds2 l n * ds T s (.inl j) l * ds T s (.inl k) n) := rfl
    rw [q]
    simp only [Fin.sum_univ_one, Fin.isValue]
    linear_combination ds T s (.inl j) 0 * z
  simp only [e2, ← hT, ← hs]
  have e3 : (0 - s) * T.d2gdrds k 0 + (0 - s) * T.d2gds2 0 0 * ds T s (.inl k) 0 = 0 := by
    linear_combination (-s) * z
  rw [e3]
  have e4 : ∑ j, (frL r i j * T.d2gdr2 j k + frL r i j * T.d2gdrds j 0 * ds T s (.inl k) 0)
      = ∑ j, frL r i j * (T.d2gdr2 j k + T.d2gdrds j 0 * ds T s (.inl k) 0) :=
    sum_congr rfl fun j _ => by ring
  rw [e4]
  ring

/-- **C66.** The same without carbonate. -/
theorem C66_activity_derivative_unspeciated {A : Finset (Fin 18)} {U : Set (Ext 18 → ℝ)} (h : Pinned P A X U)
    {t p : ℝ} {r : Fin 18 → ℝ} (hA : ∀ j, j ∉ A → r j = 0) (hU : env r t p ∈ U) {i : Fin 19}
    (hi : i = 0 ∨ ∃ j ∈ A, i = j.succ) {k : Fin 18} (hk : k ∈ A) :
    Partial (fun r => liqAct P X t p r i) r k (liqDact P X t p r i k) := by
  have h1 := dact_of (C66_unspeciated h) hA hU hi hk
  have h0 : X (env r t p) 0 = 0 := by
    have := h.caco3 _ hU
    rw [cutE_env, mask_self hA] at this
    rw [this]; rfl
  refine HasDerivAt.congr_deriv h1 ?_
  unfold liqDact
  set T := code P (pt X (env r t p)) with hT
  have hd : ∀ i, ds T (X (env r t p) 0) i = fun _ => 0 := fun i => by unfold ds; rw [h0, if_neg (lt_irrefl 0)]
  have e2 : ∀ j, (liqMix P X).grr t p r j k = T.d2gdr2 j k := by
    intro j
    rw [rawVal_grr, ← hT]
    have q : q2 (arr T) 0 (ds T (X (env r t p) 0)) (.inl j) (.inl k)
      = T.d2gdr2 j k + ∑ l : Fin 1, (T.d2gdrds j l * ds T (X (env r t p) 0) (.inl k) l
        + T.d2gdrds k l * ds T (X (env r t p) 0) (.inl j) l
        + ∑ n : Fin 1, T.d2gds2 l n * ds T (X (env r t p) 0) (.inl j) l * ds T (X (env r t p) 0) (.inl k) n) := rfl
    rw [q, hd, hd]; simp
  simp only [e2, ← hT, hd, mul_zero, add_zero]
  simp only [h0, sub_zero, zero_mul, add_zero]
  ring

end

end Verif.Thermo.LiquidCO2
