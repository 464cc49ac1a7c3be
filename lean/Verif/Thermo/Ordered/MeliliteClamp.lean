import Verif.Thermo.Ordered.MeliliteProps

/-!
The iteration of `order()` in melilite.c (1415-1479) and a defect of it: the ordering parameter is kept above `-r[2]/2`
(1474), although the site fractions stay positive down to `-r[2]` (and `-r[0]`). In melilites with soda the equilibrium state can
lie below that bound; then no state the iteration visits is the equilibrium state, and the energy of mixing it reports does not
have the composition derivative it reports.
-/

namespace Verif.Thermo.Ordering.Melilite

open Finset Filter Topology
open Magma.Thermo.Mixing (R R_pos Mix)

noncomputable section

/-- The arguments of the macros at ordering state `s`. -/
def here (t p : ℝ) (r : Fin 3 → ℝ) (s : ℝ) : Var 3 1 → ℝ := join (env r t p, ![s])

/-- The ordering parameter recomputed from the bounded site fractions, melilite.c 1428-1455. -/
def seen (t p : ℝ) (r : Fin 3 → ℝ) (s : ℝ) : ℝ := site (here t p r s) 6 - site (here t p r s) 4 / 2

/-- The least ordering parameter the iteration admits, melilite.c 1474. -/
def lower (r : Fin 3 → ℝ) : ℝ := -r 2 / 2 + dblEps

/-- Bounds on the new ordering parameter, melilite.c 1473-1474. -/
def bound (r : Fin 3 → ℝ) (s : ℝ) : ℝ := max (min s (r 0 - dblEps)) (lower r)

/-- The macros as evaluated in the loop, melilite.c 1457-1458: bounded site fractions, recomputed ordering parameter. -/
def local_ (t p : ℝ) (r : Fin 3 → ℝ) (s : ℝ) : Tables 3 1 := tables (site (here t p r s)) (here t p r (seen t p r s))

/-- One pass of the loop, melilite.c 1426-1477: from `sNew` to the new `sOld` and `sNew`. The `1 × 1` system is solved by a division. -/
def pass (t p : ℝ) (r : Fin 3 → ℝ) (s : ℝ) : ℝ × ℝ :=
  (seen t p r s, bound r (seen t p r s + (local_ t p r s).dgds 0 / -(local_ t p r s).d2gds2 0 0))

/-- The loop, melilite.c 1422-1479, with the number of passes left; the result is `sOld`. -/
def loop (t p : ℝ) (r : Fin 3 → ℝ) : ℕ → ℝ → ℝ → ℝ
  | 0, o, _ => o
  | n + 1, o, s => if 10 * dblEps < |s - o| then loop t p r n (pass t p r s).1 (pass t p r s).2 else o

/-- The ordering state `order()` returns, melilite.c 1420-1422 (`MAX_ITER` is 100, line 129) and 1509-1511. -/
def found (t p : ℝ) (r : Fin 3 → ℝ) : ℝ := loop t p r 100 2 (guess r 0)

/-- Compositions at which the bounds of the iteration lie inside the possible states, in order. -/
structure Room (r : Fin 3 → ℝ) : Prop where
  present : Present r
  al : r 2 / 2 ≤ r 0
  low : lower r ≤ guess r 0
  high : guess r 0 ≤ r 0 - dblEps

lemma in_of {r : Fin 3 → ℝ} (h : Room r) {s : ℝ} (h1 : lower r ≤ s) (h2 : s ≤ r 0 - dblEps) : MeliliteSlope.In (r 0) (r 2) s := by
  obtain ⟨⟨p0, p1, p2, p3⟩, ha, -, -⟩ := h
  have he := dblEps_pos
  unfold lower at h1
  exact ⟨p2.le, by linarith, by linarith, by linarith, by linarith⟩

lemma dom_of {t p : ℝ} {r : Fin 3 → ℝ} (h : Room r) {s : ℝ} (h1 : lower r ≤ s) (h2 : s ≤ r 0 - dblEps) : Dom (here t p r s) :=
  states_dom (θ := env r t p) h.present (in_of h h1 h2)

lemma seen_eq {t p : ℝ} {r : Fin 3 → ℝ} {s : ℝ} (h : Dom (here t p r s)) : seen t p r s = s := by
  unfold seen
  rw [site_eq _ h]
  simp only [raw, here, join, env, Sum.elim_inl, Sum.elim_inr, Matrix.cons_val]
  ring

lemma local_eq {t p : ℝ} {r : Fin 3 → ℝ} {s : ℝ} (h : Dom (here t p r s)) : local_ t p r s = macros (here t p r s) := by
  unfold local_ macros
  rw [seen_eq h]

lemma bound_mem {r : Fin 3 → ℝ} (h : Room r) (s : ℝ) : lower r ≤ bound r s ∧ bound r s ≤ r 0 - dblEps :=
  ⟨le_max_right _ _, max_le (min_le_right _ _) (h.low.trans h.high)⟩

lemma loop_mem {t p : ℝ} {r : Fin 3 → ℝ} (h : Room r) (n : ℕ) {o s : ℝ} (ho : lower r ≤ o ∧ o ≤ r 0 - dblEps)
    (hs : lower r ≤ s ∧ s ≤ r 0 - dblEps) : lower r ≤ loop t p r n o s ∧ loop t p r n o s ≤ r 0 - dblEps := by
  induction n generalizing o s with
  | zero => exact ho
  | succ n ih =>
    unfold loop
    split_ifs
    · have e : (pass t p r s).1 = s := seen_eq (dom_of h hs.1 hs.2)
      rw [e]
      exact ih hs (bound_mem h _)
    · exact ho

lemma eps_small : dblEps < 1 / 1000 := by unfold dblEps; norm_num

/-- The first pass is always made. -/
lemma found_succ {t p : ℝ} {r : Fin 3 → ℝ} (h : Room r) : found t p r = loop t p r 99 (guess r 0) (pass t p r (guess r 0)).2 := by
  unfold found
  rw [loop, if_pos]
  · rw [show (pass t p r (guess r 0)).1 = guess r 0 from seen_eq (dom_of h h.low h.high)]
  · have h0 : guess r 0 ≤ 1 := by
      obtain ⟨⟨p0, p1, p2, p3⟩, -, -, hi⟩ := h
      have := dblEps_pos
      linarith
    have h1 := neg_le_abs (guess r 0 - 2)
    have := eps_small
    linarith

/-- **C61.** Melilite: the state `order()` returns has positive site fractions (compositions with all end members, and not more than
twice as much soda melilite as gehlenite), and lies between the bounds of the iteration. -/
theorem C61_melilite_bounds (t p : ℝ) {r : Fin 3 → ℝ} (h : Room r) :
    Dom (join (env r t p, ![found t p r])) ∧ lower r ≤ found t p r ∧ found t p r ≤ r 0 - dblEps := by
  have hm : lower r ≤ found t p r ∧ found t p r ≤ r 0 - dblEps := by
    rw [found_succ h]
    exact loop_mem h 99 ⟨h.low, h.high⟩ (bound_mem h _)
  exact ⟨dom_of h hm.1 hm.2, hm⟩

/-- **C61.** Melilite, a defect: wherever the energy still rises with order at the lower bound of the iteration, the equilibrium
ordering state lies below that bound, and the state `order()` returns is not the equilibrium state. -/
theorem C61_melilite_clamp {t : ℝ} (ht : 800 < t) (p : ℝ) {r : Fin 3 → ℝ} (h : Room r)
    (hl : 0 < (macros (join (env r t p, ![lower r]))).dgds 0) :
    ¬ IsEq macros Dom (env r t p) ![found t p r] ∧
      ∀ s, IsEq macros Dom (env r t p) s → s 0 < lower r ∧ s 0 < found t p r := by
  obtain ⟨hd, h1, h2⟩ := C61_melilite_bounds t p h
  have hlow := in_of h le_rfl (h.low.trans h.high)
  have hL : 0 < MeliliteSlope.slope (R * t) (r 0) (r 2) (lower r) := by
    have := slope_eq (env r t p) ![lower r] (dom_of h le_rfl (h.low.trans h.high))
    rw [this] at hl; exact hl
  have key : ∀ s, IsEq macros Dom (env r t p) s → s 0 < lower r := fun s hs =>
    (MeliliteSlope.above (MeliliteSlope.rt ht) hlow hlow hL (states (θ := env r t p) h.present hs.1) (eq_slope hs) le_rfl).1
  refine ⟨fun he => ?_, fun s hs => ⟨key s hs, lt_of_lt_of_le (key s hs) h1⟩⟩
  have := key _ he
  simp only [Matrix.cons_val_zero] at this
  linarith

/-- Conditions at which the iteration runs into its lower bound at once and stays there. -/
structure Stuck (t : ℝ) (r : Fin 3 → ℝ) : Prop where
  present : Present r
  al : r 2 / 2 < r 0
  gap : lower r + 10 * dblEps < guess r 0
  high : guess r 0 < r 0 - dblEps
  jump : guess r 0 + MeliliteSlope.slope (R * t) (r 0) (r 2) (guess r 0) / -MeliliteSlope.curv (R * t) (r 0) (r 2) (guess r 0) < lower r
  rise : 0 < MeliliteSlope.slope (R * t) (r 0) (r 2) (lower r)
  curv : 0 < MeliliteSlope.curv (R * t) (r 0) (r 2) (lower r)

lemma Stuck.room {t : ℝ} {r : Fin 3 → ℝ} (h : Stuck t r) : Room r :=
  ⟨h.present, h.al.le, by have := h.gap; have := dblEps_pos; linarith, h.high.le⟩

lemma bound_low {r : Fin 3 → ℝ} {s : ℝ} (h : s ≤ lower r) : bound r s = lower r :=
  max_eq_right ((min_le_left _ _).trans h)

lemma pass_eq {t p : ℝ} {r : Fin 3 → ℝ} {s : ℝ} (hd : Dom (here t p r s)) : pass t p r s = (s, bound r (s +
    MeliliteSlope.slope (R * t) (r 0) (r 2) s / -MeliliteSlope.curv (R * t) (r 0) (r 2) s)) := by
  unfold pass
  rw [local_eq hd, seen_eq hd]
  have e1 := slope_eq (env r t p) ![s] hd
  have e2 := curv_eq (env r t p) ![s] hd
  unfold here
  rw [e1, e2]
  rfl

/-- **C61.** Melilite: at these conditions `order()` returns its lower bound. -/
theorem C61_melilite_stuck {t : ℝ} (p : ℝ) {r : Fin 3 → ℝ} (h : Stuck t r) : found t p r = lower r := by
  have hr := h.room
  have e1 := pass_eq (t := t) (p := p) (dom_of hr hr.low hr.high)
  have e2 := pass_eq (t := t) (p := p) (dom_of hr le_rfl (hr.low.trans hr.high))
  rw [bound_low h.jump.le] at e1
  rw [bound_low (by
    have := div_nonneg h.rise.le h.curv.le
    rw [div_neg]; linarith)] at e2
  rw [found_succ hr, e1]
  rw [show (99 : ℕ) = 97 + 1 + 1 from rfl, loop, if_pos, e2, loop, if_neg]
  · simp only [sub_self, abs_zero, not_lt]
    have := dblEps_pos; positivity
  · have := h.gap
    have := neg_le_abs (lower r - guess r 0)
    simp only
    linarith

/-- The ordering state `order()` returns, as a function of the conditions. -/
def Found (θ : Ext 3 → ℝ) : Fin 1 → ℝ := ![found (θ iT) (θ iP) fun j => θ (.inl j)]

lemma bump_two (r : Fin 3 → ℝ) (h : ℝ) : Magma.Thermo.Extensive.bump r 2 h = ![r 0, r 1, r 2 + h] := by
  funext j; fin_cases j <;> simp [Magma.Thermo.Extensive.bump]

lemma slope_cont {k r0 : ℝ} {s : ℝ → ℝ} {c : ℝ → ℝ} (hc : ContinuousAt c 0) (hs : ContinuousAt s 0)
    (h : MeliliteSlope.In r0 (c 0) (s 0)) : ContinuousAt (fun h => MeliliteSlope.slope k r0 (c h) (s h)) 0 := by
  have hw : 2 - r0 - s 0 ≠ 0 := by have := h.sum; have := h.al1; have := h.na; have := h.al2; linarith
  unfold MeliliteSlope.slope MeliliteSlope.logs
  have l1 : ContinuousAt (fun h => Real.log (c h + s h)) 0 := (hc.add hs).log h.si.ne'
  have l2 : ContinuousAt (fun h => Real.log (r0 + s h)) 0 := (continuousAt_const.add hs).log h.al2.ne'
  have l3 : ContinuousAt (fun h => Real.log (r0 - s h)) 0 := (continuousAt_const.sub hs).log h.al1.ne'
  have l4 : ContinuousAt (fun h => Real.log (2 - r0 - s h)) 0 := (continuousAt_const.sub hs).log hw
  fun_prop

lemma curv_cont {k r0 : ℝ} {s : ℝ → ℝ} {c : ℝ → ℝ} (hc : ContinuousAt c 0) (hs : ContinuousAt s 0)
    (h : MeliliteSlope.In r0 (c 0) (s 0)) : ContinuousAt (fun h => MeliliteSlope.curv k r0 (c h) (s h)) 0 := by
  have hw : 2 - r0 - s 0 ≠ 0 := by have := h.sum; have := h.al1; have := h.na; have := h.al2; linarith
  unfold MeliliteSlope.curv
  have l1 : ContinuousAt (fun h => 1 / (c h + s h)) 0 := continuousAt_const.div (hc.add hs) h.si.ne'
  have l2 : ContinuousAt (fun h => 1 / (r0 + s h)) 0 := continuousAt_const.div (continuousAt_const.add hs) h.al2.ne'
  have l3 : ContinuousAt (fun h => 1 / (r0 - s h)) 0 := continuousAt_const.div (continuousAt_const.sub hs) h.al1.ne'
  have l4 : ContinuousAt (fun h => 1 / (2 - r0 - s h)) 0 := continuousAt_const.div (continuousAt_const.sub hs) hw
  fun_prop

/-- The conditions of `Stuck` are open ones. -/
lemma stuck_near {t : ℝ} {r : Fin 3 → ℝ} (h : Stuck t r) :
    ∀ᶠ x in 𝓝 (0 : ℝ), Stuck t (Magma.Thermo.Extensive.bump r 2 x) := by
  have hg : MeliliteSlope.curv (R * t) (r 0) (r 2) (guess r 0) ≠ 0 := by
    intro e
    have h1 := h.jump
    rw [e, neg_zero, div_zero] at h1
    have := h.gap; have := dblEps_pos
    linarith
  have hr := h.room
  have ig := in_of hr hr.low hr.high
  have il := in_of hr le_rfl (hr.low.trans hr.high)
  obtain ⟨⟨p0, p1, p2, p3⟩, ha, hgap, hh, hj, hs, hc⟩ := h
  have c2 : ContinuousAt (fun x : ℝ => r 2 + x) 0 := by fun_prop
  have cl : ContinuousAt (fun x : ℝ => -(r 2 + x) / 2 + dblEps) 0 := by fun_prop
  have z2 : r 2 + 0 = r 2 := add_zero _
  have zl : -(r 2 + 0) / 2 + dblEps = lower r := by rw [z2]; rfl
  have cg : ContinuousAt (fun _ : ℝ => guess r 0) 0 := continuousAt_const
  have s1 : ContinuousAt (fun x => MeliliteSlope.slope (R * t) (r 0) (r 2 + x) (guess r 0)) 0 :=
    slope_cont c2 cg (by simpa only [z2] using ig)
  have s2 : ContinuousAt (fun x => MeliliteSlope.curv (R * t) (r 0) (r 2 + x) (guess r 0)) 0 :=
    curv_cont c2 cg (by simpa only [z2] using ig)
  have s3 : ContinuousAt (fun x => MeliliteSlope.slope (R * t) (r 0) (r 2 + x) (-(r 2 + x) / 2 + dblEps)) 0 :=
    slope_cont c2 cl (by beta_reduce; rw [zl, z2]; exact il)
  have s4 : ContinuousAt (fun x => MeliliteSlope.curv (R * t) (r 0) (r 2 + x) (-(r 2 + x) / 2 + dblEps)) 0 :=
    curv_cont c2 cl (by beta_reduce; rw [zl, z2]; exact il)
  have s5 : ContinuousAt (fun x => guess r 0 + MeliliteSlope.slope (R * t) (r 0) (r 2 + x) (guess r 0) /
      -MeliliteSlope.curv (R * t) (r 0) (r 2 + x) (guess r 0)) 0 :=
    continuousAt_const.add (s1.div s2.neg (by rw [z2]; exact neg_ne_zero.mpr hg))
  have e1 := c2.eventually_const_lt (show 0 < r 2 + 0 by rw [z2]; exact p2)
  have e2 := (show ContinuousAt (fun x : ℝ => 1 - r 0 - r 1 - (r 2 + x)) 0 by fun_prop).eventually_const_lt
    (show 0 < 1 - r 0 - r 1 - (r 2 + 0) by rw [z2]; exact p3)
  have e3 := (show ContinuousAt (fun x : ℝ => (r 2 + x) / 2) 0 by fun_prop).eventually_lt_const
    (show (r 2 + 0) / 2 < r 0 by rw [z2]; exact ha)
  have e4 := (cl.add (continuousAt_const (y := 10 * dblEps))).eventually_lt_const
    (show -(r 2 + 0) / 2 + dblEps + 10 * dblEps < guess r 0 by rw [zl]; exact hgap)
  have e5 := s5.eventually_lt cl (by beta_reduce; rw [zl, z2]; exact hj)
  have e6 := s3.eventually_const_lt (show 0 < MeliliteSlope.slope (R * t) (r 0) (r 2 + 0) (-(r 2 + 0) / 2 + dblEps) by
    rw [zl, z2]; exact hs)
  have e7 := s4.eventually_const_lt (show 0 < MeliliteSlope.curv (R * t) (r 0) (r 2 + 0) (-(r 2 + 0) / 2 + dblEps) by
    rw [zl, z2]; exact hc)
  filter_upwards [e1, e2, e3, e4, e5, e6, e7] with x h1 h2 h3 h4 h5 h6 h7
  rw [bump_two]
  exact ⟨⟨p0, p1, h1, h2⟩, h3, h4, hh, h5, h6, h7⟩

/-- **C24.** Melilite, a defect: where `order()` has run into its lower bound, the composition derivative `dx[2]` that `gmixMel` reports
for soda melilite is not the derivative of the Gibbs energy of mixing it reports; the latter is `dx[2] - (∂g/∂s)/2`. -/
theorem C24_melilite_clamped {t : ℝ} (p : ℝ) {r : Fin 3 → ℝ} (h : Stuck t r)
    (E : (Ext 0 → ℝ) → Fin 1 → ℝ) :
    Magma.Thermo.Extensive.Partial (fun r => (mix Found E).g t p r) r 2
        ((mix Found E).gr t p r 2 - (macros (join (env r t p, ![found t p r]))).dgds 0 / 2) ∧
      ¬ Magma.Thermo.Extensive.Partial (fun r => (mix Found E).g t p r) r 2 ((mix Found E).gr t p r 2) := by
  have hr := h.room
  have hf := C61_melilite_stuck p h
  have hd : Dom (join (env r t p, ![lower r])) := dom_of hr le_rfl (hr.low.trans hr.high)
  have hsl : (macros (join (env r t p, ![lower r]))).dgds 0 = MeliliteSlope.slope (R * t) (r 0) (r 2) (lower r) :=
    slope_eq (env r t p) ![lower r] hd
  -- the path along which the reported state moves
  set γ : ℝ → Var 3 1 → ℝ := fun x => join (env ![r 0, r 1, r 2 + x] t p, ![-(r 2 + x) / 2 + dblEps]) with hγ
  have γ0 : γ 0 = join (env r t p, ![lower r]) := by
    rw [hγ]; beta_reduce
    rw [add_zero, show (![r 0, r 1, r 2] : Fin 3 → ℝ) = r from by funext j; fin_cases j <;> rfl]
    rfl
  set v : Var 3 1 → ℝ := Sum.elim (env ![0, 0, 1] 0 0) ![-(1 / 2)] with hv
  have dγ : HasDerivAt γ v 0 := by
    rw [hasDerivAt_pi]
    have d : HasDerivAt (fun x : ℝ => r 2 + x) 1 0 := (hasDerivAt_id' (0 : ℝ)).const_add (r 2)
    intro b
    rcases b with (j | a) | k
    · fin_cases j
      · exact hasDerivAt_const _ _
      · exact hasDerivAt_const _ _
      · exact d
    · fin_cases a <;> exact hasDerivAt_const _ _
    · fin_cases k
      exact ((d.neg.div_const 2).add_const dblEps).congr_deriv (by simp [hv]; norm_num)
  have dg : HasDerivAt (fun x => (macros (γ x)).g)
      ((macros (γ 0)).dgdr 2 - (macros (γ 0)).dgds 0 / 2) 0 := by
    have h1 := ok.d1 (γ 0) (by rw [γ0]; exact hd)
    have h2 := HasFDerivAt.comp_hasDerivAt (f := γ) 0 h1 dγ
    refine h2.congr_deriv ?_
    simp only [ContinuousLinearMap.sum_apply, ContinuousLinearMap.smul_apply, ContinuousLinearMap.proj_apply, smul_eq_mul,
      Fintype.sum_sum_type, Fin.sum_univ_three, Fin.sum_univ_two, Fin.sum_univ_one, hv, env, Sum.elim_inl, Sum.elim_inr]
    change (macros (γ 0)).dgdr 0 * 0 + (macros (γ 0)).dgdr 1 * 0 + (macros (γ 0)).dgdr 2 * 1 +
      ((macros (γ 0)).dgdt * 0 + (macros (γ 0)).dgdp * 0) + (macros (γ 0)).dgds 0 * -(1 / 2) = _
    ring
  have dw : HasDerivAt (fun x => ∑ a, weight (Magma.Thermo.Extensive.bump r 2 x) a * (ends E a t p).g)
      (∑ a, dweight 2 a * (ends E a t p).g) 0 := by
    have d : HasDerivAt (fun x : ℝ => r 2 + x) 1 0 := (hasDerivAt_id' (0 : ℝ)).const_add (r 2)
    have d' : HasDerivAt (fun x : ℝ => 1 - r 0 - r 1 - (r 2 + x)) (-1) 0 := d.const_sub _
    simp only [bump_two, Fin.sum_univ_four]
    have e : ∀ a, HasDerivAt (fun x : ℝ => weight ![r 0, r 1, r 2 + x] a) (dweight 2 a) 0 := by
      intro a
      fin_cases a
      · exact d'
      · exact hasDerivAt_const _ _
      · exact hasDerivAt_const _ _
      · exact d
    exact ((((e 0).mul_const _).add ((e 1).mul_const _)).add ((e 2).mul_const _)).add ((e 3).mul_const _)
  have near : (fun x => (mix Found E).g t p (Magma.Thermo.Extensive.bump r 2 x)) =ᶠ[𝓝 0]
      fun x => (macros (γ x)).g - ∑ a, weight (Magma.Thermo.Extensive.bump r 2 x) a * (ends E a t p).g := by
    filter_upwards [stuck_near h] with x hx
    have e : found t p (Magma.Thermo.Extensive.bump r 2 x) = -(r 2 + x) / 2 + dblEps := by
      rw [C61_melilite_stuck p hx, bump_two]; rfl
    change (macros (join (env (Magma.Thermo.Extensive.bump r 2 x) t p, ![found t p (Magma.Thermo.Extensive.bump r 2 x)]))).g - _ = _
    rw [e, hγ, bump_two]
  have rep : (mix Found E).gr t p r 2 = (macros (γ 0)).dgdr 2 - ∑ a, dweight 2 a * (ends E a t p).g := by
    rw [γ0, ← hf]; rfl
  have main : HasDerivAt (fun x => (mix Found E).g t p (Magma.Thermo.Extensive.bump r 2 x))
      ((mix Found E).gr t p r 2 - (macros (join (env r t p, ![lower r]))).dgds 0 / 2) 0 := by
    refine ((dg.sub dw).congr_of_eventuallyEq near).congr_deriv ?_
    rw [rep, γ0]; ring
  rw [hf]
  refine ⟨main, fun hc => ?_⟩
  have := main.unique hc
  have := h.rise
  rw [← hsl] at this
  linarith

lemma log_four {a b c d : ℝ} (ha : 0 < a) (hb : 0 < b) (hc : 0 < c) (hd : 0 < d) :
    Real.log a + Real.log b - Real.log c - Real.log d = Real.log (a * b / (c * d)) := by
  rw [Real.log_div (by positivity) (by positivity), Real.log_mul ha.ne' hb.ne', Real.log_mul hc.ne' hd.ne']; ring

lemma low_rt : R * 1400 = 1164002 / 100 := by rw [R_val]; norm_num

/-- Non-vacuity: a melilite with 60 % gehlenite and 30 % soda melilite at 1400 K is stuck (so the equilibrium state is not found and
the reported derivative is wrong). -/
theorem stuck_example : Stuck 1400 ![3 / 5, 1 / 20, 3 / 10] := by
  have he := dblEps_pos
  have hs := eps_small
  have hgs : guess ![3 / 5, 1 / 20, 3 / 10] 0 = 3 / 50 := by simp [guess]; norm_num
  have hl : lower ![3 / 5, 1 / 20, 3 / 10] = -(3 / 20) + dblEps := by simp [lower]; norm_num
  have cg : MeliliteSlope.curv (R * 1400) (3 / 5) (3 / 10) (3 / 50) = 1164002 / 100 * (1 / (3 / 10 + 3 / 50) + 1 / (3 / 5 + 3 / 50)
      + 1 / (3 / 5 - 3 / 50) + 1 / (2 - 3 / 5 - 3 / 50)) - 76708 := by
    unfold MeliliteSlope.curv; rw [low_rt]
  have sg : 8000 ≤ MeliliteSlope.slope (R * 1400) (3 / 5) (3 / 10) (3 / 50) := by
    unfold MeliliteSlope.slope MeliliteSlope.logs
    rw [low_rt]
    have e : Real.log (3 / 10 + 3 / 50) + Real.log (3 / 5 + 3 / 50) - Real.log (3 / 5 - 3 / 50) - Real.log (2 - 3 / 5 - 3 / 50)
        = Real.log ((3 / 10 + 3 / 50) * (3 / 5 + 3 / 50) / ((3 / 5 - 3 / 50) * (2 - 3 / 5 - 3 / 50))) :=
      log_four (by norm_num) (by norm_num) (by norm_num) (by norm_num)
    rw [e]
    have := Real.one_sub_inv_le_log_of_pos (show (0 : ℝ) < (3 / 10 + 3 / 50) * (3 / 5 + 3 / 50) / ((3 / 5 - 3 / 50) *
      (2 - 3 / 5 - 3 / 50)) by norm_num)
    norm_num at this ⊢
    linarith
  refine ⟨⟨?_, ?_, ?_, ?_⟩, ?_, ?_, ?_, ?_, ?_, ?_⟩
  · change (0 : ℝ) < 3 / 5; norm_num
  · change (0 : ℝ) < 1 / 20; norm_num
  · change (0 : ℝ) < 3 / 10; norm_num
  · change (0 : ℝ) < 1 - 3 / 5 - 1 / 20 - 3 / 10; norm_num
  · change (3 / 10 : ℝ) / 2 < 3 / 5; norm_num
  · rw [hgs, hl]; linarith
  · rw [hgs]; change (3 / 50 : ℝ) < 3 / 5 - dblEps; linarith
  · rw [hgs, hl]
    change 3 / 50 + MeliliteSlope.slope (R * 1400) (3 / 5) (3 / 10) (3 / 50) / -MeliliteSlope.curv (R * 1400) (3 / 5) (3 / 10) (3 / 50) < _
    have c1 : 0 < MeliliteSlope.curv (R * 1400) (3 / 5) (3 / 10) (3 / 50) := by rw [cg]; norm_num
    have c2 : MeliliteSlope.curv (R * 1400) (3 / 5) (3 / 10) (3 / 50) < 8000 := by rw [cg]; norm_num
    have : 1 ≤ MeliliteSlope.slope (R * 1400) (3 / 5) (3 / 10) (3 / 50) / MeliliteSlope.curv (R * 1400) (3 / 5) (3 / 10) (3 / 50) := by
      rw [one_le_div c1]; linarith
    rw [div_neg]; linarith
  · rw [hl]
    change 0 < MeliliteSlope.slope (R * 1400) (3 / 5) (3 / 10) (-(3 / 20) + dblEps)
    unfold MeliliteSlope.slope MeliliteSlope.logs
    rw [low_rt]
    have a1 := Real.log_le_log (by norm_num) (show (3 / 20 : ℝ) ≤ 3 / 10 + (-(3 / 20) + dblEps) by linarith)
    have a2 := Real.log_le_log (by norm_num) (show (9 / 20 : ℝ) ≤ 3 / 5 + (-(3 / 20) + dblEps) by linarith)
    have a3 := Real.log_le_log (by linarith) (show 3 / 5 - (-(3 / 20) + dblEps) ≤ (3 / 4 : ℝ) by linarith)
    have a4 := Real.log_le_log (by linarith) (show 2 - 3 / 5 - (-(3 / 20) + dblEps) ≤ (31 / 20 : ℝ) by linarith)
    have e : Real.log (3 / 20) + Real.log (9 / 20) - Real.log (3 / 4) - Real.log (31 / 20)
        = Real.log (3 / 20 * (9 / 20) / (3 / 4 * (31 / 20))) :=
      log_four (by norm_num) (by norm_num) (by norm_num) (by norm_num)
    have b := Real.log_le_log (by norm_num) (show ((7 / 10 : ℝ)) ^ 8 ≤ 3 / 20 * (9 / 20) / (3 / 4 * (31 / 20)) by norm_num)
    rw [Real.log_pow] at b
    have c := Real.one_sub_inv_le_log_of_pos (show (0 : ℝ) < 7 / 10 by norm_num)
    rw [← e] at b
    norm_num at c
    push_cast at b
    linarith
  · rw [hl]
    change 0 < MeliliteSlope.curv (R * 1400) (3 / 5) (3 / 10) (-(3 / 20) + dblEps)
    unfold MeliliteSlope.curv
    rw [low_rt]
    have a1 : (6 : ℝ) ≤ 1 / (3 / 10 + (-(3 / 20) + dblEps)) := by rw [le_div_iff₀ (by linarith)]; linarith
    have a2 : (2 : ℝ) ≤ 1 / (3 / 5 + (-(3 / 20) + dblEps)) := by rw [le_div_iff₀ (by linarith)]; linarith
    have a3 : 0 < 1 / (3 / 5 - (-(3 / 20) + dblEps)) := one_div_pos.mpr (by linarith)
    have a4 : 0 < 1 / (2 - 3 / 5 - (-(3 / 20) + dblEps)) := one_div_pos.mpr (by linarith)
    linarith

/-- Non-vacuity of `C61_melilite_clamp`: its hypotheses hold there. -/
example : Room ![3 / 5, 1 / 20, 3 / 10] ∧
    0 < (macros (join (env ![3 / 5, 1 / 20, 3 / 10] 1400 1, ![lower ![3 / 5, 1 / 20, 3 / 10]]))).dgds 0 := by
  have h := stuck_example
  have hr := h.room
  refine ⟨hr, ?_⟩
  rw [slope_eq (env ![3 / 5, 1 / 20, 3 / 10] 1400 1) _ (dom_of hr le_rfl (hr.low.trans hr.high))]
  exact h.rise

end

end Verif.Thermo.Ordering.Melilite
