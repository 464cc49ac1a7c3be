import Verif.Thermo.OrderPack

/-!
One ordering parameter, an energy that need not be convex in it: if the energy curves upwards wherever its slope vanishes, then
its slope vanishes at most once.
-/

namespace Verif.Thermo.Ordering

open Finset Filter Topology

noncomputable section

/-- A function that can cross zero upwards only does so at most once. -/
theorem up_unique {I : Set ℝ} (hI : I.OrdConnected) {f f' : ℝ → ℝ} (hf : ∀ x ∈ I, HasDerivAt f (f' x) x)
    (up : ∀ x ∈ I, f x = 0 → 0 < f' x) {a b : ℝ} (ha : a ∈ I) (hb : b ∈ I) (fa : f a = 0) (fb : f b = 0) : a = b := by
  wlog hab : a < b generalizing a b
  · rcases lt_trichotomy a b with h | h | h
    · exact absurd h hab
    · exact h
    · exact (this hb ha fb fa h).symm
  exfalso
  have hsub : Set.Icc a b ⊆ I := hI.out ha hb
  have hcont : ContinuousOn f (Set.Icc a b) := fun x hx => (hf x (hsub hx)).continuousAt.continuousWithinAt
  -- just right of `a` the function is positive
  have hpos : ∀ᶠ x in 𝓝[>] a, 0 < f x := by
    have h1 : Tendsto (slope f a) (𝓝[>] a) (𝓝 (f' a)) := (hasDerivAt_iff_tendsto_slope.mp (hf a ha)).mono_left (nhdsWithin_mono a fun x (hx : a < x) => ne_of_gt hx)
    filter_upwards [h1.eventually_const_lt (up a ha fa), self_mem_nhdsWithin] with x hx hax
    rw [slope_def_field, fa, sub_zero, div_pos_iff_of_pos_right (sub_pos.mpr hax)] at hx
    exact hx
  -- the set of later points where it is not
  set Z : Set ℝ := {x | x ∈ Set.Icc a b ∧ f x ≤ 0 ∧ a < x} with hZ
  obtain ⟨d, hd, hdpos⟩ : ∃ d, a < d ∧ ∀ x, a < x → x < d → 0 < f x := by
    obtain ⟨d, hd, h⟩ := mem_nhdsGT_iff_exists_Ioo_subset.mp hpos
    exact ⟨d, hd, fun x h1 h2 => h ⟨h1, h2⟩⟩
  have hZd : Z = Set.Icc a b ∩ f ⁻¹' Set.Iic 0 ∩ Set.Ici d := by
    ext x; constructor
    · rintro ⟨h1, h2, h3⟩
      refine ⟨⟨h1, h2⟩, ?_⟩
      by_contra hx
      exact absurd (hdpos x h3 (not_le.mp hx)) (not_lt.mpr h2)
    · rintro ⟨⟨h1, h2⟩, h3⟩
      exact ⟨h1, h2, lt_of_lt_of_le hd h3⟩
  have hcl : IsClosed Z := by
    rw [hZd]; exact (hcont.preimage_isClosed_of_isClosed isClosed_Icc isClosed_Iic).inter isClosed_Ici
  have hcp : IsCompact Z := isCompact_Icc.of_isClosed_subset hcl fun x hx => hx.1
  obtain ⟨c, hc, hmin⟩ := hcp.exists_isLeast ⟨b, ⟨hab.le, le_rfl⟩, fb.le, hab⟩
  have hcI := hsub hc.1
  have hlt : ∀ x, a < x → x < c → 0 < f x := by
    intro x h1 h2
    by_contra h
    exact absurd (hmin ⟨⟨h1.le, h2.le.trans hc.1.2⟩, not_lt.mp h, h1⟩) (not_le.mpr h2)
  have hleft : ∀ᶠ x in 𝓝[<] c, 0 < f x := by
    filter_upwards [Ioo_mem_nhdsLT hc.2.2] with x hx
    exact hlt x hx.1 hx.2
  have hfc : f c = 0 := by
    refine le_antisymm hc.2.1 ?_
    have : Tendsto f (𝓝[<] c) (𝓝 (f c)) := (hf c hcI).continuousAt.tendsto.mono_left nhdsWithin_le_nhds
    exact ge_of_tendsto this (hleft.mono fun x hx => hx.le)
  have h1 : Tendsto (slope f c) (𝓝[<] c) (𝓝 (f' c)) := (hasDerivAt_iff_tendsto_slope.mp (hf c hcI)).mono_left (nhdsWithin_mono c fun x (hx : x < c) => ne_of_lt hx)
  have h2 : ∀ᶠ x in 𝓝[<] c, slope f c x ≤ 0 := by
    filter_upwards [hleft, self_mem_nhdsWithin] with x hx hxc
    rw [slope_def_field, hfc, sub_zero]
    exact div_nonpos_of_nonneg_of_nonpos hx.le (sub_nonpos.mpr (le_of_lt hxc))
  exact absurd (le_of_tendsto h1 h2) (not_le.mpr (up c hcI hfc))

/-- … and is positive after that zero. -/
theorem up_sign {I : Set ℝ} (hI : I.OrdConnected) {f f' : ℝ → ℝ} (hf : ∀ x ∈ I, HasDerivAt f (f' x) x)
    (up : ∀ x ∈ I, f x = 0 → 0 < f' x) {a b : ℝ} (ha : a ∈ I) (hb : b ∈ I) (fa : f a = 0) (h : a < b) : 0 < f b := by
  by_contra hc
  have hsub : Set.Icc a b ⊆ I := hI.out ha hb
  have hcont : ContinuousOn f (Set.Icc a b) := fun x hx => (hf x (hsub hx)).continuousAt.continuousWithinAt
  have hpos : ∀ᶠ x in 𝓝[>] a, 0 < f x := by
    have h1 : Tendsto (slope f a) (𝓝[>] a) (𝓝 (f' a)) := (hasDerivAt_iff_tendsto_slope.mp (hf a ha)).mono_left (nhdsWithin_mono a fun x (hx : a < x) => ne_of_gt hx)
    filter_upwards [h1.eventually_const_lt (up a ha fa), self_mem_nhdsWithin] with x hx hax
    rw [slope_def_field, fa, sub_zero, div_pos_iff_of_pos_right (sub_pos.mpr hax)] at hx
    exact hx
  obtain ⟨x, hx, hxab⟩ := (hpos.and (Ioo_mem_nhdsGT h)).exists
  have hsub' : Set.Icc x b ⊆ Set.Icc a b := Set.Icc_subset_Icc_left hxab.1.le
  obtain ⟨z, hz, hz0⟩ := intermediate_value_Icc' hxab.2.le (hcont.mono hsub') (show (0 : ℝ) ∈ Set.Icc (f b) (f x) from ⟨not_lt.mp hc, hx.le⟩)
  have := up_unique hI hf up ha (hsub (hsub' hz)) fa hz0
  exact absurd hz.1 (not_le.mpr (this ▸ hxab.1))

/-- … negative before it. -/
theorem up_before {I : Set ℝ} (hI : I.OrdConnected) {f f' : ℝ → ℝ} (hf : ∀ x ∈ I, HasDerivAt f (f' x) x)
    (up : ∀ x ∈ I, f x = 0 → 0 < f' x) {a b : ℝ} (ha : a ∈ I) (hb : b ∈ I) (fa : f a = 0) (h : b < a) : f b < 0 := by
  have hI' : ((fun x => -x) ⁻¹' I).OrdConnected :=
    ⟨fun x hx y hy z hz => hI.out hy hx ⟨neg_le_neg hz.2, neg_le_neg hz.1⟩⟩
  have h1 := up_sign (I := (fun x => -x) ⁻¹' I) hI' (f := fun x => -f (-x)) (f' := fun x => f' (-x))
    (fun x hx => by
      have h2 := ((hf (-x) hx).comp x (hasDerivAt_neg x)).neg
      exact h2.congr_deriv (by ring))
    (fun x hx h0 => up (-x) hx (by simpa using h0)) (a := -a) (b := -b) (by simpa using ha) (by simpa using hb)
    (by simpa using fa) (neg_lt_neg h)
  simpa using h1

/-- One ordering parameter: a positive second derivative. -/
lemma posHess_single {nr : ℕ} {J : Jets (Ext nr) (Fin 1)} {x : Ext nr ⊕ Fin 1 → ℝ} (h : 0 < J.g2 x (.inr 0) (.inr 0)) :
    PosHess J x := by
  intro v hv
  have h0 : v 0 ≠ 0 := fun e => hv (funext fun k => by fin_cases k; exact e)
  simp only [Fin.sum_univ_one, Fin.isValue]
  have := mul_pos h (mul_self_pos.mpr h0)
  linarith [mul_assoc (J.g2 x (.inr 0) (.inr 0)) (v 0) (v 0)]

/-- If the energy curves upwards at the only equilibrium state, that state is a smooth function of the conditions. -/
theorem solved_up {nr : ℕ} {M : (Var nr 1 → ℝ) → Tables nr 1} {D : (Var nr 1 → ℝ) → Prop} (ok : (jets M).Ok D)
    (dom_open : IsOpen {y | D y}) {U : Set (Ext nr → ℝ)} (hU : IsOpen U) {X : (Ext nr → ℝ) → Fin 1 → ℝ}
    (hX : ∀ θ ∈ U, IsEq M D θ (X θ)) (up : ∀ θ ∈ U, ∀ s, IsEq M D θ s → 0 < (M (join (θ, s))).d2gds2 0 0)
    (uniq : ∀ θ ∈ U, ∀ s s', IsEq M D θ s → IsEq M D θ s' → s = s') : Solved (jets M) D X U :=
  solved_of_unique ok dom_open hU (fun θ hθ => (hX θ hθ).1) (fun θ hθ => (hX θ hθ).2)
    (fun θ hθ => (posHess_single (up θ hθ _ (hX θ hθ))).regular) fun θ hθ s hs hst => uniq θ hθ s _ ⟨hs, hst⟩ (hX θ hθ)

end

end Verif.Thermo.Ordering
