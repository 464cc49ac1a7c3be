import Verif.Thermo.OrderPack

/-!
A solution that becomes one of its end members. The site fractions of the vanishing cations are driven to zero by the
composition alone, so the ordering state of least energy approaches one of the pure end member; since `x log x` is continuous
at zero, so does the energy.
-/

namespace Verif.Thermo.Ordering

open Finset Filter Topology

noncomputable section

/-- A continuous energy `F a s`, minimised over `s` by `X a`: as `a → a0` its minimum tends to the minimum at `a0`, if trial
states `T a` tend to the minimiser `s0` there and the limits of minimisers are no better than `s0`. -/
theorem min_tendsto {A : Type*} [TopologicalSpace A] {ns : ℕ} {F : A → (Fin ns → ℝ) → ℝ}
    (hF : Continuous fun q : A × (Fin ns → ℝ) => F q.1 q.2) {l : Filter A} {a0 : A} (hl : l ≤ 𝓝 a0) {X T : A → Fin ns → ℝ}
    {s0 : Fin ns → ℝ} (hT : Tendsto T l (𝓝 s0)) (hXT : ∀ᶠ a in l, F a (X a) ≤ F a (T a)) {K : Set (Fin ns → ℝ)} (hK : IsCompact K)
    (hXK : ∀ᶠ a in l, X a ∈ K) (hlim : ∀ (U : Ultrafilter A) (c : Fin ns → ℝ), ↑U ≤ l → Tendsto X U (𝓝 c) → F a0 s0 ≤ F a0 c) :
    Tendsto (fun a => F a (X a)) l (𝓝 (F a0 s0)) := by
  have hup : Tendsto (fun a => F a (T a)) l (𝓝 (F a0 s0)) :=
    (hF.tendsto (a0, s0)).comp ((tendsto_id.mono_left hl : Tendsto id l (𝓝 a0)).prodMk_nhds hT)
  rw [tendsto_iff_ultrafilter]
  intro U hU
  have hKU : ∀ᶠ a in (U : Filter A), X a ∈ K := hU hXK
  obtain ⟨c, -, hc⟩ := hK.ultrafilter_le_nhds (U.map X) (by
    rw [le_principal_iff]; exact hKU)
  have hXc : Tendsto X U (𝓝 c) := hc
  have hFc : Tendsto (fun a => F a (X a)) U (𝓝 (F a0 c)) :=
    (hF.tendsto (a0, c)).comp ((tendsto_id.mono_left (hU.trans hl) : Tendsto id (U : Filter A) (𝓝 a0)).prodMk_nhds hXc)
  have h1 : F a0 c ≤ F a0 s0 := le_of_tendsto_of_tendsto hFc (hup.mono_left hU) (hU hXT)
  have h2 := hlim U c hU hXc
  rw [le_antisymm h2 h1]
  exact hFc

section
variable {nr ns n : ℕ}

/-- Energy of a phase with site mixing, as a function of composition and ordering state: continuous up to the boundary,
where some site fractions are zero. -/
def energy (Q : (Fin nr → ℝ) → (Fin ns → ℝ) → ℝ) (c : Fin n → ℝ) (a : (Fin nr → ℝ) → Fin n → ℝ) (b : Fin n → Fin ns → ℝ)
    (r : Fin nr → ℝ) (s : Fin ns → ℝ) : ℝ :=
  Q r s + ∑ i, c i * (frac (a r i) (b i) s * Real.log (frac (a r i) (b i) s))

lemma frac_joint_continuous {a : (Fin nr → ℝ) → Fin n → ℝ} (ha : ∀ i, Continuous fun r => a r i) (b : Fin n → Fin ns → ℝ) (i : Fin n) :
    Continuous fun q : (Fin nr → ℝ) × (Fin ns → ℝ) => frac (a q.1 i) (b i) q.2 := by
  unfold frac
  have := ha i
  fun_prop

lemma energy_continuous {Q : (Fin nr → ℝ) → (Fin ns → ℝ) → ℝ} (hQ : Continuous fun q : (Fin nr → ℝ) × (Fin ns → ℝ) => Q q.1 q.2)
    (c : Fin n → ℝ) {a : (Fin nr → ℝ) → Fin n → ℝ} (ha : ∀ i, Continuous fun r => a r i) (b : Fin n → Fin ns → ℝ) :
    Continuous fun q : (Fin nr → ℝ) × (Fin ns → ℝ) => energy Q c a b q.1 q.2 := by
  unfold energy
  refine hQ.add (continuous_finsetSum _ fun i _ => continuous_const.mul ?_)
  exact Real.continuous_mul_log.comp (frac_joint_continuous ha b i)

/-- The minimum energy of a solution with site mixing tends to that of the end member at the composition `e`, along
compositions `P`. The end member has ordering states `u ∈ I`, which appear as `ι u` in the solution; `u0` is the one of least
energy. -/
theorem pure_limit {Q : (Fin nr → ℝ) → (Fin ns → ℝ) → ℝ} (hQ : Continuous fun q : (Fin nr → ℝ) × (Fin ns → ℝ) => Q q.1 q.2)
    (c : Fin n → ℝ) {a : (Fin nr → ℝ) → Fin n → ℝ} (ha : ∀ i, Continuous fun r => a r i) (b : Fin n → Fin ns → ℝ)
    {P : Set (Fin nr → ℝ)} {e : Fin nr → ℝ} {X T : (Fin nr → ℝ) → Fin ns → ℝ}
    (hX : ∀ r ∈ P, ∀ i, 0 < frac (a r i) (b i) (X r))
    (hmin : ∀ r ∈ P, ∀ s, (∀ i, 0 < frac (a r i) (b i) s) → energy Q c a b r (X r) ≤ energy Q c a b r s)
    (hT : ∀ r ∈ P, ∀ i, 0 < frac (a r i) (b i) (T r)) {m : ℕ} {ι : (Fin m → ℝ) → Fin ns → ℝ} (hι : Continuous ι)
    {I : Set (Fin m → ℝ)} {u0 : Fin m → ℝ} (hT0 : Tendsto T (𝓝[P] e) (𝓝 (ι u0)))
    (hI : ∀ s, (∀ i, 0 ≤ frac (a e i) (b i) s) → ∃ u ∈ closure I, ι u = s)
    (hu0 : ∀ u ∈ I, energy Q c a b e (ι u0) ≤ energy Q c a b e (ι u))
    {B : ℝ} (hB : ∀ r ∈ P, ∀ s, (∀ i, 0 ≤ frac (a r i) (b i) s) → ∀ k, |s k| ≤ B) :
    Tendsto (fun r => energy Q c a b r (X r)) (𝓝[P] e) (𝓝 (energy Q c a b e (ι u0))) := by
  have hE := energy_continuous hQ c ha b
  refine min_tendsto hE nhdsWithin_le_nhds hT0 (K := Metric.closedBall 0 (max B 0)) ?_ (isCompact_closedBall _ _) ?_ ?_
  · filter_upwards [self_mem_nhdsWithin] with r hr
    exact hmin r hr _ (hT r hr)
  · filter_upwards [self_mem_nhdsWithin] with r hr
    rw [Metric.mem_closedBall, dist_zero_right]
    refine (pi_norm_le_iff_of_nonneg (le_max_right _ _)).mpr fun k => ?_
    exact (hB r hr _ (fun i => (hX r hr i).le) k).trans (le_max_left _ _)
  · intro U s hU hs
    have hin : ∀ i, 0 ≤ frac (a e i) (b i) s := by
      intro i
      have ht : Tendsto (fun r => frac (a r i) (b i) (X r)) U (𝓝 (frac (a e i) (b i) s)) :=
        ((frac_joint_continuous ha b i).tendsto (e, s)).comp
          ((tendsto_id.mono_left (hU.trans nhdsWithin_le_nhds) : Tendsto id (U : Filter (Fin nr → ℝ)) (𝓝 e)).prodMk_nhds hs)
      refine ge_of_tendsto ht ?_
      have : ∀ᶠ r in 𝓝[P] e, 0 ≤ frac (a r i) (b i) (X r) := by
        filter_upwards [self_mem_nhdsWithin] with r hr
        exact (hX r hr i).le
      exact hU this
    obtain ⟨u, hu, rfl⟩ := hI s hin
    have hc : Continuous fun u => energy Q c a b e (ι u) := hE.comp (Continuous.prodMk continuous_const hι)
    exact closure_minimal (s := I) (t := {u | energy Q c a b e (ι u0) ≤ energy Q c a b e (ι u)}) hu0
      (isClosed_le continuous_const hc) hu

/-- States with nonnegative site fractions are limits of states with positive ones. -/
lemma closure_frac {m : ℕ} {a0 : Fin n → ℝ} {b0 : Fin n → Fin m → ℝ} {u1 u : Fin m → ℝ} (h1 : ∀ i, 0 < frac (a0 i) (b0 i) u1)
    (h : ∀ i, 0 ≤ frac (a0 i) (b0 i) u) : u ∈ closure {u | ∀ i, 0 < frac (a0 i) (b0 i) u} := by
  have hc : Continuous fun τ : ℝ => u + τ • (u1 - u) := by fun_prop
  have ht : Tendsto (fun τ : ℝ => u + τ • (u1 - u)) (𝓝[>] 0) (𝓝 u) := by
    have := (hc.tendsto 0).mono_left (nhdsWithin_le_nhds (s := Set.Ioi (0 : ℝ)))
    simpa using this
  refine mem_closure_of_tendsto ht ?_
  have hlt : ∀ᶠ τ : ℝ in 𝓝[>] 0, τ < 1 := nhdsWithin_le_nhds (Iio_mem_nhds one_pos)
  filter_upwards [self_mem_nhdsWithin, hlt] with τ h0 h2 i
  rw [frac_seg]
  have : 0 < τ := h0
  have := mul_pos this (h1 i)
  have := mul_nonneg (by linarith : 0 ≤ 1 - τ) (h i)
  linarith

/-- The same for a phase file: `M` are its macros and `X` the ordering state of least energy. The end member has its own
energy `E0` and site fractions, and its states `u` appear in the solution as `ι u`. -/
theorem vertex_limit {M : (Var nr ns → ℝ) → Tables nr ns} {D : (Var nr ns → ℝ) → Prop} {Q : (Fin nr → ℝ) → (Fin ns → ℝ) → ℝ}
    {c : Fin n → ℝ} {a : (Fin nr → ℝ) → Fin n → ℝ} {b : Fin n → Fin ns → ℝ} {P : Set (Fin nr → ℝ)} {t p : ℝ}
    {X : (Ext nr → ℝ) → Fin ns → ℝ} (hQ : Continuous fun q : (Fin nr → ℝ) × (Fin ns → ℝ) => Q q.1 q.2)
    (ha : ∀ i, Continuous fun r => a r i) (hD : ∀ r ∈ P, ∀ s, D (join (env r t p, s)) ↔ ∀ i, 0 < frac (a r i) (b i) s)
    (hg : ∀ r ∈ P, ∀ s, D (join (env r t p, s)) → (M (join (env r t p, s))).g = energy Q c a b r s)
    (hX : ∀ r ∈ P, D (join (env r t p, X (env r t p))))
    (hmin : ∀ r ∈ P, ∀ s, D (join (env r t p, s)) → (M (join (env r t p, X (env r t p)))).g ≤ (M (join (env r t p, s))).g)
    {T : (Fin nr → ℝ) → Fin ns → ℝ} (hT : ∀ r ∈ P, ∀ i, 0 < frac (a r i) (b i) (T r)) (hTc : Continuous T)
    {B : ℝ} (hB : ∀ r ∈ P, ∀ s, (∀ i, 0 ≤ frac (a r i) (b i) s) → ∀ k, |s k| ≤ B)
    (e : Fin nr → ℝ) {m n0 : ℕ} {ι : (Fin m → ℝ) → Fin ns → ℝ} (hι : Continuous ι) {a0 : Fin n0 → ℝ} {b0 : Fin n0 → Fin m → ℝ}
    {E0 : (Fin m → ℝ) → ℝ} {u0 : Fin m → ℝ} (hu0 : ∀ i, 0 < frac (a0 i) (b0 i) u0) (hTe : T e = ι u0)
    (hI : ∀ s, (∀ i, 0 ≤ frac (a e i) (b i) s) → ∃ u, (∀ i, 0 ≤ frac (a0 i) (b0 i) u) ∧ ι u = s)
    (hE : ∀ u, (∀ i, 0 < frac (a0 i) (b0 i) u) → energy Q c a b e (ι u) = E0 u)
    (hE0 : ∀ u, (∀ i, 0 < frac (a0 i) (b0 i) u) → E0 u0 ≤ E0 u) :
    Tendsto (fun r => (M (join (env r t p, X (env r t p)))).g) (𝓝[P] e) (𝓝 (E0 u0)) := by
  have key := pure_limit (P := P) (e := e) (X := fun r => X (env r t p)) (T := T) (ι := ι)
    (I := {u | ∀ i, 0 < frac (a0 i) (b0 i) u}) (u0 := u0) (B := B) hQ c ha b (fun r hr => (hD r hr _).mp (hX r hr))
    (fun r hr s hs => by
      have h1 := hmin r hr s ((hD r hr s).mpr hs)
      rwa [hg r hr _ (hX r hr), hg r hr _ ((hD r hr s).mpr hs)] at h1)
    hT hι (by rw [← hTe]; exact (hTc.tendsto e).mono_left nhdsWithin_le_nhds)
    (fun s hs => by
      obtain ⟨u, hu, rfl⟩ := hI s hs
      exact ⟨u, closure_frac hu0 hu, rfl⟩)
    (fun u hu => by rw [hE u hu, hE u0 hu0]; exact hE0 u hu) hB
  rw [hE u0 hu0] at key
  refine key.congr' ?_
  filter_upwards [self_mem_nhdsWithin] with r hr
  exact (hg r hr _ (hX r hr)).symm

/-- Less the end members, whose weights are the composition: the energy of mixing tends to zero. -/
theorem mixing_limit {na : ℕ} {G : (Fin nr → ℝ) → ℝ} {P : Set (Fin nr → ℝ)} {e : Fin nr → ℝ} {w : (Fin nr → ℝ) → Fin na → ℝ}
    {g : Fin na → ℝ} (k : Fin na) {L : ℝ} (hG : Tendsto G (𝓝[P] e) (𝓝 L)) (hw : ∀ j, Continuous fun r => w r j)
    (he : ∀ j, w e j = if j = k then 1 else 0) : Tendsto (fun r => G r - ∑ j, w r j * g j) (𝓝[P] e) (𝓝 (L - g k)) := by
  refine hG.sub ?_
  have hc : Continuous fun r => ∑ j, w r j * g j := continuous_finsetSum _ fun j _ => (hw j).mul continuous_const
  have := (hc.tendsto e).mono_left (nhdsWithin_le_nhds (s := P))
  simpa [he] using this

end

end

end Verif.Thermo.Ordering
