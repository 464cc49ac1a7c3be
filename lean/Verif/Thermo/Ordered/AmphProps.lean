import Verif.Thermo.Ordered.ClinoamphiboleProps
import Verif.Thermo.Ordered.OrthoamphiboleProps

/-!
Amphibole (/repo/sources/amphibole.c): at given conditions and composition the file uses the structure, monoclinic or
orthorhombic, with the lower Gibbs energy at its own equilibrium order (`isClino`, 1405-1434).
-/

namespace Verif.Thermo.Ordering

open Finset Filter Topology
open Magma.Thermo.Mixing (R R_pos Mix)
open Magma.Thermo.Extensive (Grad Partial)

noncomputable section

open Classical in
/-- A phase whose functions first choose between two sets of parameters (`clino = isClino(t, p, r); setClino(clino);`
at the head of every public function of amphibole.c, e.g. 1758-1759). -/
def choose {nr : ℕ} (c : ℝ → ℝ → (Fin nr → ℝ) → Prop) (A B : Mix nr) : Mix nr where
  g t p r := if c t p r then A.g t p r else B.g t p r
  gr t p r := if c t p r then A.gr t p r else B.gr t p r
  grr t p r := if c t p r then A.grr t p r else B.grr t p r
  grrr t p r := if c t p r then A.grrr t p r else B.grrr t p r
  h t p r := if c t p r then A.h t p r else B.h t p r
  s t p r := if c t p r then A.s t p r else B.s t p r
  sr t p r := if c t p r then A.sr t p r else B.sr t p r
  srr t p r := if c t p r then A.srr t p r else B.srr t p r
  cp t p r := if c t p r then A.cp t p r else B.cp t p r
  cpt t p r := if c t p r then A.cpt t p r else B.cpt t p r
  cpr t p r := if c t p r then A.cpr t p r else B.cpr t p r
  v t p r := if c t p r then A.v t p r else B.v t p r
  vr t p r := if c t p r then A.vr t p r else B.vr t p r
  vrr t p r := if c t p r then A.vrr t p r else B.vrr t p r
  vt t p r := if c t p r then A.vt t p r else B.vt t p r
  vp t p r := if c t p r then A.vp t p r else B.vp t p r
  vtt t p r := if c t p r then A.vtt t p r else B.vtt t p r
  vtp t p r := if c t p r then A.vtp t p r else B.vtp t p r
  vpp t p r := if c t p r then A.vpp t p r else B.vpp t p r
  vrt t p r := if c t p r then A.vrt t p r else B.vrt t p r
  vrp t p r := if c t p r then A.vrp t p r else B.vrp t p r
  fx r := A.fx r

/-- Where the choice does not change nearby. -/
structure Settled {nr : ℕ} (c : ℝ → ℝ → (Fin nr → ℝ) → Prop) (I : ℝ → ℝ → (Fin nr → ℝ) → Prop) : Prop where
  r : ∀ t p r, I t p r → ∀ᶠ r' in 𝓝 r, (c t p r' ↔ c t p r)
  t : ∀ t p r, I t p r → ∀ᶠ t' in 𝓝 t, (c t' p r ↔ c t p r)
  p : ∀ t p r, I t p r → ∀ᶠ p' in 𝓝 p, (c t p' r ↔ c t p r)

/-- If both sets of parameters give consistent functions, so does the choice, where it is settled. -/
theorem consistentOn_choose {nr : ℕ} {c : ℝ → ℝ → (Fin nr → ℝ) → Prop} {A B : Mix nr}
    {I : ℝ → ℝ → (Fin nr → ℝ) → Prop} (hA : ConsistentOn A I) (hB : ConsistentOn B I) (hc : Settled c I) :
    ConsistentOn (choose c A B) I := by
  classical
  have lr : ∀ {f g : ℝ → ℝ → (Fin nr → ℝ) → ℝ} {f' g' : Fin nr → ℝ} {t p : ℝ} {r : Fin nr → ℝ}, I t p r →
      Grad (f t p) r f' → Grad (g t p) r g' →
      Grad (fun r => if c t p r then f t p r else g t p r) r (if c t p r then f' else g') := by
    intro f g f' g' t p r hI hf hg
    have := hc.r t p r hI
    by_cases h : c t p r
    · rw [if_pos h]
      refine HasFDerivAt.congr_of_eventuallyEq hf ?_
      filter_upwards [this] with r' h'
      rw [if_pos (h'.mpr h)]
    · rw [if_neg h]
      refine HasFDerivAt.congr_of_eventuallyEq hg ?_
      filter_upwards [this] with r' h'
      rw [if_neg (fun q => h (h'.mp q))]
  have lt : ∀ {f g : ℝ → ℝ → (Fin nr → ℝ) → ℝ} {f' g' : ℝ} {t p : ℝ} {r : Fin nr → ℝ}, I t p r →
      HasDerivAt (fun t => f t p r) f' t → HasDerivAt (fun t => g t p r) g' t →
      HasDerivAt (fun t => if c t p r then f t p r else g t p r) (if c t p r then f' else g') t := by
    intro f g f' g' t p r hI hf hg
    have := hc.t t p r hI
    by_cases h : c t p r
    · rw [if_pos h]
      refine HasDerivAt.congr_of_eventuallyEq hf ?_
      filter_upwards [this] with r' h'
      rw [if_pos (h'.mpr h)]
    · rw [if_neg h]
      refine HasDerivAt.congr_of_eventuallyEq hg ?_
      filter_upwards [this] with r' h'
      rw [if_neg (fun q => h (h'.mp q))]
  have lp : ∀ {f g : ℝ → ℝ → (Fin nr → ℝ) → ℝ} {f' g' : ℝ} {t p : ℝ} {r : Fin nr → ℝ}, I t p r →
      HasDerivAt (fun p => f t p r) f' p → HasDerivAt (fun p => g t p r) g' p →
      HasDerivAt (fun p => if c t p r then f t p r else g t p r) (if c t p r then f' else g') p := by
    intro f g f' g' t p r hI hf hg
    have := hc.p t p r hI
    by_cases h : c t p r
    · rw [if_pos h]
      refine HasDerivAt.congr_of_eventuallyEq hf ?_
      filter_upwards [this] with r' h'
      rw [if_pos (h'.mpr h)]
    · rw [if_neg h]
      refine HasDerivAt.congr_of_eventuallyEq hg ?_
      filter_upwards [this] with r' h'
      rw [if_neg (fun q => h (h'.mp q))]
  have ap : ∀ {α β : Type} {q : Prop} [Decidable q] (f g : α → β) (i : α),
      (if q then f else g) i = if q then f i else g i := by
    intro α β q _ f g i; split_ifs <;> rfl
  constructor
  · exact fun t p r h => lr h (hA.g_r t p r h) (hB.g_r t p r h)
  · intro t p r h i
    simp only [choose, ap]
    exact lr (f := fun t p r => A.gr t p r i) (g := fun t p r => B.gr t p r i) h (hA.g_rr t p r h i) (hB.g_rr t p r h i)
  · intro t p r h i j
    simp only [choose, ap]
    exact lr (f := fun t p r => A.grr t p r i j) (g := fun t p r => B.grr t p r i j) h (hA.g_rrr t p r h i j)
      (hB.g_rrr t p r h i j)
  · intro t p r h
    have := lt (f := A.g) (g := B.g) h (hA.g_t t p r h) (hB.g_t t p r h)
    refine this.congr_deriv ?_
    simp only [choose]; split_ifs <;> rfl
  · intro t p r h
    simp only [choose]
    split_ifs
    exacts [hA.h_eq t p r h, hB.h_eq t p r h]
  · exact fun t p r h => lr h (hA.s_r t p r h) (hB.s_r t p r h)
  · intro t p r h i
    simp only [choose, ap]
    exact lr (f := fun t p r => A.sr t p r i) (g := fun t p r => B.sr t p r i) h (hA.s_rr t p r h i) (hB.s_rr t p r h i)
  · exact fun t p r h => lt h (hA.h_t t p r h) (hB.h_t t p r h)
  · exact fun t p r h => lt h (hA.cp_t t p r h) (hB.cp_t t p r h)
  · exact fun t p r h => lr h (hA.cp_r t p r h) (hB.cp_r t p r h)
  · exact fun t p r h => lp h (hA.g_p t p r h) (hB.g_p t p r h)
  · exact fun t p r h => lr h (hA.v_r t p r h) (hB.v_r t p r h)
  · intro t p r h i
    simp only [choose, ap]
    exact lr (f := fun t p r => A.vr t p r i) (g := fun t p r => B.vr t p r i) h (hA.v_rr t p r h i) (hB.v_rr t p r h i)
  · exact fun t p r h => lt h (hA.v_t t p r h) (hB.v_t t p r h)
  · exact fun t p r h => lp h (hA.v_p t p r h) (hB.v_p t p r h)
  · exact fun t p r h => lt h (hA.v_tt t p r h) (hB.v_tt t p r h)
  · exact fun t p r h => lp h (hA.v_tp t p r h) (hB.v_tp t p r h)
  · exact fun t p r h => lp h (hA.v_pp t p r h) (hB.v_pp t p r h)
  · intro t p r h i
    simp only [choose, ap]
    exact lt (f := fun t p r => A.vr t p r i) (g := fun t p r => B.vr t p r i) h (hA.v_rt t p r h i) (hB.v_rt t p r h i)
  · intro t p r h i
    simp only [choose, ap]
    exact lp (f := fun t p r => A.vr t p r i) (g := fun t p r => B.vr t p r i) h (hA.v_rp t p r h i) (hB.v_rp t p r h i)
  · intro t p r h i
    simp only [choose, ap]
    refine (lt (f := fun t p r => A.gr t p r i) (g := fun t p r => B.gr t p r i) h (hA.g_rt t p r h i)
      (hB.g_rt t p r h i)).congr_deriv ?_
    split_ifs <;> rfl
  · intro t p r h i
    simp only [choose, ap]
    exact lp (f := fun t p r => A.gr t p r i) (g := fun t p r => B.gr t p r i) h (hA.g_rp t p r h i) (hB.g_rp t p r h i)
  · intro t p r h h0 i
    simp only [choose, ap]
    refine (lt (f := fun t p r => A.sr t p r i) (g := fun t p r => B.sr t p r i) h (hA.s_rt t p r h h0 i)
      (hB.s_rt t p r h h0 i)).congr_deriv ?_
    split_ifs <;> rfl
  · exact fun t p r h => lr h (hA.vp_r t p r h) (hB.vp_r t p r h)
  · intro t p r h i j
    simp only [choose]
    split_ifs
    exacts [hA.sym2 t p r h i j, hB.sym2 t p r h i j]
  · intro t p r h i j k
    simp only [choose]
    split_ifs
    exacts [hA.sym3 t p r h i j k, hB.sym3 t p r h i j k]

/-- Two continuous functions of the conditions keep their order near conditions where they differ. -/
lemma settled_of_continuous {nr : ℕ} {gA gB : (Ext nr → ℝ) → ℝ} {U : Set (Ext nr → ℝ)}
    (hA : ∀ θ ∈ U, ContinuousAt gA θ) (hB : ∀ θ ∈ U, ContinuousAt gB θ) :
    Settled (fun t p r => ¬ gB (env r t p) < gA (env r t p))
      fun t p r => env r t p ∈ U ∧ gA (env r t p) ≠ gB (env r t p) := by
  have key : ∀ θ ∈ U, gA θ ≠ gB θ → ∀ᶠ θ' in 𝓝 θ, (¬ gB θ' < gA θ' ↔ ¬ gB θ < gA θ) := by
    intro θ hθ hne
    rcases lt_or_gt_of_ne hne with h | h
    · filter_upwards [(hA θ hθ).eventually_lt (hB θ hθ) h] with θ' h'
      simp [h.le, h'.le]
    · filter_upwards [(hB θ hθ).eventually_lt (hA θ hθ) h] with θ' h'
      simp [h, h']
  have cr : ∀ t p : ℝ, Continuous fun r : Fin nr → ℝ => env r t p := fun t p =>
    continuous_pi fun b => by cases b with
      | inl i => exact continuous_apply i
      | inr k => exact continuous_const
  have ct : ∀ (r : Fin nr → ℝ) (p : ℝ), Continuous fun t : ℝ => env r t p := fun r p =>
    continuous_pi fun b => by
      rcases b with i | k
      · exact continuous_const
      · fin_cases k
        exacts [continuous_id, continuous_const]
  have cp : ∀ (r : Fin nr → ℝ) (t : ℝ), Continuous fun p : ℝ => env r t p := fun r p =>
    continuous_pi fun b => by
      rcases b with i | k
      · exact continuous_const
      · fin_cases k
        exacts [continuous_const, continuous_id]
  exact ⟨fun t p r h => (cr t p).continuousAt.eventually (key _ h.1 h.2),
    fun t p r h => (ct r p).continuousAt.eventually (key _ h.1 h.2),
    fun t p r h => (cp r t).continuousAt.eventually (key _ h.1 h.2)⟩

namespace Amphibole

/-- `isClino`: true unless the orthorhombic structure, at its own equilibrium order, has the lower Gibbs energy;
amphibole.c 1405-1434. -/
def isClino (Xc Xo : (Ext 2 → ℝ) → Fin 2 → ℝ) (t p : ℝ) (r : Fin 2 → ℝ) : Prop :=
  ¬ (Orthoamphibole.macros (pt Xo (env r t p))).g < (Clinoamphibole.macros (pt Xc (env r t p))).g

/-- `gmixAph, hmixAph, smixAph, cpmixAph, vmixAph`, amphibole.c 1868-2480. -/
def mix (Xc Xo : (Ext 2 → ℝ) → Fin 2 → ℝ) : Mix 2 :=
  choose (isClino Xc Xo) (Clinoamphibole.mix Xc) (Orthoamphibole.mix Xo)

/-- Conditions: temperatures above 309 K, compositions strictly between the end members, and not on the boundary
between the two structures. -/
def Cond (Xc Xo : (Ext 2 → ℝ) → Fin 2 → ℝ) (t p : ℝ) (r : Fin 2 → ℝ) : Prop :=
  Clinoamphibole.Cond t p r ∧
    (Clinoamphibole.macros (pt Xc (env r t p))).g ≠ (Orthoamphibole.macros (pt Xo (env r t p))).g

lemma settled {Xc Xo : (Ext 2 → ℝ) → Fin 2 → ℝ} (hc : Clinoamphibole.Equilibrium Xc)
    (ho : Orthoamphibole.Equilibrium Xo) : Settled (isClino Xc Xo) (Cond Xc Xo) :=
  settled_of_continuous (U := Clinoamphibole.At) (gA := fun θ => (Clinoamphibole.macros (pt Xc θ)).g)
    (gB := fun θ => (Orthoamphibole.macros (pt Xo θ)).g)
    (fun _ h => (grad_r0 Clinoamphibole.ok (Clinoamphibole.solved hc) h).continuousAt)
    (fun _ h => (grad_r0 Orthoamphibole.ok (Orthoamphibole.solved ho) h).continuousAt)

/-- **C24.** Amphibole: every mixing property the file reports is the derivative it claims to be of the Gibbs energy of
the more stable structure at equilibrium order, except on the boundary between the structures. -/
theorem C24_amphibole {Xc Xo : (Ext 2 → ℝ) → Fin 2 → ℝ} (hc : Clinoamphibole.Equilibrium Xc)
    (ho : Orthoamphibole.Equilibrium Xo) : ConsistentOn (mix Xc Xo) (Cond Xc Xo) := by
  have restrict : ∀ {M : Mix 2}, ConsistentOn M Clinoamphibole.Cond → ConsistentOn M (Cond Xc Xo) := by
    intro M h
    exact ⟨fun t p r q => h.g_r t p r q.1, fun t p r q => h.g_rr t p r q.1, fun t p r q => h.g_rrr t p r q.1,
      fun t p r q => h.g_t t p r q.1, fun t p r q => h.h_eq t p r q.1, fun t p r q => h.s_r t p r q.1,
      fun t p r q => h.s_rr t p r q.1, fun t p r q => h.h_t t p r q.1, fun t p r q => h.cp_t t p r q.1,
      fun t p r q => h.cp_r t p r q.1, fun t p r q => h.g_p t p r q.1, fun t p r q => h.v_r t p r q.1,
      fun t p r q => h.v_rr t p r q.1, fun t p r q => h.v_t t p r q.1, fun t p r q => h.v_p t p r q.1,
      fun t p r q => h.v_tt t p r q.1, fun t p r q => h.v_tp t p r q.1, fun t p r q => h.v_pp t p r q.1,
      fun t p r q => h.v_rt t p r q.1, fun t p r q => h.v_rp t p r q.1, fun t p r q => h.g_rt t p r q.1,
      fun t p r q => h.g_rp t p r q.1, fun t p r q => h.s_rt t p r q.1, fun t p r q => h.vp_r t p r q.1, fun t p r q => h.sym2 t p r q.1,
      fun t p r q => h.sym3 t p r q.1⟩
  exact consistentOn_choose (restrict (Clinoamphibole.C24_clinoamphibole hc))
    (restrict (Orthoamphibole.C24_orthoamphibole ho)) (settled hc ho)

/-- **C61.** Amphibole: the reported Gibbs energy is the lowest over both structures and all ordering states with
positive site fractions. -/
theorem C61_amphibole_lowest {Xc Xo : (Ext 2 → ℝ) → Fin 2 → ℝ} (hc : Clinoamphibole.Equilibrium Xc)
    (ho : Orthoamphibole.Equilibrium Xo) {t p : ℝ} {r : Fin 2 → ℝ} (h : Clinoamphibole.Cond t p r) :
    IsLeast ({g | ∃ s, Clinoamphibole.Dom (join (env r t p, s)) ∧ g = (Clinoamphibole.macros (join (env r t p, s))).g} ∪
      {g | ∃ s, Orthoamphibole.Dom (join (env r t p, s)) ∧ g = (Orthoamphibole.macros (join (env r t p, s))).g})
      ((mix Xc Xo).g t p r) := by
  have ht : 0 < t := lt_trans (by norm_num) h.1
  obtain ⟨sc, c1, c2, c3⟩ := Clinoamphibole.C61_clinoamphibole_exists h.2 ht p
  obtain ⟨so, o1, o2, o3⟩ := Orthoamphibole.C61_orthoamphibole_exists h.2 ht p
  have ec : Xc (env r t p) = sc :=
    (Clinoamphibole.C61_clinoamphibole_unique h.2 h.1.le p).unique (hc t p r h) ⟨c1, c2⟩
  have eo : Xo (env r t p) = so :=
    (Orthoamphibole.C61_orthoamphibole_unique h.2 h.1.le p).unique (ho t p r h) ⟨o1, o2⟩
  have pc : pt Xc (env r t p) = join (env r t p, sc) := by rw [← ec]; rfl
  have po : pt Xo (env r t p) = join (env r t p, so) := by rw [← eo]; rfl
  have gc : (Clinoamphibole.mix Xc).g t p r = (Clinoamphibole.macros (join (env r t p, sc))).g := by rw [← pc]; rfl
  have go : (Orthoamphibole.mix Xo).g t p r = (Orthoamphibole.macros (join (env r t p, so))).g := by rw [← po]; rfl
  constructor
  · simp only [mix, choose]
    split_ifs with q
    · exact Or.inl ⟨sc, c1, gc⟩
    · exact Or.inr ⟨so, o1, go⟩
  · simp only [mix, choose, isClino, gc, go, pc, po]
    rintro g (⟨s, d, rfl⟩ | ⟨s, d, rfl⟩)
    · refine le_trans ?_ (c3 s d)
      split_ifs with q
      · exact q.le
      · exact le_refl _
    · refine le_trans ?_ (o3 s d)
      split_ifs with q
      · exact le_refl _
      · exact not_lt.mp q

/-- `FR(i), FP(i)`, amphibole.c 599-600. -/
def fr (r : Fin 2 → ℝ) (i : Fin 3) (j : Fin 2) : ℝ :=
  if j = 0 then (if i = 0 ∨ i = 2 then -(1 + r 0) else 1 - r 0) else if i = 2 then 1 - r 1 else -r 1

/-- `DFRDR(i), DFPDP(i)`, amphibole.c 606-607. -/
def dfr (_i : Fin 3) (_k : Fin 2) : ℝ := -1

/-- `FS13(i), FS2(i)`, amphibole.c 603-604. -/
def gs (s : Fin 2 → ℝ) (_i : Fin 3) (j : Fin 2) : ℝ := -s j

/-- `actAph`, first mask (`a[i]`) without the exclusion criteria, amphibole.c 1777-1782. -/
def act (Xc Xo : (Ext 2 → ℝ) → Fin 2 → ℝ) (t p : ℝ) (r : Fin 2 → ℝ) (i : Fin 3) : ℝ := actO (mix Xc Xo) fr t p r i

/-- `actAph`, second mask (`mu[i]`) without the exclusion criteria, amphibole.c 1784-1787. -/
def mu (Xc Xo : (Ext 2 → ℝ) → Fin 2 → ℝ) (t p : ℝ) (r : Fin 2 → ℝ) (i : Fin 3) : ℝ := muO (mix Xc Xo) fr t p r i

open Classical in
/-- `actAph`, third mask (`dx[i][k]`) without the exclusion criteria, amphibole.c 1789-1830. -/
def dact (Xc Xo : (Ext 2 → ℝ) → Fin 2 → ℝ) (t p : ℝ) (r : Fin 2 → ℝ) (i : Fin 3) (k : Fin 2) : ℝ :=
  if isClino Xc Xo t p r then dactO (jets Clinoamphibole.macros) Xc fr dfr gs t p r i k
  else dactO (jets Orthoamphibole.macros) Xo fr dfr gs t p r i k

/-- **C24.** Amphibole: activities are `exp(μ/RT)`. -/
theorem C24_amphibole_activity (Xc Xo : (Ext 2 → ℝ) → Fin 2 → ℝ) (t p : ℝ) (ht : t ≠ 0) (r : Fin 2 → ℝ) (i : Fin 3) :
    R * t * Real.log (act Xc Xo t p r i) = mu Xc Xo t p r i := C24_ordering_activity _ _ t p ht r i

lemma fr_e (r : Fin 2 → ℝ) (i : Fin 3) (j : Fin 2) :
    fr r i j = (if j = 0 then (if i = 0 ∨ i = 2 then -1 else 1) else if i = 2 then 1 else 0) - r j := by
  fin_cases j <;> fin_cases i <;> simp [fr] <;> ring

/-- **C24.** Amphibole: the reported composition derivatives of the activities are their derivatives. -/
theorem C24_amphibole_activity_derivative {Xc Xo : (Ext 2 → ℝ) → Fin 2 → ℝ} (hc : Clinoamphibole.Equilibrium Xc)
    (ho : Orthoamphibole.Equilibrium Xo) {t p : ℝ} {r : Fin 2 → ℝ} (h : Cond Xc Xo t p r) (i : Fin 3) (k : Fin 2) :
    Partial (fun r => act Xc Xo t p r i) r k (dact Xc Xo t p r i k) := by
  have d1 : Partial (fun r => actO (Clinoamphibole.mix Xc) fr t p r i) r k
      (dactO (jets Clinoamphibole.macros) Xc fr dfr gs t p r i k) :=
    C24_ordering_activity_derivative Clinoamphibole.ok (fun y _ => Clinoamphibole.entropy_eq y)
      (Clinoamphibole.solved hc) fr_e (fun _ _ => rfl) h.1 i k
  have d2 : Partial (fun r => actO (Orthoamphibole.mix Xo) fr t p r i) r k
      (dactO (jets Orthoamphibole.macros) Xo fr dfr gs t p r i k) :=
    C24_ordering_activity_derivative Orthoamphibole.ok (fun y _ => Orthoamphibole.entropy_eq y)
      (Orthoamphibole.solved ho) fr_e (fun _ _ => rfl) h.1 i k
  have hb : Continuous fun y : ℝ => Magma.Thermo.Extensive.bump r k y := by
    refine continuous_pi fun j => ?_
    unfold Magma.Thermo.Extensive.bump
    by_cases hj : j = k
    · subst hj; simp; fun_prop
    · simp [hj]; fun_prop
  have h0 : Magma.Thermo.Extensive.bump r k 0 = r := by
    funext j
    by_cases hj : j = k
    · subst hj; simp [Magma.Thermo.Extensive.bump]
    · simp [Magma.Thermo.Extensive.bump, hj]
  have hs : ∀ᶠ y in 𝓝 (0 : ℝ), (isClino Xc Xo t p (Magma.Thermo.Extensive.bump r k y) ↔ isClino Xc Xo t p r) := by
    have := (settled hc ho).r t p r h
    rw [← h0] at this
    have := hb.continuousAt.eventually this
    rwa [h0] at this
  unfold Partial dact at *
  by_cases hq : isClino Xc Xo t p r
  · rw [if_pos hq]
    refine d1.congr_of_eventuallyEq ?_
    filter_upwards [hs] with y hy
    simp only [act, actO, mix, choose, if_pos (hy.mpr hq)]
  · rw [if_neg hq]
    refine d2.congr_of_eventuallyEq ?_
    filter_upwards [hs] with y hy
    simp only [act, actO, mix, choose, if_neg fun z => hq (hy.mp z)]

open Magma.Thermo.Compo in
lemma fr_eq (m : Fin 3 → ℝ) (h0 : ∑ i, m i ≠ 0) (i : Fin 3) (j : Fin 2) :
    (∑ i, m i) * Magma.Thermo.Compo.Amphibole.conv.dm m j i = fr (Magma.Thermo.Compo.Amphibole.conv.toR m) i j := by
  have ht : total m = ∑ i, m i := rfl
  have e1 : Magma.Thermo.Compo.Amphibole.conv.dm m j i = Magma.Thermo.Compo.Amphibole.dm m i j := rfl
  have e2 : Magma.Thermo.Compo.Amphibole.conv.toR m = Magma.Thermo.Compo.Amphibole.toR m := rfl
  rw [e1, e2]
  unfold Magma.Thermo.Compo.Amphibole.dm Magma.Thermo.Compo.Amphibole.toR fr
  rw [← ht] at h0 ⊢
  rw [if_neg h0, if_pos h0, if_pos h0]
  generalize total m = N at h0
  fin_cases j <;> fin_cases i <;> simp <;> field_simp <;> ring

/-- **C24.** Amphibole: the reported chemical potentials are the derivatives of the total Gibbs energy of mixing in the
moles of the end members. -/
theorem C24_amphibole_potential {Xc Xo : (Ext 2 → ℝ) → Fin 2 → ℝ} (hc : Clinoamphibole.Equilibrium Xc)
    (ho : Orthoamphibole.Equilibrium Xo) (t p : ℝ) (m : Fin 3 → ℝ) (h0 : ∑ i, m i ≠ 0)
    (h : Cond Xc Xo t p (Magma.Thermo.Compo.Amphibole.conv.toR m)) (i : Fin 3) :
    Partial (fun m => (∑ i, m i) * (mix Xc Xo).g t p (Magma.Thermo.Compo.Amphibole.conv.toR m)) m i
      (mu Xc Xo t p (Magma.Thermo.Compo.Amphibole.conv.toR m) i) :=
  C24_ordering_potential (C24_amphibole hc ho) _ Magma.Thermo.Compo.C25_amphibole t p m h0 (fr_eq m h0) h i

/-- The equilibrium state of the monoclinic structure and its Gibbs energy do not depend on the pressure. -/
lemma clino_g {X : (Ext 2 → ℝ) → Fin 2 → ℝ} (hX : Clinoamphibole.Equilibrium X) {t : ℝ} {r : Fin 2 → ℝ}
    (h : ∀ p, Clinoamphibole.Cond t p r) (p q : ℝ) :
    (Clinoamphibole.macros (pt X (env r t p))).g = (Clinoamphibole.macros (pt X (env r t q))).g := by
  have hq : Clinoamphibole.Dom (join (env r t p, X (env r t q))) ∧
      ∀ k, (Clinoamphibole.macros (join (env r t p, X (env r t q)))).dgds k = 0 := hX t q r (h q)
  have e : X (env r t p) = X (env r t q) :=
    (Clinoamphibole.C61_clinoamphibole_unique (h p).2 (h p).1.le p).unique (hX t p r (h p)) hq
  have e1 : pt X (env r t p) = join (env r t p, X (env r t q)) := by rw [← e]; rfl
  rw [e1]
  rfl

/-- The Gibbs energy of the orthorhombic structure at equilibrium order is linear in the pressure. -/
lemma ortho_g {X : (Ext 2 → ℝ) → Fin 2 → ℝ} (hX : Orthoamphibole.Equilibrium X) {t : ℝ} {r : Fin 2 → ℝ}
    (h : ∀ p, Orthoamphibole.Cond t p r) (p q : ℝ) :
    (Orthoamphibole.macros (pt X (env r t p))).g = (Orthoamphibole.macros (pt X (env r t q))).g -
      3 / 100 * (1 - r 1) * (p - q) := by
  have hq : Orthoamphibole.Dom (join (env r t p, X (env r t q))) ∧
      ∀ k, (Orthoamphibole.macros (join (env r t p, X (env r t q)))).dgds k = 0 := hX t q r (h q)
  have e : X (env r t p) = X (env r t q) :=
    (Orthoamphibole.C61_orthoamphibole_unique (h p).2 (h p).1.le p).unique (hX t p r (h p)) hq
  have e1 : pt X (env r t p) = join (env r t p, X (env r t q)) := by rw [← e]; rfl
  have e2 : pt X (env r t q) = join (env r t q, X (env r t q)) := rfl
  rw [e1, e2]
  generalize X (env r t q) = s
  simp only [Orthoamphibole.macros]
  change _ + Orthoamphibole.G0 t p + Orthoamphibole.GR t p * r 0 + _ * s 0 + _ * s 1 + _ * r 0 * r 0 + _ + _ + _ + _ + _ +
    Orthoamphibole.GP t p * r 1 + _ + _ + _ + _ + _ + _ + _ + _ + _ + _ + _ + _ + _ + _ = (_ + Orthoamphibole.G0 t q +
    Orthoamphibole.GR t q * r 0 + _ * s 0 + _ * s 1 + _ * r 0 * r 0 + _ + _ + _ + _ + _ +
    Orthoamphibole.GP t q * r 1 + _ + _ + _ + _ + _ + _ + _ + _ + _ + _ + _ + _ + _ + _) - _
  simp only [Orthoamphibole.G0, Orthoamphibole.GR, Orthoamphibole.GP, Orthoamphibole.G1, Orthoamphibole.G2,
    Orthoamphibole.G3, Orthoamphibole.DV1, Orthoamphibole.DV2, Orthoamphibole.DV3]
  ring!

/-- **C61.** Amphibole changes structure once with pressure: at every temperature above 309 K and every composition
strictly between the end members there is one pressure up to which the monoclinic structure is reported and above which
the orthorhombic one is. -/
theorem C61_amphibole_transition {Xc Xo : (Ext 2 → ℝ) → Fin 2 → ℝ} (hc : Clinoamphibole.Equilibrium Xc)
    (ho : Orthoamphibole.Equilibrium Xo) {t : ℝ} {r : Fin 2 → ℝ} (ht : 309 < t) (hr : Clinoamphibole.Between r) :
    ∃! p₀, ∀ p, (isClino Xc Xo t p r ↔ p ≤ p₀) ∧ (Cond Xc Xo t p r ↔ p ≠ p₀) := by
  have kc : ∀ p, Clinoamphibole.Cond t p r := fun p => ⟨ht, hr⟩
  have ko : ∀ p, Orthoamphibole.Cond t p r := fun p => ⟨ht, hr⟩
  have h1 : 0 < 3 / 100 * (1 - r 1) := by obtain ⟨a, b, c⟩ := hr; nlinarith
  set k := 3 / 100 * (1 - r 1) with hk
  set a := (Clinoamphibole.macros (pt Xc (env r t 0))).g with ha
  set b := (Orthoamphibole.macros (pt Xo (env r t 0))).g with hb
  have ec : ∀ p, (Clinoamphibole.macros (pt Xc (env r t p))).g = a := fun p => clino_g hc kc p 0
  have eo : ∀ p, (Orthoamphibole.macros (pt Xo (env r t p))).g = b - k * p := fun p => by
    rw [ortho_g ho ko p 0, sub_zero]
  have key : k * ((b - a) / k) = b - a := mul_div_cancel₀ _ h1.ne'
  refine ⟨(b - a) / k, fun p => ⟨?_, ?_⟩, fun q hq => ?_⟩
  · rw [isClino, ec, eo, not_lt, le_div_iff₀ h1]
    constructor <;> intro h <;> linarith
  · rw [Cond, ec, eo, ne_eq, ne_eq, eq_div_iff h1.ne']
    constructor
    · rintro ⟨-, h⟩ h'; exact h (by linarith)
    · intro h; exact ⟨kc p, fun h' => h (by linarith)⟩
  · have h2 := (hq ((b - a) / k)).2
    rw [Cond, ec, eo, key] at h2
    by_contra h
    exact (h2.mpr (fun e => h e.symm)).2 (by ring)

/-- The hypotheses are met: there are equilibrium states of both structures, and conditions at which the file reports
each of them. -/
example : ∃ Xc Xo, Clinoamphibole.Equilibrium Xc ∧ Orthoamphibole.Equilibrium Xo ∧
    (∃ p, Cond Xc Xo 1000 p ![0, 1 / 4] ∧ isClino Xc Xo 1000 p ![0, 1 / 4]) ∧
    ∃ p, Cond Xc Xo 1000 p ![0, 1 / 4] ∧ ¬ isClino Xc Xo 1000 p ![0, 1 / 4] := by
  obtain ⟨Xc, hc⟩ := Clinoamphibole.equilibrium_exists
  obtain ⟨Xo, ho⟩ := Orthoamphibole.equilibrium_exists
  have hr : Clinoamphibole.Between ![0, 1 / 4] := by
    refine ⟨by norm_num, by norm_num, ?_⟩
    simp only [Matrix.cons_val_zero, Matrix.cons_val_one]; norm_num
  obtain ⟨p₀, h, -⟩ := C61_amphibole_transition hc ho (t := 1000) (by norm_num) hr
  exact ⟨Xc, Xo, hc, ho, ⟨p₀ - 1, (h _).2.mpr (by linarith [sub_one_lt p₀] : p₀ - 1 ≠ p₀), (h _).1.mpr (by linarith)⟩,
    p₀ + 1, (h _).2.mpr (by simp), fun z => by linarith [(h _).1.mp z]⟩

end Amphibole

end

end Verif.Thermo.Ordering
