import Verif.Thermo.Ordered.Rhombohedral
import Verif.Thermo.Ordered.RhombohedralEnds
import Verif.Thermo.ConvTables

/-!
The rhombohedral oxides, geikielite-hematite-ilmenite-pyrophanite (/repo/sources/rhombohedral.c). Their ordering is convergent:
the two cation sites are equivalent when disordered, so disorder always solves the equations of `order()` and every ordered
solution has a mirror image of the same energy. An equilibrium state exists at every temperature; along any continuous
branch of regular solutions the file reports the derivatives of the Gibbs energy less that of its (ordered) end members.
-/

namespace Verif.Thermo.Ordering.Rhombohedral

open Finset Filter Topology
open Magma.Thermo.Mixing (R R_pos Mix)
open Verif.Thermo.StdState (Std Consistent)

noncomputable section

/-- Constant terms of the site fractions, rhombohedral.c 1801-1811. -/
def siteA (r : Fin 3 → ℝ) : Fin 10 → ℝ :=
  ![r 0 / 2, r 1 / 2, r 2 / 2, (r 0 + r 1 + r 2) / 2, 1 - r 0 - r 1 - r 2, r 0 / 2, r 1 / 2, r 2 / 2, (r 0 + r 1 + r 2) / 2,
    1 - r 0 - r 1 - r 2]

/-- Coefficients of the ordering parameters in the site fractions, rhombohedral.c 1801-1811. -/
def siteB : Fin 10 → Fin 3 → ℝ :=
  ![![1 / 2, 0, 0], ![0, 1 / 2, 0], ![0, 0, 1 / 2], ![-(1 / 2), -(1 / 2), -(1 / 2)], ![0, 0, 0], ![-(1 / 2), 0, 0],
    ![0, -(1 / 2), 0], ![0, 0, -(1 / 2)], ![1 / 2, 1 / 2, 1 / 2], ![0, 0, 0]]

/-- Sites per formula unit, times `RT`: one A, one B. -/
def siteC (t : ℝ) : Fin 10 → ℝ := fun _ => R * t

lemma raw_eq (θ : Ext 3 → ℝ) (s : Fin 3 → ℝ) (i : Fin 10) :
    raw (join (θ, s)) i = frac (siteA (fun j => θ (.inl j)) i) (siteB i) s := by
  fin_cases i <;> simp [raw, join, frac, siteA, siteB, Fin.sum_univ_three] <;> ring

/-- `Dom`: all ten site fractions positive. -/
lemma dom_pos (y : Var 3 3 → ℝ) : Dom y ↔ ∀ i, 0 < raw y i := by
  constructor
  · rintro ⟨a0, a1, a2, a3, a4, a5, a6, a7, a8, a9⟩ i
    fin_cases i
    exacts [a0, a1, a2, a3, a4, a5, a6, a7, a8, a9]
  · intro h
    exact ⟨h 0, h 1, h 2, h 3, h 4, h 5, h 6, h 7, h 8, h 9⟩

lemma dom_iff (θ : Ext 3 → ℝ) (s : Fin 3 → ℝ) :
    Dom (join (θ, s)) ↔ ∀ i, 0 < frac (siteA (fun j => θ (.inl j)) i) (siteB i) s := by
  rw [dom_pos]
  exact forall_congr' fun i => by rw [raw_eq]

/-- The part of `G` without the ideal entropy of mixing. -/
def excess (r : Fin 3 → ℝ) (s : Fin 3 → ℝ) : ℝ := H (r 0) (r 1) (r 2) (s 0) (s 1) (s 2)

lemma g_eq (θ : Ext 3 → ℝ) (s : Fin 3 → ℝ) (h : Dom (join (θ, s))) :
    (macros (join (θ, s))).g = excess (fun j => θ (.inl j)) s + ∑ i, siteC (θ iT) i *
      (frac (siteA (fun j => θ (.inl j)) i) (siteB i) s * Real.log (frac (siteA (fun j => θ (.inl j)) i) (siteB i) s)) := by
  simp only [← raw_eq θ s]
  unfold macros
  rw [site_eq _ h]
  simp only [tables, G, S, excess, Fin.sum_univ_succ, Fin.sum_univ_zero, siteC, Fin.succ_zero_eq_one]
  simp only [show (Fin.succ 1 : Fin 10) = 2 from rfl, show (Fin.succ 1 : Fin 9) = 2 from rfl]
  generalize raw (join (θ, s)) = x
  simp [Fin.succ, join]
  ring

lemma bounded (r : Fin 3 → ℝ) (hr : r 0 ≤ 1 ∧ r 1 ≤ 1 ∧ r 2 ≤ 1) :
    Bornology.IsBounded {s : Fin 3 → ℝ | ∀ i, 0 ≤ frac (siteA r i) (siteB i) s} := by
  refine (Metric.isBounded_closedBall (x := (0 : Fin 3 → ℝ)) (r := 10)).subset fun s hs => ?_
  rw [Metric.mem_closedBall, dist_zero_right]
  refine (pi_norm_le_iff_of_nonneg (by norm_num)).mpr fun k => ?_
  have h0 := hs 0; have h1 := hs 1; have h2 := hs 2; have h3 := hs 5; have h4 := hs 6; have h5 := hs 7
  simp [frac, siteA, siteB, Fin.sum_univ_three] at h0 h1 h2 h3 h4 h5
  rw [Real.norm_eq_abs, abs_le]
  fin_cases k <;> constructor <;> simp only [Fin.zero_eta, Fin.mk_one, Fin.reduceFinMk] <;> linarith [hr.1, hr.2.1, hr.2.2]

/-- All four end members are present. -/
def Present (r : Fin 3 → ℝ) : Prop := 0 < r 0 ∧ 0 < r 1 ∧ 0 < r 2 ∧ 0 < 1 - r 0 - r 1 - r 2

/-- Initial guess of the ordering state, rhombohedral.c 1790. -/
def guess (r : Fin 3 → ℝ) : Fin 3 → ℝ := fun i => 9 / 10 * r i

/-- The site fractions of the guess. -/
lemma guess_sites (r : Fin 3 → ℝ) (i : Fin 10) : frac (siteA r i) (siteB i) (guess r) =
    (![19 / 20 * r 0, 19 / 20 * r 1, 19 / 20 * r 2, 1 / 20 * (r 0 + r 1 + r 2), 1 - r 0 - r 1 - r 2, 1 / 20 * r 0, 1 / 20 * r 1,
       1 / 20 * r 2, 19 / 20 * (r 0 + r 1 + r 2), 1 - r 0 - r 1 - r 2] : Fin 10 → ℝ) i := by
  fin_cases i <;> simp [frac, siteA, siteB, guess, Fin.sum_univ_three] <;> ring

lemma guess_pos {r : Fin 3 → ℝ} (h : Present r) (i : Fin 10) : 0 < frac (siteA r i) (siteB i) (guess r) := by
  obtain ⟨h0, h1, h2, h3⟩ := h
  rw [guess_sites r]
  fin_cases i <;> simp only [Fin.zero_eta, Fin.mk_one, Fin.reduceFinMk, Matrix.cons_val, Matrix.cons_val_zero,
    Matrix.cons_val_one] <;> first | positivity | linarith

/-- **C61.** The initial guess of rhombohedral.c has all site fractions in `[0, 1]`, for every mixture of the end members. -/
theorem C61_rhombohedral_guess {r : Fin 3 → ℝ} (h : 0 ≤ r 0 ∧ 0 ≤ r 1 ∧ 0 ≤ r 2 ∧ r 0 + r 1 + r 2 ≤ 1) (t p : ℝ) (i : Fin 10) :
    0 ≤ raw (join (env r t p, guess r)) i ∧ raw (join (env r t p, guess r)) i ≤ 1 := by
  obtain ⟨h0, h1, h2, h3⟩ := h
  rw [raw_eq]
  change 0 ≤ frac (siteA r i) (siteB i) (guess r) ∧ frac (siteA r i) (siteB i) (guess r) ≤ 1
  rw [guess_sites r]
  fin_cases i <;> simp only [Fin.zero_eta, Fin.mk_one, Fin.reduceFinMk, Matrix.cons_val, Matrix.cons_val_zero,
    Matrix.cons_val_one] <;> constructor <;> linarith

/-- **C61.** At every temperature, pressure and composition with all end members present the rhombohedral oxide has an
equilibrium ordering state: one with all site fractions positive, with the lowest Gibbs energy of all such states, and so a
solution of the equations `order()` solves. -/
theorem C61_rhombohedral_exists (θ : Ext 3 → ℝ) (ht : 0 < θ iT) (hr : Present fun j => θ (.inl j)) :
    ∃ s : Fin 3 → ℝ, IsEq macros Dom θ s ∧
      ∀ s', Dom (join (θ, s')) → (macros (join (θ, s))).g ≤ (macros (join (θ, s'))).g := by
  have hR := R_pos
  obtain ⟨h0, h1, h2, h3⟩ := hr
  refine pack_exists (n := 10) (a := siteA fun j => θ (.inl j)) (b := siteB) (c := siteC (θ iT))
    (Q := excess (fun j => θ (.inl j))) (s0 := guess fun j => θ (.inl j)) ok dom_open (dom_iff θ) (g_eq θ) ?_ ?_
    (guess_pos ⟨h0, h1, h2, h3⟩) (bounded _ ⟨?_, ?_, ?_⟩)
  · intro i; unfold siteC; positivity
  · unfold excess H; fun_prop
  all_goals linarith

/-- Where the site fraction `i` goes when the two sites are exchanged. -/
def mirror : Fin 10 → Fin 10 := ![5, 6, 7, 8, 9, 0, 1, 2, 3, 4]

lemma raw_mirror (θ : Ext 3 → ℝ) (s : Fin 3 → ℝ) (i : Fin 10) : raw (join (θ, -s)) i = raw (join (θ, s)) (mirror i) := by
  fin_cases i <;> simp [raw, join, mirror] <;> ring

lemma dom_mirror {θ : Ext 3 → ℝ} {s : Fin 3 → ℝ} (h : Dom (join (θ, s))) : Dom (join (θ, -s)) := by
  rw [dom_pos] at h ⊢
  intro i
  rw [raw_mirror]
  exact h _

/-- **C61.** Rhombohedral oxide: exchanging the two cation sites turns a solution of the equations of `order()` into another, of the
same energy. -/
theorem C61_rhombohedral_mirror {θ : Ext 3 → ℝ} {s : Fin 3 → ℝ} (h : IsEq macros Dom θ s) :
    IsEq macros Dom θ (-s) ∧ (macros (join (θ, -s))).g = (macros (join (θ, s))).g := by
  have hD := dom_mirror h.1
  have e : ∀ z, Dom (join (θ, z)) → macros (join (θ, z)) = tables (raw (join (θ, z))) (join (θ, z)) := fun z hz => by
    unfold macros; rw [site_eq _ hz]
  have m : ∀ i, raw (join (θ, -s)) i = raw (join (θ, s)) (mirror i) := raw_mirror θ s
  have m0 := m 0; have m1 := m 1; have m2 := m 2; have m3 := m 3; have m4 := m 4
  have m5 := m 5; have m6 := m 6; have m7 := m 7; have m8 := m 8; have m9 := m 9
  simp only [mirror, Matrix.cons_val, Matrix.cons_val_zero, Matrix.cons_val_one] at m0 m1 m2 m3 m4 m5 m6 m7 m8 m9
  refine ⟨⟨hD, fun k => ?_⟩, ?_⟩
  · have hk := h.2 k
    rw [e _ h.1] at hk
    rw [e _ hD, ← neg_eq_zero, ← hk]
    fin_cases k
    · simp only [tables, Fin.zero_eta, Fin.mk_one, Fin.reduceFinMk, Matrix.cons_val, Matrix.cons_val_zero, DGDS0, m0, m3, m5, m8]
      simp only [join, Sum.elim_inl, Sum.elim_inr, Pi.neg_apply]
      ring
    · simp only [tables, Fin.zero_eta, Fin.mk_one, Fin.reduceFinMk, Matrix.cons_val, Matrix.cons_val_one, DGDS1, m1, m3, m6, m8]
      simp only [join, Sum.elim_inl, Sum.elim_inr, Pi.neg_apply]
      ring
    · simp only [tables, Fin.zero_eta, Fin.mk_one, Fin.reduceFinMk, Matrix.cons_val, DGDS2, m2, m3, m7, m8]
      simp only [join, Sum.elim_inl, Sum.elim_inr, Pi.neg_apply]
      ring
  · rw [e _ h.1, e _ hD]
    simp only [tables, G, S, H, m0, m1, m2, m3, m4, m5, m6, m7, m8, m9]
    simp only [join, Sum.elim_inl, Sum.elim_inr, Pi.neg_apply]
    ring

/-- **C61.** Rhombohedral oxide: complete disorder solves the equations of `order()` at every temperature and composition. -/
theorem C61_rhombohedral_disorder (θ : Ext 3 → ℝ) (hr : Present fun j => θ (.inl j)) : IsEq macros Dom θ (fun _ => 0) := by
  obtain ⟨h0, h1, h2, h3⟩ := hr
  have hD : Dom (join (θ, fun _ => 0)) := by
    rw [dom_iff]
    intro i
    fin_cases i <;> simp [frac, siteA, siteB, Fin.sum_univ_three] <;> linarith
  refine ⟨hD, fun k => ?_⟩
  have m : ∀ i, raw (join (θ, fun _ => 0)) i = raw (join (θ, fun _ => 0)) (mirror i) := fun i => by
    have := raw_mirror θ (fun _ => 0) i
    rwa [show (-fun _ => 0 : Fin 3 → ℝ) = fun _ => 0 by funext; simp] at this
  have m0 := m 0; have m1 := m 1; have m2 := m 2; have m3 := m 3
  simp only [mirror, Matrix.cons_val, Matrix.cons_val_zero, Matrix.cons_val_one] at m0 m1 m2 m3
  unfold macros
  rw [site_eq _ hD]
  fin_cases k
  · simp only [tables, Fin.zero_eta, Matrix.cons_val, Matrix.cons_val_zero, DGDS0, m0, m3]
    simp only [join, Sum.elim_inr]
    ring
  · simp only [tables, Fin.mk_one, Matrix.cons_val, Matrix.cons_val_one, DGDS1, m1, m3]
    simp only [join, Sum.elim_inr]
    ring
  · simp only [tables, Fin.reduceFinMk, Matrix.cons_val, DGDS2, m2, m3]
    simp only [join, Sum.elim_inr]
    ring

/-- Ordering states of the pure end members, as `pureOrder` finds them (rhombohedral.c 635-688). -/
structure Ends where
  il : (Ext 0 → ℝ) → Fin 1 → ℝ
  gk : (Ext 0 → ℝ) → Fin 1 → ℝ
  py : (Ext 0 → ℝ) → Fin 1 → ℝ

/-- They are the ordered equilibrium states. -/
structure Ends.Ok (E : Ends) : Prop where
  il : PureIlmenite.Equilibrium E.il
  gk : PureGeikielite.Equilibrium E.gk
  py : PurePyrophanite.Equilibrium E.py

/-- The end members in the order of `ends`: geikielite, hematite (`HM_S, HM_H`, rhombohedral.c 590-591), ilmenite, pyrophanite
(rhombohedral.c 910-952). -/
def ends (E : Ends) : Fin 4 → ℝ → ℝ → Std :=
  ![PureGeikielite.std E.gk, fixedStd 0 0, PureIlmenite.std E.il, PurePyrophanite.std E.py]

/-- The weights in `ENDMEMBERS`, rhombohedral.c 1264-1265. -/
def weight (r : Fin 3 → ℝ) : Fin 4 → ℝ := ![r 1, 1 - r 0 - r 1 - r 2, r 0, r 2]

/-- `DENDDR0, DENDDR1, DENDDR2`, rhombohedral.c 1267-1269. -/
def dweight : Fin 3 → Fin 4 → ℝ := ![![0, -1, 1, 0], ![1, -1, 0, 0], ![0, -1, 0, 1]]

/-- The solution itself, before the end members are subtracted. -/
def whole (X : (Ext 3 → ℝ) → Fin 3 → ℝ) : Mix 3 := ordMix (jets macros) (fun y => (macros y).s) X

/-- `gmixRhm, hmixRhm, smixRhm, cpmixRhm, vmixRhm`, rhombohedral.c 2601-3353. -/
def mix (X : (Ext 3 → ℝ) → Fin 3 → ℝ) (E : Ends) : Mix 3 := lessEnds (whole X) weight dweight (ends E)

lemma weight_lin (r : Fin 3 → ℝ) (a : Fin 4) : weight r a = (![0, 1, 0, 0] : Fin 4 → ℝ) a + ∑ j, dweight j a * r j := by
  fin_cases a <;> simp [weight, dweight, Fin.sum_univ_three] <;> ring

/-- Conditions: on the branch, and below the critical temperature of the end members. -/
def Cond (U : Set (Ext 3 → ℝ)) (t p : ℝ) (r : Fin 3 → ℝ) : Prop := On U t p r ∧ 0 < t ∧ t < 2044

/-- **C24.** Rhombohedral oxide: along any continuous branch `X` of regular solutions of the equations of `order()`, every mixing
property the file reports is the derivative it claims to be of the Gibbs energy on that branch less that of the ordered end
members, below 2044 K and at any pressure. -/
theorem C24_rhombohedral {X : (Ext 3 → ℝ) → Fin 3 → ℝ} {U : Set (Ext 3 → ℝ)} (hX : Solved (jets macros) Dom X U) {E : Ends} (hE : E.Ok) :
    ConsistentOn (mix X E) (Cond U) := by
  have h : ConsistentOn (whole X) (On U) := C24_ordering (E := fun y => (macros y).s) ok (fun y _ => entropy_eq y) hX
  exact C24_less_ends (Q := fun t _ => 0 < t ∧ t < 2044) h (P := ends E) (w := weight) (d := dweight) (fun t p ht a => by
    fin_cases a
    · exact PureGeikielite.C24_pure_geikielite hE.gk ht.1 ht.2
    · exact fixedStd_consistent _ _ _ _
    · exact PureIlmenite.C24_pure_ilmenite hE.il ht.1 ht.2
    · exact PurePyrophanite.C24_pure_pyrophanite hE.py ht.1 ht.2) weight_lin

/-- `FR0, FR1, FR2`, rhombohedral.c 1247-1249. -/
def fr (r : Fin 3 → ℝ) (i : Fin 4) (j : Fin 3) : ℝ := if i = (![2, 0, 3] : Fin 3 → Fin 4) j then 1 - r j else -r j

/-- `DFR0DR0, DFR1DR1, DFR2DR2`, rhombohedral.c 1256-1258. -/
def dfr (_i : Fin 4) (_k : Fin 3) : ℝ := -1

/-- `GS0, GS1, GS2`, rhombohedral.c 1252-1254. -/
def gs (_r : Fin 3 → ℝ) (s : Fin 3 → ℝ) (i : Fin 4) (j : Fin 3) : ℝ := if i = (![2, 0, 3] : Fin 3 → Fin 4) j then 1 - s j else -s j

/-- `actRhm`, first mask (`a[i]`), rhombohedral.c 2490-2505. -/
def act (X : (Ext 3 → ℝ) → Fin 3 → ℝ) (E : Ends) (t p : ℝ) (r : Fin 3 → ℝ) (i : Fin 4) : ℝ := actE (whole X) (ends E) fr t p r i

/-- `actRhm`, second mask (`mu[i]`), rhombohedral.c 2507-2520. -/
def mu (X : (Ext 3 → ℝ) → Fin 3 → ℝ) (E : Ends) (t p : ℝ) (r : Fin 3 → ℝ) (i : Fin 4) : ℝ := muE (whole X) (ends E) fr t p r i

/-- **C24.** Rhombohedral oxide: activities are `exp(μ/RT)`. -/
theorem C24_rhombohedral_activity (X : (Ext 3 → ℝ) → Fin 3 → ℝ) (E : Ends) (t p : ℝ) (ht : t ≠ 0) (r : Fin 3 → ℝ) (i : Fin 4) :
    R * t * Real.log (act X E t p r i) = mu X E t p r i := C24_ends_activity _ _ _ t p ht r i

/-- **C24.** Rhombohedral oxide: the reported composition derivatives of the activities are their derivatives. -/
theorem C24_rhombohedral_activity_derivative {X : (Ext 3 → ℝ) → Fin 3 → ℝ} {U : Set (Ext 3 → ℝ)} (hX : Solved (jets macros) Dom X U)
    (E : Ends) {t p : ℝ} {r : Fin 3 → ℝ} (h : Cond U t p r) (i : Fin 4) (k : Fin 3) :
    Magma.Thermo.Extensive.Partial (fun r => act X E t p r i) r k
      (dactE (jets macros) X (ends E) fr dfr gs t p r i k) := by
  refine C24_ends_activity_derivative (e := fun i j => if i = (![2, 0, 3] : Fin 3 → Fin 4) j then 1 else 0) ok
    (fun y _ => entropy_eq y) hX (ends E) ?_ (fun _ _ => rfl) h.1 i k
  intro r i j
  unfold fr
  split_ifs <;> ring

lemma fr_weight (r : Fin 3 → ℝ) (a b : Fin 4) : weight r b + ∑ j, fr r a j * dweight j b = if a = b then 1 else 0 := by
  fin_cases a <;> fin_cases b <;> simp [weight, dweight, fr, Fin.sum_univ_three] <;> ring

open Magma.Thermo.Compo in
lemma fr_eq (m : Fin 4 → ℝ) (h0 : ∑ i, m i ≠ 0) (i : Fin 4) (j : Fin 3) :
    (∑ i, m i) * Magma.Thermo.Compo.Rhombohedral.conv.dm m j i = fr (Magma.Thermo.Compo.Rhombohedral.conv.toR m) i j := by
  have ht : total m = ∑ i, m i := rfl
  have e1 : Magma.Thermo.Compo.Rhombohedral.conv.dm m j i = Magma.Thermo.Compo.Rhombohedral.dm m i j := rfl
  have e2 : Magma.Thermo.Compo.Rhombohedral.conv.toR m = Magma.Thermo.Compo.Rhombohedral.toR m := rfl
  rw [e1, e2]
  unfold Magma.Thermo.Compo.Rhombohedral.dm Magma.Thermo.Compo.Rhombohedral.toR fr
  simp only [ht, if_neg h0, if_pos h0]
  fin_cases j <;> fin_cases i <;> simp [h0] <;> field_simp

/-- **C24.** Rhombohedral oxide: the reported chemical potentials are the derivatives of the total Gibbs energy of mixing in the
moles of the end members. -/
theorem C24_rhombohedral_potential {X : (Ext 3 → ℝ) → Fin 3 → ℝ} {U : Set (Ext 3 → ℝ)} (hX : Solved (jets macros) Dom X U) {E : Ends}
    (hE : E.Ok) (t p : ℝ) (m : Fin 4 → ℝ) (h0 : ∑ i, m i ≠ 0) (h : Cond U t p (Magma.Thermo.Compo.Rhombohedral.conv.toR m)) (i : Fin 4) :
    Magma.Thermo.Extensive.Partial
      (fun m => (∑ i, m i) * (mix X E).g t p (Magma.Thermo.Compo.Rhombohedral.conv.toR m)) m i
      (mu X E t p (Magma.Thermo.Compo.Rhombohedral.conv.toR m) i) :=
  C24_ends_potential (C24_rhombohedral hX hE) _ Magma.Thermo.Compo.C25_rhombohedral t p m h0 (fr_eq m h0) (fr_weight _) h i

/-! ### A branch of solutions exists -/

/-- A composition at which the three ordering equations coincide. -/
def demoR : Fin 3 → ℝ := ![9 / 88, 9 / 22, 9 / 88]

/-- The ordering state there: seven ninths of complete order. -/
def demoS : Fin 3 → ℝ := fun i => 7 / 9 * demoR i

/-- The temperature at which it is the equilibrium (about 1072 K). -/
def demoT : ℝ := 7 / 9 * (220000 * (9 / 88) + 128000 * (9 / 88) ^ 2) / (R * (3 * Real.log 2))

lemma demoT_val : R * demoT * (3 * Real.log 2) = 7 / 9 * (220000 * (9 / 88) + 128000 * (9 / 88) ^ 2) := by
  have := R_pos.ne'
  have hl : Real.log 2 ≠ 0 := (Real.log_pos (by norm_num)).ne'
  unfold demoT
  field_simp

lemma demoT_bounds : 8900 < R * demoT ∧ R * demoT < 8930 := by
  have h := demoT_val
  have l1 := Real.log_two_gt_d9
  have l2 := Real.log_two_lt_d9
  have lp : 0 < 3 * Real.log 2 := by linarith
  constructor
  · by_contra q
    push Not at q
    have := mul_le_mul_of_nonneg_right q lp.le
    rw [h] at this
    norm_num at this
    linarith
  · by_contra q
    push Not at q
    have := mul_le_mul_of_nonneg_right q lp.le
    rw [h] at this
    norm_num at this
    linarith

lemma demo_raw (p : ℝ) (i : Fin 10) : raw (join (env demoR demoT p, demoS)) i =
    (![8 / 88, 32 / 88, 8 / 88, 6 / 88, 17 / 44, 1 / 88, 4 / 88, 1 / 88, 48 / 88, 17 / 44] : Fin 10 → ℝ) i := by
  fin_cases i <;> simp [raw, join, env, demoR, demoS] <;> norm_num

lemma demo_dom (p : ℝ) : Dom (join (env demoR demoT p, demoS)) := by
  rw [dom_pos]
  intro i
  rw [demo_raw]
  fin_cases i <;> norm_num

lemma demo_eq (p : ℝ) : IsEq macros Dom (env demoR demoT p) demoS := by
  refine ⟨demo_dom p, fun k => ?_⟩
  unfold macros
  rw [site_eq _ (demo_dom p)]
  have m := demo_raw p
  have m0 := m 0; have m1 := m 1; have m2 := m 2; have m3 := m 3; have m5 := m 5; have m6 := m 6; have m7 := m 7; have m8 := m 8
  simp only [Matrix.cons_val, Matrix.cons_val_zero, Matrix.cons_val_one] at m0 m1 m2 m3 m5 m6 m7 m8
  have hv := demoT_val
  have q : ∀ a b : ℝ, 0 < b → a = 8 * b → Real.log a - Real.log b = 3 * Real.log 2 := by
    intro a b hb h
    rw [h, Real.log_mul (by norm_num) hb.ne', show (8 : ℝ) = 2 ^ 3 by norm_num, Real.log_pow]
    push_cast; ring
  have q1 := q (8 / 88) (1 / 88) (by norm_num) (by norm_num)
  have q2 := q (32 / 88) (4 / 88) (by norm_num) (by norm_num)
  have q3 := q (48 / 88) (6 / 88) (by norm_num) (by norm_num)
  have eT : (join (env demoR demoT p, demoS)) (.inl iT) = demoT := rfl
  have er : ∀ j, (join (env demoR demoT p, demoS)) (.inl (.inl j)) = demoR j := fun j => rfl
  have es : ∀ j, (join (env demoR demoT p, demoS)) (.inr j) = demoS j := fun j => rfl
  fin_cases k
  · simp only [tables, Fin.zero_eta, Matrix.cons_val_zero, m0, m3, m5, m8, eT, er, es]
    have e : Real.log (8 / 88) - Real.log (6 / 88) - Real.log (1 / 88) + Real.log (48 / 88) = 2 * (3 * Real.log 2) := by linarith
    unfold DGDS0
    rw [e]
    simp only [demoS, demoR, Matrix.cons_val, Matrix.cons_val_zero, Matrix.cons_val_one, hil, dwilhm, dwilgk, dwilpy, wilgkORD,
      wilgkDIS, dwgkil, wilpyORD, wilpyDIS, dwpyil]
    linarith
  · simp only [tables, Fin.mk_one, Matrix.cons_val_one, Matrix.cons_val, m1, m3, m6, m8, eT, er, es]
    have e : Real.log (32 / 88) - Real.log (6 / 88) - Real.log (4 / 88) + Real.log (48 / 88) = 2 * (3 * Real.log 2) := by linarith
    unfold DGDS1
    rw [e]
    simp only [demoS, demoR, Matrix.cons_val, Matrix.cons_val_zero, Matrix.cons_val_one, hgk, dwgkhm, dwilgk, wilgkORD,
      wilgkDIS, dwgkil, dwgkpy, wgkpyORD, wgkpyDIS, dwpygk]
    linarith
  · simp only [tables, Fin.reduceFinMk, Matrix.cons_val, m2, m3, m7, m8, eT, er, es]
    have e : Real.log (8 / 88) - Real.log (6 / 88) - Real.log (1 / 88) + Real.log (48 / 88) = 2 * (3 * Real.log 2) := by linarith
    unfold DGDS2
    rw [e]
    simp only [demoS, demoR, Matrix.cons_val, Matrix.cons_val_zero, Matrix.cons_val_one, hpy, dwpyhm, dwilpy, wilpyORD,
      wilpyDIS, dwpyil, dwgkpy, wgkpyORD, wgkpyDIS, dwpygk]
    linarith

lemma demo_hess (p : ℝ) : PosHess (jets macros) (join (env demoR demoT p, demoS)) := by
  intro v hv
  have m := demo_raw p
  have m0 := m 0; have m1 := m 1; have m2 := m 2; have m3 := m 3; have m5 := m 5; have m6 := m 6; have m7 := m 7; have m8 := m 8
  simp only [Matrix.cons_val, Matrix.cons_val_zero, Matrix.cons_val_one] at m0 m1 m2 m3 m5 m6 m7 m8
  have eT : (join (env demoR demoT p, demoS)) (.inl iT) = demoT := rfl
  have er : ∀ j, (join (env demoR demoT p, demoS)) (.inl (.inl j)) = demoR j := fun j => rfl
  have e : ∀ k l, (jets macros).g2 (join (env demoR demoT p, demoS)) (.inr k) (.inr l)
      = (tables (raw (join (env demoR demoT p, demoS))) (join (env demoR demoT p, demoS))).d2gds2 k l := by
    intro k l
    change (macros _).d2gds2 k l = _
    unfold macros; rw [site_eq _ (demo_dom p)]
  simp only [e, Fin.sum_univ_three]
  simp only [tables, Matrix.cons_val, Matrix.cons_val_zero, Matrix.cons_val_one, m0, m1, m2, m3, m5, m6, m7, m8, eT, er, D2GDS0S0,
    D2GDS0S1, D2GDS0S2, D2GDS1S1, D2GDS1S2, D2GDS2S2]
  simp only [demoR, Matrix.cons_val, Matrix.cons_val_zero, Matrix.cons_val_one, hil, dwilhm, dwilgk, dwilpy, wilgkORD,
      wilgkDIS, dwgkil, wilpyORD, wilpyDIS, dwpyil, hgk, dwgkhm, dwgkpy, wgkpyORD, wgkpyDIS, dwpygk, hpy, dwpyhm]
  have b := demoT_bounds.1
  set A := R * demoT - 8900 with hA
  have hA0 : 0 < A := by linarith
  have hRt : R * demoT = 8900 + A := by linarith
  have hpos : 0 < v 0 ^ 2 + v 1 ^ 2 + v 2 ^ 2 := by
    by_contra q
    push Not at q
    have c0 : v 0 = 0 := by nlinarith [sq_nonneg (v 0), sq_nonneg (v 1), sq_nonneg (v 2)]
    have c1 : v 1 = 0 := by nlinarith [sq_nonneg (v 0), sq_nonneg (v 1), sq_nonneg (v 2)]
    have c2 : v 2 = 0 := by nlinarith [sq_nonneg (v 0), sq_nonneg (v 1), sq_nonneg (v 2)]
    exact hv (funext fun k => by fin_cases k; exacts [c0, c1, c2])
  have key : 0 ≤ A * (99 * v 0 ^ 2 + 99 / 4 * v 1 ^ 2 + 99 * v 2 ^ 2 + 33 / 2 * (v 0 + v 1 + v 2) ^ 2) := by positivity
  have k1 : ∀ c : ℝ, 1 / 4 * R * demoT * c = (8900 + A) / 4 * c := fun c => by rw [← hRt]; ring
  simp only [k1]
  norm_num
  nlinarith [sq_nonneg (v 0 + v 1), sq_nonneg (v 1 + v 2), sq_nonneg (v 0 + v 2), sq_nonneg (v 0 - v 1), sq_nonneg (v 1 - v 2), sq_nonneg (v 0 - v 2),
    sq_nonneg (v 0), sq_nonneg (v 1), sq_nonneg (v 2)]

/-- The hypotheses are met: there is a branch of solutions through an ordered state of a four-component oxide at about
1072 K. -/
theorem demo_branch : ∃ X U, Solved (jets macros) Dom X U ∧ Cond U demoT 1 demoR ∧ 0 < X (env demoR demoT 1) 0 := by
  obtain ⟨X, U, hu, hs, h⟩ := solved_near ok dom_open (demo_dom 1) (demo_eq 1).2 (demo_hess 1).regular
  have b := demoT_bounds
  rw [R_val] at b
  refine ⟨X, U, h, ⟨hu, by linarith, by linarith⟩, ?_⟩
  rw [hs]
  norm_num [demoS, demoR]

example : ∃ X U, ∃ E : Ends, Solved (jets macros) Dom X U ∧ E.Ok ∧ ∑ i, (![36, 34, 9, 9] : Fin 4 → ℝ) i ≠ 0 ∧
    Cond U demoT 1 (Magma.Thermo.Compo.Rhombohedral.conv.toR ![36, 34, 9, 9]) := by
  obtain ⟨X, U, hX, hc, -⟩ := demo_branch
  obtain ⟨a, ha⟩ := PureIlmenite.equilibrium_exists
  obtain ⟨b, hb⟩ := PureGeikielite.equilibrium_exists
  obtain ⟨c, hc'⟩ := PurePyrophanite.equilibrium_exists
  have ht : Magma.Thermo.Compo.total (![36, 34, 9, 9] : Fin 4 → ℝ) = 88 := by
    unfold Magma.Thermo.Compo.total; simp [Fin.sum_univ_four]; norm_num
  refine ⟨X, U, ⟨a, b, c⟩, hX, ⟨ha, hb, hc'⟩, by simp [Fin.sum_univ_four]; norm_num, ?_⟩
  have e : Magma.Thermo.Compo.Rhombohedral.conv.toR (![36, 34, 9, 9] : Fin 4 → ℝ) = demoR := by
    change Magma.Thermo.Compo.Rhombohedral.toR _ = _
    unfold Magma.Thermo.Compo.Rhombohedral.toR
    simp only [ht]
    funext j; fin_cases j <;> simp [demoR] <;> norm_num
  rw [e]
  exact hc

end

end Verif.Thermo.Ordering.Rhombohedral
