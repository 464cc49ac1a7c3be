import Verif.Thermo.Ordered.Melilite
import Verif.Thermo.Ordered.MeliliteEnds
import Verif.Thermo.ConvTables

/-!
Melilite (/repo/sources/melilite.c): its equilibrium ordering state exists at every temperature and every composition between the
end members, is unique above 800 K, and at that state what the file reports are the derivatives of the Gibbs energy at
equilibrium order less that of its end members.
-/

namespace Verif.Thermo.Ordering.Melilite

open Finset Filter Topology
open Magma.Thermo.Mixing (R R_pos Mix)
open Verif.Thermo.StdState (Std Consistent)

noncomputable section

/-- Constant terms of the site fractions, melilite.c 1428-1435. -/
def siteA (r : Fin 3 → ℝ) : Fin 8 → ℝ :=
  ![1 - r 2, r 2, 1 - r 0 - r 1 - r 2, r 1, r 0, r 2, r 0 / 2, 1 - r 0 / 2]

/-- Coefficients of the ordering parameter in the site fractions, melilite.c 1428-1435. -/
def siteB : Fin 8 → Fin 1 → ℝ := ![![0], ![0], ![0], ![0], ![-1], ![1], ![1 / 2], ![-(1 / 2)]]

/-- Sites per formula unit, times `RT`: two octahedra, one T1, two T2. -/
def siteC (t : ℝ) : Fin 8 → ℝ := ![2 * (R * t), 2 * (R * t), R * t, R * t, R * t, R * t, 2 * (R * t), 2 * (R * t)]

lemma raw_eq (θ : Ext 3 → ℝ) (s : Fin 1 → ℝ) (i : Fin 8) :
    raw (join (θ, s)) i = frac (siteA (fun j => θ (.inl j)) i) (siteB i) s := by
  fin_cases i <;> simp [raw, join, frac, siteA, siteB] <;> ring

/-- The octahedra, T1 and T2 are full. -/
lemma raw_sum (y : Var 3 1 → ℝ) : raw y 0 + raw y 1 = 1 ∧ raw y 2 + raw y 3 + raw y 4 + raw y 5 = 1 ∧ raw y 6 + raw y 7 = 1 := by
  refine ⟨?_, ?_, ?_⟩ <;> simp only [raw, Matrix.cons_val] <;> ring

/-- `Dom`: all eight site fractions positive. -/
lemma dom_pos (y : Var 3 1 → ℝ) : Dom y ↔ ∀ i, 0 < raw y i := by
  constructor
  · rintro ⟨a0, a1, a2, a3, a4, a5, a6, a7⟩ i
    fin_cases i
    exacts [a0.1, a1.1, a2.1, a3.1, a4.1, a5.1, a6.1, a7.1]
  · intro h
    obtain ⟨e0, e1, e2⟩ := raw_sum y
    have h0 := h 0; have h1 := h 1; have h2 := h 2; have h3 := h 3; have h4 := h 4; have h5 := h 5; have h6 := h 6; have h7 := h 7
    exact ⟨⟨h0, by linarith⟩, ⟨h1, by linarith⟩, ⟨h2, by linarith⟩, ⟨h3, by linarith⟩, ⟨h4, by linarith⟩, ⟨h5, by linarith⟩,
      ⟨h6, by linarith⟩, ⟨h7, by linarith⟩⟩

lemma dom_iff (θ : Ext 3 → ℝ) (s : Fin 1 → ℝ) :
    Dom (join (θ, s)) ↔ ∀ i, 0 < frac (siteA (fun j => θ (.inl j)) i) (siteB i) s := by
  rw [dom_pos]
  exact forall_congr' fun i => by rw [raw_eq]

/-- The part of `G` without the ideal entropy of mixing. -/
def excess (r : Fin 3 → ℝ) (s : Fin 1 → ℝ) : ℝ := H (r 0) (r 1) (r 2) (s 0)

lemma g_eq (θ : Ext 3 → ℝ) (s : Fin 1 → ℝ) (h : Dom (join (θ, s))) :
    (macros (join (θ, s))).g = excess (fun j => θ (.inl j)) s + ∑ i, siteC (θ iT) i *
      (frac (siteA (fun j => θ (.inl j)) i) (siteB i) s * Real.log (frac (siteA (fun j => θ (.inl j)) i) (siteB i) s)) := by
  simp only [← raw_eq θ s]
  unfold macros
  rw [site_eq _ h]
  simp only [tables, G, S, V, excess, Fin.sum_univ_eight, siteC, Matrix.cons_val]
  simp only [join, Sum.elim_inl, Sum.elim_inr]
  ring

lemma bounded (r : Fin 3 → ℝ) (hr : r 0 ≤ 1) :
    Bornology.IsBounded {s : Fin 1 → ℝ | ∀ i, 0 ≤ frac (siteA r i) (siteB i) s} := by
  refine (Metric.isBounded_closedBall (x := (0 : Fin 1 → ℝ)) (r := 10)).subset fun s hs => ?_
  rw [Metric.mem_closedBall, dist_zero_right]
  refine (pi_norm_le_iff_of_nonneg (by norm_num)).mpr fun k => ?_
  have h4 := hs 4; have h6 := hs 6
  simp [frac, siteA, siteB] at h4 h6
  rw [Real.norm_eq_abs, abs_le]
  fin_cases k; constructor <;> simp only [Fin.zero_eta] <;> linarith

/-- All four end members are present. -/
def Present (r : Fin 3 → ℝ) : Prop := 0 < r 0 ∧ 0 < r 1 ∧ 0 < r 2 ∧ 0 < 1 - r 0 - r 1 - r 2

/-- Initial guess of the ordering state, melilite.c 1420. -/
def guess (r : Fin 3 → ℝ) : Fin 1 → ℝ := ![1 / 10 * r 0]

/-- The site fractions of the guess. -/
lemma guess_sites (r : Fin 3 → ℝ) (i : Fin 8) : frac (siteA r i) (siteB i) (guess r) =
    (![1 - r 2, r 2, 1 - r 0 - r 1 - r 2, r 1, 9 / 10 * r 0, r 2 + 1 / 10 * r 0, 11 / 20 * r 0, 1 - 11 / 20 * r 0] : Fin 8 → ℝ) i := by
  fin_cases i <;> simp [frac, siteA, siteB, guess] <;> ring

lemma guess_pos {r : Fin 3 → ℝ} (h : Present r) (i : Fin 8) : 0 < frac (siteA r i) (siteB i) (guess r) := by
  obtain ⟨h0, h1, h2, h3⟩ := h
  rw [guess_sites r]
  fin_cases i <;> simp only [Fin.zero_eta, Fin.mk_one, Fin.reduceFinMk, Matrix.cons_val, Matrix.cons_val_zero,
    Matrix.cons_val_one] <;> linarith

/-- **C61.** The initial guess of melilite.c has all site fractions in `[0, 1]`, for every mixture of the end members. -/
theorem C61_melilite_guess {r : Fin 3 → ℝ} (h : 0 ≤ r 0 ∧ 0 ≤ r 1 ∧ 0 ≤ r 2 ∧ r 0 + r 1 + r 2 ≤ 1) (t p : ℝ) (i : Fin 8) :
    0 ≤ raw (join (env r t p, guess r)) i ∧ raw (join (env r t p, guess r)) i ≤ 1 := by
  obtain ⟨h0, h1, h2, h3⟩ := h
  rw [raw_eq]
  change 0 ≤ frac (siteA r i) (siteB i) (guess r) ∧ frac (siteA r i) (siteB i) (guess r) ≤ 1
  rw [guess_sites r]
  fin_cases i <;> simp only [Fin.zero_eta, Fin.mk_one, Fin.reduceFinMk, Matrix.cons_val, Matrix.cons_val_zero,
    Matrix.cons_val_one] <;> constructor <;> linarith

/-- **C61.** At every temperature, pressure and composition with all end members present melilite has an equilibrium ordering
state: one with all site fractions positive, with the lowest Gibbs energy of all such states, and so a solution of the
equation `order()` solves. -/
theorem C61_melilite_exists (θ : Ext 3 → ℝ) (ht : 0 < θ iT) (hr : Present fun j => θ (.inl j)) :
    ∃ s : Fin 1 → ℝ, IsEq macros Dom θ s ∧
      ∀ s', Dom (join (θ, s')) → (macros (join (θ, s))).g ≤ (macros (join (θ, s'))).g := by
  have hR := R_pos
  obtain ⟨h0, h1, h2, h3⟩ := hr
  refine pack_exists (n := 8) (a := siteA fun j => θ (.inl j)) (b := siteB) (c := siteC (θ iT))
    (Q := excess (fun j => θ (.inl j))) (s0 := guess fun j => θ (.inl j)) ok dom_open (dom_iff θ) (g_eq θ) ?_ ?_
    (guess_pos ⟨h0, h1, h2, h3⟩) (bounded _ (by linarith))
  · intro i; fin_cases i <;> simp only [siteC] <;> simp <;> positivity
  · unfold excess H; fun_prop

/-- The slope of the energy at an ordering state with positive site fractions. -/
lemma slope_eq (θ : Ext 3 → ℝ) (s : Fin 1 → ℝ) (h : Dom (join (θ, s))) : (macros (join (θ, s))).dgds 0 =
    MeliliteSlope.slope (R * θ iT) (θ (.inl 0)) (θ (.inl 2)) (s 0) := by
  have hp := (dom_pos _).mp h
  have h4 : 0 < θ (.inl 0) - s 0 := hp 4
  have h6 : 0 < (θ (.inl 0) + s 0) / 2 := hp 6
  have h7 : 0 < 1 - (θ (.inl 0) + s 0) / 2 := hp 7
  unfold macros
  rw [site_eq _ h]
  change DGDS0 (θ iT) (θ (.inl 0)) (θ (.inl 1)) (θ (.inl 2)) (s 0) (θ (.inl 0) - s 0) (θ (.inl 2) + s 0) ((θ (.inl 0) + s 0) / 2)
    (1 - (θ (.inl 0) + s 0) / 2) = _
  have e7 : 1 - (θ (.inl 0) + s 0) / 2 = (2 - θ (.inl 0) - s 0) / 2 := by ring
  rw [e7] at h7 ⊢
  unfold DGDS0 MeliliteSlope.slope MeliliteSlope.logs DG22p W12p W12 W22p W2p3 W23 W2p4 W24
  rw [Real.log_div (by linarith) (by norm_num), Real.log_div (by linarith) (by norm_num)]
  ring

/-- … and its curvature. -/
lemma curv_eq (θ : Ext 3 → ℝ) (s : Fin 1 → ℝ) (h : Dom (join (θ, s))) : (macros (join (θ, s))).d2gds2 0 0 =
    MeliliteSlope.curv (R * θ iT) (θ (.inl 0)) (θ (.inl 2)) (s 0) := by
  have hp := (dom_pos _).mp h
  have h4 : 0 < θ (.inl 0) - s 0 := hp 4
  have h5 : 0 < θ (.inl 2) + s 0 := hp 5
  have h6 : 0 < (θ (.inl 0) + s 0) / 2 := hp 6
  have h7 : 0 < 1 - (θ (.inl 0) + s 0) / 2 := hp 7
  unfold macros
  rw [site_eq _ h]
  change D2GDS0S0 (θ iT) (θ (.inl 0) - s 0) (θ (.inl 2) + s 0) ((θ (.inl 0) + s 0) / 2) (1 - (θ (.inl 0) + s 0) / 2) = _
  have e7 : 1 - (θ (.inl 0) + s 0) / 2 = (2 - θ (.inl 0) - s 0) / 2 := by ring
  rw [e7] at h7 ⊢
  have n6 : θ (.inl 0) + s 0 ≠ 0 := by linarith
  have n7 : 2 - θ (.inl 0) - s 0 ≠ 0 := by linarith
  unfold D2GDS0S0 MeliliteSlope.curv W22p
  have a6 : (1 / 2 : ℝ) / ((θ (.inl 0) + s 0) / 2) = 1 / (θ (.inl 0) + s 0) := by field_simp
  have a7 : (1 / 2 : ℝ) / ((2 - θ (.inl 0) - s 0) / 2) = 1 / (2 - θ (.inl 0) - s 0) := by field_simp
  rw [a6, a7]
  ring

lemma states {θ : Ext 3 → ℝ} (hr : Present fun j => θ (.inl j)) {s : Fin 1 → ℝ} (h : Dom (join (θ, s))) :
    MeliliteSlope.In (θ (.inl 0)) (θ (.inl 2)) (s 0) := by
  have hp := (dom_pos _).mp h
  have h4 : 0 < θ (.inl 0) - s 0 := hp 4
  have h5 : 0 < θ (.inl 2) + s 0 := hp 5
  have h6 : 0 < (θ (.inl 0) + s 0) / 2 := hp 6
  exact ⟨hr.2.2.1.le, by linarith [hr.2.1, hr.2.2.2], h5, by linarith, h4⟩

lemma states_dom {θ : Ext 3 → ℝ} (hr : Present fun j => θ (.inl j)) {s : ℝ} (h : MeliliteSlope.In (θ (.inl 0)) (θ (.inl 2)) s) :
    Dom (join (θ, ![s])) := by
  obtain ⟨h0, h1, h2, h3⟩ := hr
  obtain ⟨a0, a1, a2, a3, a4⟩ := h
  rw [dom_iff]
  intro i
  fin_cases i <;> simp [frac, siteA, siteB] <;> linarith

/-- Conditions: temperatures above 800 K, all end members present. -/
def Cond (t _p : ℝ) (r : Fin 3 → ℝ) : Prop := 800 < t ∧ Present r

/-- The same as a set of conditions. -/
def hot : Set (Ext 3 → ℝ) := {θ | Cond (θ iT) (θ iP) fun j => θ (.inl j)}

lemma hot_open : IsOpen hot := by
  unfold hot Cond Present
  simp only [Set.setOf_and]
  have c : ∀ j : Fin 3, Continuous fun θ : Ext 3 → ℝ => θ (.inl j) := fun j => continuous_apply _
  have c0 := c 0; have c1 := c 1; have c2 := c 2
  refine (isOpen_lt continuous_const (continuous_apply _)).inter ?_
  exact (isOpen_lt continuous_const c0).inter ((isOpen_lt continuous_const c1).inter ((isOpen_lt continuous_const c2).inter
    (isOpen_lt continuous_const (by fun_prop))))

lemma eq_slope {θ : Ext 3 → ℝ} {s : Fin 1 → ℝ} (h : IsEq macros Dom θ s) :
    MeliliteSlope.slope (R * θ iT) (θ (.inl 0)) (θ (.inl 2)) (s 0) = 0 := by
  rw [← slope_eq θ s h.1]; exact h.2 0

lemma uniq {θ : Ext 3 → ℝ} (h : θ ∈ hot) {s s' : Fin 1 → ℝ} (hs : IsEq macros Dom θ s) (hs' : IsEq macros Dom θ s') : s = s' := by
  funext k; fin_cases k
  exact MeliliteSlope.unique (MeliliteSlope.rt h.1) (states h.2 hs.1) (states h.2 hs'.1) (eq_slope hs) (eq_slope hs')

/-- **C61.** Above 800 K melilite has exactly one equilibrium ordering state with positive site fractions. -/
theorem C61_melilite_unique (θ : Ext 3 → ℝ) (h : θ ∈ hot) : ∃! s : Fin 1 → ℝ, IsEq macros Dom θ s := by
  obtain ⟨s, hs, -⟩ := C61_melilite_exists θ (lt_trans (by norm_num) h.1) h.2
  exact ⟨s, hs, fun s' h' => uniq h h' hs⟩

/-- `X` gives, at these conditions, an ordering state in which all site fractions are positive and the equilibrium
equation holds. (`order()`, melilite.c 1415-1479, looks for it, but its bounds can keep it away: `C61_melilite_clamp`.) -/
def Equilibrium (X : (Ext 3 → ℝ) → Fin 1 → ℝ) : Prop := ∀ θ ∈ hot, IsEq macros Dom θ (X θ)

theorem solved {X : (Ext 3 → ℝ) → Fin 1 → ℝ} (hX : Equilibrium X) : Solved (jets macros) Dom X hot :=
  solved_up ok dom_open hot_open hX (fun θ h s hs => by
    rw [curv_eq θ s hs.1]
    exact MeliliteSlope.up (MeliliteSlope.rt h.1) (states h.2 hs.1) (eq_slope hs)) fun θ h s s' hs hs' => uniq h hs hs'

theorem equilibrium_exists : ∃ X, Equilibrium X := pack_choose fun θ h => (C61_melilite_unique θ h).exists

/-- The end members in the order of `ends`: akermanite, gehlenite (ordering states `E` as `pureOrder` finds them), iron
akermanite, soda melilite (melilite.c 449-517, 777-1050). -/
def ends (E : (Ext 0 → ℝ) → Fin 1 → ℝ) : Fin 4 → ℝ → ℝ → Std :=
  ![fixedStd 0 0, PureGehlenite.std E, fixedStd 0 0, fixedStd 0 0]

/-- The weights in `ENDMEMBERS`, melilite.c 1129. -/
def weight (r : Fin 3 → ℝ) : Fin 4 → ℝ := ![1 - r 0 - r 1 - r 2, r 0, r 1, r 2]

/-- `DENDDR0, DENDDR1, DENDDR2`, melilite.c 1131-1133. -/
def dweight : Fin 3 → Fin 4 → ℝ := ![![-1, 1, 0, 0], ![-1, 0, 1, 0], ![-1, 0, 0, 1]]

/-- The solution itself, before the end members are subtracted. -/
def whole (X : (Ext 3 → ℝ) → Fin 1 → ℝ) : Mix 3 := ordMix (jets macros) (fun y => (macros y).s) X

/-- `gmixMel, hmixMel, smixMel, cpmixMel, vmixMel`, melilite.c 2196-2830. -/
def mix (X : (Ext 3 → ℝ) → Fin 1 → ℝ) (E : (Ext 0 → ℝ) → Fin 1 → ℝ) : Mix 3 := lessEnds (whole X) weight dweight (ends E)

lemma weight_lin (r : Fin 3 → ℝ) (a : Fin 4) : weight r a = (![1, 0, 0, 0] : Fin 4 → ℝ) a + ∑ j, dweight j a * r j := by
  fin_cases a <;> simp [weight, dweight, Fin.sum_univ_three] <;> ring

/-- **C24.** Melilite: at the equilibrium ordering state every mixing property the file reports is the derivative it claims to be
of the Gibbs energy at equilibrium order less that of the end members, above 800 K, at any pressure and any composition with
all end members present. -/
theorem C24_melilite {X : (Ext 3 → ℝ) → Fin 1 → ℝ} (hX : Equilibrium X) {E : (Ext 0 → ℝ) → Fin 1 → ℝ}
    (hE : PureGehlenite.Equilibrium E) : ConsistentOn (mix X E) Cond := by
  have h : ConsistentOn (whole X) Cond := C24_ordering (E := fun y => (macros y).s) ok (fun y _ => entropy_eq y) (solved hX)
  have h2 := C24_less_ends (Q := fun t _ => 800 < t) h (P := ends E) (w := weight) (d := dweight) (fun t p ht a => by
    fin_cases a
    · exact fixedStd_consistent 0 0 t p
    · exact PureGehlenite.C24_pure_gehlenite hE ht
    · exact fixedStd_consistent 0 0 t p
    · exact fixedStd_consistent 0 0 t p) weight_lin
  have e : (fun t p r => Cond t p r ∧ 800 < t) = Cond := by
    funext t p r; exact propext ⟨fun h => h.1, fun h => ⟨h, h.1⟩⟩
  rw [e] at h2
  exact h2

/-- `FR0, FR1, FR2`, melilite.c 1117-1119. -/
def fr (r : Fin 3 → ℝ) (i : Fin 4) (j : Fin 3) : ℝ := if i = (![1, 2, 3] : Fin 3 → Fin 4) j then 1 - r j else -r j

/-- `DFR0DR0, DFR1DR1, DFR2DR2`, melilite.c 1123-1125. -/
def dfr (_i : Fin 4) (_k : Fin 3) : ℝ := -1

/-- `GS0`, melilite.c 1121. -/
def gs (_r : Fin 3 → ℝ) (s : Fin 1 → ℝ) (i : Fin 4) (j : Fin 1) : ℝ := if i = 1 then 1 - s j else -s j

/-- `actMel`, first mask (`a[i]`), melilite.c 2089-2104. -/
def act (X : (Ext 3 → ℝ) → Fin 1 → ℝ) (E : (Ext 0 → ℝ) → Fin 1 → ℝ) (t p : ℝ) (r : Fin 3 → ℝ) (i : Fin 4) : ℝ :=
  actE (whole X) (ends E) fr t p r i

/-- `actMel`, second mask (`mu[i]`), melilite.c 2106-2119. -/
def mu (X : (Ext 3 → ℝ) → Fin 1 → ℝ) (E : (Ext 0 → ℝ) → Fin 1 → ℝ) (t p : ℝ) (r : Fin 3 → ℝ) (i : Fin 4) : ℝ :=
  muE (whole X) (ends E) fr t p r i

/-- **C24.** Melilite: activities are `exp(μ/RT)`. -/
theorem C24_melilite_activity (X : (Ext 3 → ℝ) → Fin 1 → ℝ) (E : (Ext 0 → ℝ) → Fin 1 → ℝ) (t p : ℝ) (ht : t ≠ 0)
    (r : Fin 3 → ℝ) (i : Fin 4) : R * t * Real.log (act X E t p r i) = mu X E t p r i := C24_ends_activity _ _ _ t p ht r i

/-- **C24.** Melilite: the reported composition derivatives of the activities (melilite.c 2121-2168) are their derivatives. -/
theorem C24_melilite_activity_derivative {X : (Ext 3 → ℝ) → Fin 1 → ℝ} (hX : Equilibrium X) (E : (Ext 0 → ℝ) → Fin 1 → ℝ)
    {t p : ℝ} {r : Fin 3 → ℝ} (h : Cond t p r) (i : Fin 4) (k : Fin 3) :
    Magma.Thermo.Extensive.Partial (fun r => act X E t p r i) r k
      (dactE (jets macros) X (ends E) fr dfr gs t p r i k) := by
  refine C24_ends_activity_derivative (e := fun i j => if i = (![1, 2, 3] : Fin 3 → Fin 4) j then 1 else 0) ok
    (fun y _ => entropy_eq y) (solved hX) (ends E) ?_ (fun _ _ => rfl) h i k
  intro r i j
  unfold fr
  split_ifs <;> ring

lemma fr_weight (r : Fin 3 → ℝ) (a b : Fin 4) : weight r b + ∑ j, fr r a j * dweight j b = if a = b then 1 else 0 := by
  fin_cases a <;> fin_cases b <;> simp [weight, dweight, fr, Fin.sum_univ_three] <;> ring

open Magma.Thermo.Compo in
lemma fr_eq (m : Fin 4 → ℝ) (h0 : ∑ i, m i ≠ 0) (i : Fin 4) (j : Fin 3) :
    (∑ i, m i) * (simpleConv 0).dm m j i = fr ((simpleConv 0).toR m) i j := by
  have ht : total m = ∑ i, m i := rfl
  change (∑ i, m i) * dm 0 m j i = fr (toR 0 m) i j
  unfold dm toR fr
  simp only [ht, if_neg h0, if_pos h0]
  fin_cases j <;> fin_cases i <;> simp [Fin.succAbove, h0] <;> field_simp

/-- **C24.** Melilite: the reported chemical potentials are the derivatives of the total Gibbs energy of mixing in the moles of
the end members (the composition variables are the conversion of melilite.c 1911-2010). -/
theorem C24_melilite_potential {X : (Ext 3 → ℝ) → Fin 1 → ℝ} (hX : Equilibrium X) {E : (Ext 0 → ℝ) → Fin 1 → ℝ}
    (hE : PureGehlenite.Equilibrium E) (t p : ℝ) (m : Fin 4 → ℝ) (h0 : ∑ i, m i ≠ 0)
    (h : Cond t p ((Magma.Thermo.Compo.simpleConv 0).toR m)) (i : Fin 4) :
    Magma.Thermo.Extensive.Partial
      (fun m => (∑ i, m i) * (mix X E).g t p ((Magma.Thermo.Compo.simpleConv 0).toR m)) m i
      (mu X E t p ((Magma.Thermo.Compo.simpleConv 0).toR m) i) :=
  C24_ends_potential (C24_melilite hX hE) _ (Magma.Thermo.Compo.C25_simple 0) t p m h0 (fr_eq m h0) (fr_weight _) h i

/-- The hypotheses are met: one mole of each end member at 1400 K. -/
example : ∃ X, ∃ E, Equilibrium X ∧ PureGehlenite.Equilibrium E ∧ ∑ i, (![1, 1, 1, 1] : Fin 4 → ℝ) i ≠ 0 ∧
    Cond 1400 1 ((Magma.Thermo.Compo.simpleConv 0).toR ![1, 1, 1, 1]) := by
  obtain ⟨X, hX⟩ := equilibrium_exists
  obtain ⟨a, ha⟩ := PureGehlenite.equilibrium_exists
  have ht : Magma.Thermo.Compo.total (![1, 1, 1, 1] : Fin 4 → ℝ) = 4 := by
    unfold Magma.Thermo.Compo.total; simp [Fin.sum_univ_four]; norm_num
  refine ⟨X, a, hX, ha, by simp [Fin.sum_univ_four]; norm_num, by norm_num, ?_⟩
  have e : (Magma.Thermo.Compo.simpleConv 0).toR (![1, 1, 1, 1] : Fin 4 → ℝ) = ![1 / 4, 1 / 4, 1 / 4] := by
    change Magma.Thermo.Compo.toR 0 _ = _
    funext j
    unfold Magma.Thermo.Compo.toR
    rw [ht, if_pos (by norm_num)]
    fin_cases j <;> simp [Fin.succAbove]
  rw [e]
  refine ⟨?_, ?_, ?_, ?_⟩ <;> simp only [Matrix.cons_val, Matrix.cons_val_zero, Matrix.cons_val_one] <;> norm_num

end

end Verif.Thermo.Ordering.Melilite
