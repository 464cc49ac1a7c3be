import Verif.Thermo.Ordered.Spinel
import Verif.Thermo.Ordered.SpinelEnds
import Verif.Thermo.OrderStep
import Verif.Thermo.ConvTables

/-!
Spinel (/repo/sources/spinel.c): its equilibrium ordering state exists at every temperature and every composition with all cations
present, is unique above 885 K, and what the file reports are the derivatives of the Gibbs energy of mixing at equilibrium
order, relative to the ordered pure end members.
-/

namespace Verif.Thermo.Ordering.Spinel

open Finset Filter Topology
open Magma.Thermo.Mixing (R R_pos Mix)
open Verif.Thermo.StdState (Std Consistent)

noncomputable section

/-- Constant terms of the site fractions, spinel.c 2225-2234. -/
def siteA (r : Fin 4 → ℝ) : Fin 10 → ℝ :=
  ![r 0 / 2, r 2 - r 0 / 2 + r 1, 1 - r 1 - r 2 - r 3, r 3, r 0 / 4, (2 - r 0 - 2 * r 1) / 4, (1 - r 1 - r 2 - r 3) / 2,
    r 3 / 2, r 1, r 2 / 2]

/-- Coefficients of the ordering parameters in the site fractions, spinel.c 2225-2234. -/
def siteB : Fin 10 → Fin 3 → ℝ :=
  ![![1 / 2, 0, 0], ![-(1 / 2), 1, 1], ![0, -1, 0], ![0, 0, -1], ![-(1 / 4), 0, 0], ![1 / 4, -(1 / 2), -(1 / 2)],
    ![0, 1 / 2, 0], ![0, 0, 1 / 2], ![0, 0, 0], ![0, 0, 0]]

/-- Sites per formula unit, times `RT`: one tetrahedral, two octahedral. -/
def siteC (t : ℝ) : Fin 10 → ℝ :=
  ![R * t, R * t, R * t, R * t, 2 * (R * t), 2 * (R * t), 2 * (R * t), 2 * (R * t), 2 * (R * t), 2 * (R * t)]

lemma raw_eq (θ : Ext 4 → ℝ) (s : Fin 3 → ℝ) (i : Fin 10) :
    raw (join (θ, s)) i = frac (siteA (fun j => θ (.inl j)) i) (siteB i) s := by
  fin_cases i <;> simp [raw, join, frac, siteA, siteB, Fin.sum_univ_three] <;> ring

/-- One tetrahedral and two octahedral sites are full. -/
lemma raw_sum (y : Var 4 3 → ℝ) : raw y 0 + raw y 1 + raw y 2 + raw y 3 = 1 ∧
    raw y 4 + raw y 5 + raw y 6 + raw y 7 + raw y 8 + raw y 9 = 1 := by
  constructor <;> simp only [raw, Matrix.cons_val] <;> ring

/-- `Dom`: all ten site fractions positive. -/
lemma dom_pos (y : Var 4 3 → ℝ) : Dom y ↔ ∀ i, 0 < raw y i := by
  obtain ⟨h0, h1⟩ := raw_sum y
  constructor
  · rintro ⟨a0, a1, a2, a3, a4, a5, a6, a7, a8, a9⟩ i
    fin_cases i
    exacts [a0.1, a1.1, a2.1, a3.1, a4.1, a5.1, a6.1, a7.1, a8.1, a9.1]
  · intro h
    have b0 := h 0; have b1 := h 1; have b2 := h 2; have b3 := h 3; have b4 := h 4; have b5 := h 5; have b6 := h 6
    have b7 := h 7; have b8 := h 8; have b9 := h 9
    refine ⟨⟨b0, ?_⟩, ⟨b1, ?_⟩, ⟨b2, ?_⟩, ⟨b3, ?_⟩, ⟨b4, ?_⟩, ⟨b5, ?_⟩, ⟨b6, ?_⟩, ⟨b7, ?_⟩, ⟨b8, ?_⟩, ⟨b9, ?_⟩⟩ <;> linarith

lemma dom_iff (θ : Ext 4 → ℝ) (s : Fin 3 → ℝ) :
    Dom (join (θ, s)) ↔ ∀ i, 0 < frac (siteA (fun j => θ (.inl j)) i) (siteB i) s := by
  rw [dom_pos]
  exact forall_congr' fun i => by rw [raw_eq]

/-- The part of `G` without the ideal entropy of mixing. -/
def excess (r : Fin 4 → ℝ) (t p : ℝ) (s : Fin 3 → ℝ) : ℝ :=
  H (r 0) (r 1) (r 2) (r 3) (s 0) (s 1) (s 2) - t * (ss4 * s 2) + r 2 * r 3 * (WV1 * r 3 + WV2 * r 2) * (p - 1)

lemma g_eq (θ : Ext 4 → ℝ) (s : Fin 3 → ℝ) (h : Dom (join (θ, s))) :
    (macros (join (θ, s))).g = excess (fun j => θ (.inl j)) (θ iT) (θ iP) s + ∑ i, siteC (θ iT) i *
      (frac (siteA (fun j => θ (.inl j)) i) (siteB i) s * Real.log (frac (siteA (fun j => θ (.inl j)) i) (siteB i) s)) := by
  simp only [← raw_eq θ s]
  unfold macros
  rw [site_eq _ h]
  simp only [tables, G, S, excess, Fin.sum_univ_succ, Fin.sum_univ_zero, siteC, Matrix.cons_val, Fin.succ_zero_eq_one]
  simp only [join, Sum.elim_inl, Sum.elim_inr]
  simp only [show (Fin.succ 1 : Fin 10) = 2 from rfl, show (Fin.succ 1 : Fin 9) = 2 from rfl]
  simp [Fin.succ]
  ring

lemma bounded (r : Fin 4 → ℝ) (hr : r 0 ≤ 2 ∧ r 1 ≤ 2 ∧ r 2 ≤ 2 ∧ r 3 ≤ 2 ∧ 0 ≤ r 0 ∧ 0 ≤ r 1 ∧ 0 ≤ r 2 ∧ 0 ≤ r 3) :
    Bornology.IsBounded {s : Fin 3 → ℝ | ∀ i, 0 ≤ frac (siteA r i) (siteB i) s} := by
  refine (Metric.isBounded_closedBall (x := (0 : Fin 3 → ℝ)) (r := 10)).subset fun s hs => ?_
  rw [Metric.mem_closedBall, dist_zero_right]
  refine (pi_norm_le_iff_of_nonneg (by norm_num)).mpr fun k => ?_
  have h0 := hs 0; have h1 := hs 1; have h2 := hs 2; have h3 := hs 3; have h4 := hs 4; have h5 := hs 5; have h6 := hs 6
  have h7 := hs 7
  simp [frac, siteA, siteB, Fin.sum_univ_three] at h0 h1 h2 h3 h4 h5 h6 h7
  rw [Real.norm_eq_abs, abs_le]
  fin_cases k <;> constructor <;> simp only [Fin.zero_eta, Fin.mk_one, Fin.reduceFinMk] <;> linarith

/-- Total cations per formula unit: Mg, Fe²⁺, Al, Fe³⁺, Cr and Ti are all present (spinel.c 2190-2195). -/
def Present (r : Fin 4 → ℝ) : Prop :=
  0 < r 0 ∧ 0 < 1 - r 0 + r 2 ∧ 0 < 1 - r 1 - r 2 - r 3 ∧ 0 < r 3 ∧ 0 < r 1 ∧ 0 < r 2

/-- Initial guess of the ordering state, spinel.c 2190-2216. -/
def guess (r : Fin 4 → ℝ) : Fin 3 → ℝ :=
  let totAl := 2 * (1 - r 1 - r 2 - r 3)
  let totCr := 2 * r 1
  let totFe3 := 2 * r 3
  let totMg := r 0
  let totTi := r 2
  let ratio := 2 - totCr - totTi
  let xmg2oct := totMg * ratio / (1 + ratio)
  let xal3oct := totAl * ratio / (1 + ratio)
  let xfe3oct := totFe3 * ratio / (1 + ratio)
  let xmg2tet := totMg - xmg2oct
  let xal3tet := totAl - xal3oct
  let xfe3tet := totFe3 - xfe3oct
  ![xmg2tet - 2 * (xmg2oct / 2), xal3oct / 2 - xal3tet / 2, xfe3oct / 2 - xfe3tet / 2]

/-- The site fractions of the guess: every cation is spread over the tetrahedral and the free octahedral sites evenly. -/
lemma guess_sites (r : Fin 4 → ℝ) (h : 0 < 3 - 2 * r 1 - r 2) (i : Fin 10) : frac (siteA r i) (siteB i) (guess r) =
    (let q := (3 - 2 * r 1 - r 2)⁻¹
     ![r 0 * q, (1 - r 0 + r 2) * q, 2 * (1 - r 1 - r 2 - r 3) * q, 2 * r 3 * q, r 0 * (1 - q) / 2, (1 - r 0 + r 2) * (1 - q) / 2,
       (1 - r 1 - r 2 - r 3) * (1 - q), r 3 * (1 - q), r 1, r 2 / 2] : Fin 10 → ℝ) i := by
  have h' : 1 + (2 - 2 * r 1 - r 2) ≠ 0 := by linarith
  have h'' : 3 - 2 * r 1 - r 2 ≠ 0 := h.ne'
  have e : 1 + (2 - 2 * r 1 - r 2) = 3 - 2 * r 1 - r 2 := by ring
  have hq : (3 - 2 * r 1 - r 2)⁻¹ * (3 - 2 * r 1 - r 2) = 1 := inv_mul_cancel₀ h''
  fin_cases i
  case «2» =>
    simp [frac, siteA, siteB, guess, Fin.sum_univ_three, e, div_eq_mul_inv]
    linear_combination (-2 * (1 - r 1 - r 2 - r 3)) * hq
  case «6» =>
    simp [frac, siteA, siteB, guess, Fin.sum_univ_three, e, div_eq_mul_inv]
    linear_combination (1 - r 1 - r 2 - r 3) * hq
  all_goals simp [frac, siteA, siteB, guess, Fin.sum_univ_three, e] <;> field_simp <;> ring

lemma guess_pos {r : Fin 4 → ℝ} (h : Present r) (i : Fin 10) : 0 < frac (siteA r i) (siteB i) (guess r) := by
  obtain ⟨h0, h1, h2, h3, h4, h5⟩ := h
  have hq : 1 < 3 - 2 * r 1 - r 2 := by linarith
  rw [guess_sites r (by linarith)]
  have q0 : 0 < (3 - 2 * r 1 - r 2)⁻¹ := by positivity
  have q1 : 0 < 1 - (3 - 2 * r 1 - r 2)⁻¹ := by
    have := inv_lt_one_of_one_lt₀ hq
    linarith
  set q := (3 - 2 * r 1 - r 2)⁻¹
  fin_cases i <;> simp <;> positivity

/-- **C61.** At every temperature, pressure and composition with all cations present spinel has an equilibrium ordering
state: one with all site fractions positive, with the lowest Gibbs energy of all such states, and so a solution of the
equations `order()` solves. -/
theorem C61_spinel_exists (θ : Ext 4 → ℝ) (ht : 0 < θ iT) (hr : Present fun j => θ (.inl j)) :
    ∃ s : Fin 3 → ℝ, IsEq macros Dom θ s ∧
      ∀ s', Dom (join (θ, s')) → (macros (join (θ, s))).g ≤ (macros (join (θ, s'))).g := by
  have hR := R_pos
  obtain ⟨h0, h1, h2, h3, h4, h5⟩ := hr
  refine pack_exists (n := 10) (a := siteA fun j => θ (.inl j)) (b := siteB) (c := siteC (θ iT))
    (Q := excess (fun j => θ (.inl j)) (θ iT) (θ iP)) (s0 := guess fun j => θ (.inl j)) ok dom_open (dom_iff θ) (g_eq θ) ?_ ?_
    (guess_pos ⟨h0, h1, h2, h3, h4, h5⟩) (bounded _ ⟨?_, ?_, ?_, ?_, ?_, ?_, ?_, ?_⟩)
  · intro i; fin_cases i <;> simp only [siteC] <;> simp <;> positivity
  · unfold excess H; fun_prop
  all_goals linarith

lemma quad_low {a c d : ℝ} (ha : 0 ≤ a) (hc : 0 ≤ c) (hd : 0 ≤ d) (h : a ≤ c + d) :
    16 / 5 * a ^ 2 - 5 * a * c + 29 / 5 * a * d + 9 * c ^ 2 + 91 / 5 * c * d ≤ 263 / 25 * (c + d) ^ 2 := by
  have e := mul_nonneg ha (sub_nonneg.mpr h)
  have f : 0 ≤ 332 / 100 * c ^ 2 - 436 / 100 * c * d + 152 / 100 * d ^ 2 := by
    nlinarith [sq_nonneg (332 / 100 * c - 218 / 100 * d), sq_nonneg d]
  rcases le_total 0 (9 * c - 45 * d) with g | g
  · nlinarith [mul_nonneg ha g, mul_nonneg hc hd, sq_nonneg c, sq_nonneg d]
  · nlinarith [mul_nonneg_of_nonpos_of_nonpos (sub_nonpos.mpr h) g]

lemma quad_high {a c d : ℝ} (hc : 0 ≤ c) (hd : 0 ≤ d) (h : c + d ≤ a) :
    16 / 5 * a ^ 2 - 5 * a * c + 29 / 5 * a * d + 9 * c ^ 2 + 91 / 5 * c * d ≤ 263 / 25 * a ^ 2 := by
  obtain ⟨e, he, rfl⟩ : ∃ e, 0 ≤ e ∧ a = c + d + e := ⟨a - (c + d), by linarith, by ring⟩
  have f : 0 ≤ 332 / 100 * c ^ 2 - 436 / 100 * c * d + 152 / 100 * d ^ 2 := by
    nlinarith [sq_nonneg (332 / 100 * c - 218 / 100 * d), sq_nonneg d]
  nlinarith [mul_nonneg he hc, mul_nonneg he hd, sq_nonneg e]

/-- The interaction energies of spinel.c against the total change of the tetrahedral site fractions. -/
lemma quad (a b c d : ℝ) (h : a + b + c + d = 0) :
    16 / 5 * a ^ 2 + 5 * a * c - 29 / 5 * a * d + 9 * c ^ 2 + 91 / 5 * c * d ≤ 263 / 100 * (|a| + |b| + |c| + |d|) ^ 2 := by
  have hb : b = -(a + c + d) := by linarith
  subst hb
  rcases abs_cases a with ⟨h1, h1'⟩ | ⟨h1, h1'⟩ <;> rcases abs_cases c with ⟨h2, h2'⟩ | ⟨h2, h2'⟩ <;>
    rcases abs_cases d with ⟨h3, h3'⟩ | ⟨h3, h3'⟩ <;> rcases abs_cases (-(a + c + d)) with ⟨h4, h4'⟩ | ⟨h4, h4'⟩ <;>
    rw [h1, h2, h3, h4]
  case inl.inr.inr.inl =>
    nlinarith [quad_low (a := a) (c := -c) (d := -d) (by linarith) (by linarith) (by linarith) (by linarith)]
  case inl.inr.inr.inr => nlinarith [quad_high (a := a) (c := -c) (d := -d) (by linarith) (by linarith) (by linarith)]
  case inr.inl.inl.inl => nlinarith [quad_high (a := -a) (c := c) (d := d) (by linarith) (by linarith) (by linarith)]
  case inr.inl.inl.inr =>
    nlinarith [quad_low (a := -a) (c := c) (d := d) (by linarith) (by linarith) (by linarith) (by linarith)]
  all_goals nlinarith [sq_nonneg a, sq_nonneg c, sq_nonneg d]

/-- Above 885 K the energy is strictly convex in the ordering state. -/
lemma posHess (y : Var 4 3 → ℝ) (ht : 885 < y (.inl iT)) (h : Dom y) : PosHess (jets macros) y := by
  intro v hv
  set t := y (.inl iT) with hyT
  obtain ⟨e0, e1⟩ := raw_sum y
  have hx := (dom_pos y).mp h
  set a : Fin 4 → ℝ := ![v 0 / 2, -(v 0 / 2) + v 1 + v 2, -v 1, -v 2] with ha
  set xt : Fin 4 → ℝ := ![raw y 0, raw y 1, raw y 2, raw y 3] with hxt
  set xo : Fin 4 → ℝ := ![raw y 4, raw y 5, raw y 6, raw y 7] with hxo
  have key : ∑ k, ∑ l, (jets macros).g2 y (.inr k) (.inr l) * v k * v l
      = R * t * (∑ i, a i ^ 2 / xt i + 1 / 2 * ∑ i, a i ^ 2 / xo i)
        + (2 * gs1s1 * v 0 ^ 2 + 2 * gs1s2 * v 0 * v 1 + 2 * gs1s4 * v 0 * v 2 + 2 * gs2s2 * v 1 ^ 2 + 2 * gs2s4 * v 1 * v 2
          + 2 * gs4s4 * v 2 ^ 2) := by
    have e : ∀ k l, (jets macros).g2 y (.inr k) (.inr l) = (tables (raw y) y).d2gds2 k l := by
      intro k l
      change (macros y).d2gds2 k l = _
      unfold macros; rw [site_eq y h]
    simp only [e, Fin.sum_univ_three, Fin.sum_univ_four]
    simp only [tables, Matrix.cons_val, D2GDS0S0, D2GDS0S1, D2GDS0S2, D2GDS1S1, D2GDS1S2, D2GDS2S2, ← hyT, ha, hxt, hxo]
    ring
  rw [key]
  have ht1 : (∑ i, |a i|) ^ 2 / 1 ≤ ∑ i, a i ^ 2 / xt i := by
    refine titu a xt (fun i => ?_) ?_
    · fin_cases i; exacts [hx 0, hx 1, hx 2, hx 3]
    · simp only [Fin.sum_univ_four, hxt, Matrix.cons_val]; linarith
  have ho1 : (∑ i, |a i|) ^ 2 / 1 ≤ ∑ i, a i ^ 2 / xo i := by
    refine titu a xo (fun i => ?_) ?_
    · fin_cases i; exacts [hx 4, hx 5, hx 6, hx 7]
    · simp only [Fin.sum_univ_four, hxo, Matrix.cons_val]
      have := hx 8; have := hx 9
      linarith
  have hS : ∑ i, |a i| = |a 0| + |a 1| + |a 2| + |a 3| := Fin.sum_univ_four _
  have hq := quad (a 0) (a 1) (a 2) (a 3) (by simp [ha]; ring)
  rw [← hS] at hq
  have hS0 : 0 < ∑ i, |a i| := by
    rw [hS]
    by_contra hc
    have b0 := abs_nonneg (a 0); have b1 := abs_nonneg (a 1); have b2 := abs_nonneg (a 2); have b3 := abs_nonneg (a 3)
    have c0 : a 0 = 0 := abs_eq_zero.mp (by linarith)
    have c2 : a 2 = 0 := abs_eq_zero.mp (by linarith)
    have c3 : a 3 = 0 := abs_eq_zero.mp (by linarith)
    simp [ha] at c0 c2 c3
    exact hv (funext fun k => by fin_cases k; exacts [c0, c2, c3])
  set σ := ∑ i, |a i| with hσ
  have hRt : 7358 ≤ R * t := by rw [R_val]; linarith
  have hb : 3 / 2 * σ ^ 2 ≤ ∑ i, a i ^ 2 / xt i + 1 / 2 * ∑ i, a i ^ 2 / xo i := by
    rw [div_one] at ht1 ho1; linarith
  have hm : 7358 * (3 / 2 * σ ^ 2) ≤ R * t * (∑ i, a i ^ 2 / xt i + 1 / 2 * ∑ i, a i ^ 2 / xo i) :=
    mul_le_mul hRt hb (by positivity) (by linarith)
  have hQ : 2 * gs1s1 * v 0 ^ 2 + 2 * gs1s2 * v 0 * v 1 + 2 * gs1s4 * v 0 * v 2 + 2 * gs2s2 * v 1 ^ 2 + 2 * gs2s4 * v 1 * v 2
      + 2 * gs4s4 * v 2 ^ 2
      = -(4184 * (16 / 5 * a 0 ^ 2 + 5 * a 0 * a 2 - 29 / 5 * a 0 * a 3 + 9 * a 2 ^ 2 + 91 / 5 * a 2 * a 3)) := by
    simp only [gs1s1, gs1s2, gs1s4, gs2s2, gs2s4, gs4s4, WTET, WOCT, HX, W22, W11, W2P5U, W25PU, W1P5, W15P, W1P5P, W15, W55, ha,
      Matrix.cons_val]
    ring
  rw [hQ]
  have : 0 < σ ^ 2 := by positivity
  linarith

/-- Conditions: temperatures above 885 K, all cations present. -/
def Cond (t _p : ℝ) (r : Fin 4 → ℝ) : Prop := 885 < t ∧ Present r

/-- The same as a set of conditions. -/
def hot : Set (Ext 4 → ℝ) := {θ | Cond (θ iT) (θ iP) fun j => θ (.inl j)}

lemma hot_open : IsOpen hot := by
  unfold hot Cond Present
  simp only [Set.setOf_and]
  have c : ∀ j : Fin 4, Continuous fun θ : Ext 4 → ℝ => θ (.inl j) := fun j => continuous_apply _
  have c0 := c 0; have c1 := c 1; have c2 := c 2; have c3 := c 3
  refine (isOpen_lt continuous_const (continuous_apply _)).inter ?_
  refine (isOpen_lt continuous_const c0).inter ((isOpen_lt continuous_const (by fun_prop)).inter
    ((isOpen_lt continuous_const (by fun_prop)).inter ((isOpen_lt continuous_const c3).inter
    ((isOpen_lt continuous_const c1).inter (isOpen_lt continuous_const c2)))))

/-- **C61.** Above 885 K spinel has exactly one equilibrium ordering state with positive site fractions, so whatever solution
`order()` finds is the equilibrium state. -/
theorem C61_spinel_unique (θ : Ext 4 → ℝ) (h : θ ∈ hot) : ∃! s : Fin 3 → ℝ, IsEq macros Dom θ s := by
  obtain ⟨s, hs, -⟩ := C61_spinel_exists θ (lt_trans (by norm_num) h.1) h.2
  exact ⟨s, hs, fun s' h' => pack_unique ok (pack_convex (dom_iff θ)) (fun s hs => posHess _ h.1 hs) h' hs⟩

/-- `X` gives, at these conditions, an ordering state in which all site fractions are positive and the equilibrium
equations hold: what the Newton iteration of `order()` looks for (spinel.c 2218-2346). -/
def Equilibrium (X : (Ext 4 → ℝ) → Fin 3 → ℝ) : Prop := ∀ θ ∈ hot, IsEq macros Dom θ (X θ)

theorem solved {X : (Ext 4 → ℝ) → Fin 3 → ℝ} (hX : Equilibrium X) : Solved (jets macros) Dom X hot :=
  pack_solved ok dom_open hot_open hX (fun θ _ => pack_convex (dom_iff θ)) fun _ h _ hs => posHess _ h.1 hs

theorem equilibrium_exists : ∃ X, Equilibrium X := pack_choose fun θ h => (C61_spinel_unique θ h).exists

/-- Ordering states of the pure end members, as `pureOrder` finds them (spinel.c 880-1011). -/
structure Ends where
  hc : (Ext 0 → ℝ) → Fin 1 → ℝ
  mt : (Ext 0 → ℝ) → Fin 1 → ℝ
  sp : (Ext 0 → ℝ) → Fin 1 → ℝ

/-- They are equilibrium states. -/
structure Ends.Ok (E : Ends) : Prop where
  hc : PureHercynite.Equilibrium E.hc
  mt : PureMagnetite.Equilibrium E.mt
  sp : PureSpinel.Equilibrium E.sp

/-- `CR_H`, spinel.c 791. -/
def CR_H : ℝ := g0 + gx3 + gs3 + gx3x3 + gx3s3 + gs3s3

/-- `UV_H`, spinel.c 807. -/
def UV_H : ℝ := g0 + gx4 + gx4x4

/-- `UV_S`, spinel.c 806. -/
def UV_S : ℝ := R * 2 * Real.log 2

/-- The five end members in the order of `ends`: chromite, hercynite, magnetite, spinel, ulvöspinel (spinel.c 1160-1530). -/
def ends (E : Ends) : Fin 5 → ℝ → ℝ → Std :=
  ![fixedStd CR_H 0, PureHercynite.std E.hc, PureMagnetite.std E.mt, PureSpinel.std E.sp, fixedStd UV_H UV_S]

/-- The weights in `ENDMEMBERS`, spinel.c 1563-1564. -/
def weight (r : Fin 4 → ℝ) : Fin 5 → ℝ := ![r 1, 1 - r 0 - r 1 - r 2 - r 3, r 3, r 0, r 2]

/-- `DENDDR0, DENDDR1, DENDDR2, DENDDR3`, spinel.c 1566-1569. -/
def dweight : Fin 4 → Fin 5 → ℝ :=
  ![![0, -1, 0, 1, 0], ![1, -1, 0, 0, 0], ![0, -1, 0, 0, 1], ![0, -1, 1, 0, 0]]

/-- The solution itself, before the end members are subtracted. -/
def whole (X : (Ext 4 → ℝ) → Fin 3 → ℝ) : Mix 4 := ordMix (jets macros) (fun y => (macros y).s) X

/-- `gmixSpn, hmixSpn, smixSpn, cpmixSpn, vmixSpn`, spinel.c 3150-3910. -/
def mix (X : (Ext 4 → ℝ) → Fin 3 → ℝ) (E : Ends) : Mix 4 := lessEnds (whole X) weight dweight (ends E)

lemma weight_lin (r : Fin 4 → ℝ) (a : Fin 5) : weight r a = (![0, 1, 0, 0, 0] : Fin 5 → ℝ) a + ∑ j, dweight j a * r j := by
  fin_cases a <;> simp [weight, dweight, Fin.sum_univ_four] <;> ring

/-- **C24.** Spinel: every mixing property the file reports is the derivative it claims to be of the Gibbs energy at
equilibrium order less that of the ordered end members, above 885 K, at any pressure and any composition with all cations
present. -/
theorem C24_spinel {X : (Ext 4 → ℝ) → Fin 3 → ℝ} (hX : Equilibrium X) {E : Ends} (hE : E.Ok) : ConsistentOn (mix X E) Cond := by
  have h : ConsistentOn (whole X) Cond := C24_ordering (E := fun y => (macros y).s) ok (fun y _ => entropy_eq y) (solved hX)
  have h2 := C24_less_ends (Q := fun t _ => 885 < t) h (P := ends E) (w := weight) (d := dweight) (fun t p ht a => by
    fin_cases a
    · exact fixedStd_consistent _ _ t p
    · exact PureHercynite.C24_pure_hercynite hE.hc (lt_trans (by norm_num) ht)
    · exact PureMagnetite.C24_pure_magnetite hE.mt (lt_trans (by norm_num) ht)
    · exact PureSpinel.C24_pure_spinel hE.sp (lt_trans (by norm_num) ht)
    · exact fixedStd_consistent _ _ t p) weight_lin
  have e : (fun t p r => Cond t p r ∧ 885 < t) = Cond := by
    funext t p r; exact propext ⟨fun h => h.1, fun h => ⟨h, h.1⟩⟩
  rw [e] at h2
  exact h2

/-- `FR2, FR3, FR4, FR5`, spinel.c 1544-1547. -/
def fr (r : Fin 4 → ℝ) (i : Fin 5) (j : Fin 4) : ℝ := if i = (![3, 0, 4, 2] : Fin 4 → Fin 5) j then 1 - r j else -r j

/-- `DFR2DR2`, …, spinel.c 1555-1558. -/
def dfr (_i : Fin 5) (_k : Fin 4) : ℝ := -1

/-- `GS1, GS2, GS4`, spinel.c 1550-1553 (`GS3` belongs to a parameter that is a composition variable here). -/
def gs (_r : Fin 4 → ℝ) (s : Fin 3 → ℝ) (i : Fin 5) (j : Fin 3) : ℝ :=
  ![if i = 3 then 1 - s 0 else -s 0, if i = 1 ∨ i = 3 then 1 - s 1 else -s 1, -s 2] j

/-- `actSpn`, first mask (`a[i]`), spinel.c 3033-3045. -/
def act (X : (Ext 4 → ℝ) → Fin 3 → ℝ) (E : Ends) (t p : ℝ) (r : Fin 4 → ℝ) (i : Fin 5) : ℝ := actE (whole X) (ends E) fr t p r i

/-- `actSpn`, second mask (`mu[i]`), spinel.c 3047-3062. -/
def mu (X : (Ext 4 → ℝ) → Fin 3 → ℝ) (E : Ends) (t p : ℝ) (r : Fin 4 → ℝ) (i : Fin 5) : ℝ := muE (whole X) (ends E) fr t p r i

/-- **C24.** Spinel: activities are `exp(μ/RT)`. -/
theorem C24_spinel_activity (X : (Ext 4 → ℝ) → Fin 3 → ℝ) (E : Ends) (t p : ℝ) (ht : t ≠ 0) (r : Fin 4 → ℝ) (i : Fin 5) :
    R * t * Real.log (act X E t p r i) = mu X E t p r i := C24_ends_activity _ _ _ t p ht r i

/-- **C24.** Spinel: the reported composition derivatives of the activities are their derivatives. -/
theorem C24_spinel_activity_derivative {X : (Ext 4 → ℝ) → Fin 3 → ℝ} (hX : Equilibrium X) (E : Ends) {t p : ℝ}
    {r : Fin 4 → ℝ} (h : Cond t p r) (i : Fin 5) (k : Fin 4) :
    Magma.Thermo.Extensive.Partial (fun r => act X E t p r i) r k
      (dactE (jets macros) X (ends E) fr dfr gs t p r i k) := by
  refine C24_ends_activity_derivative (e := fun i j => if i = (![3, 0, 4, 2] : Fin 4 → Fin 5) j then 1 else 0) ok
    (fun y _ => entropy_eq y) (solved hX) (ends E) ?_ (fun _ _ => rfl) h i k
  intro r i j
  unfold fr
  split_ifs <;> ring

lemma fr_weight (r : Fin 4 → ℝ) (a b : Fin 5) : weight r b + ∑ j, fr r a j * dweight j b = if a = b then 1 else 0 := by
  fin_cases a <;> fin_cases b <;> simp [weight, dweight, fr, Fin.sum_univ_four] <;> ring

open Magma.Thermo.Compo in
lemma fr_eq (m : Fin 5 → ℝ) (h0 : ∑ i, m i ≠ 0) (i : Fin 5) (j : Fin 4) :
    (∑ i, m i) * Magma.Thermo.Compo.Spinel.conv.dm m j i = fr (Magma.Thermo.Compo.Spinel.conv.toR m) i j := by
  have ht : total m = ∑ i, m i := rfl
  have e1 : Magma.Thermo.Compo.Spinel.conv.dm m j i = Magma.Thermo.Compo.Spinel.dm m i j := rfl
  have e2 : Magma.Thermo.Compo.Spinel.conv.toR m = Magma.Thermo.Compo.Spinel.toR m := rfl
  rw [e1, e2]
  unfold Magma.Thermo.Compo.Spinel.dm Magma.Thermo.Compo.Spinel.toR fr
  simp only [ht, if_neg h0, if_pos h0]
  fin_cases j <;> fin_cases i <;> simp [h0] <;> field_simp

/-- **C24.** Spinel: the reported chemical potentials are the derivatives of the total Gibbs energy of mixing in the moles
of the end members. -/
theorem C24_spinel_potential {X : (Ext 4 → ℝ) → Fin 3 → ℝ} (hX : Equilibrium X) {E : Ends} (hE : E.Ok) (t p : ℝ) (m : Fin 5 → ℝ)
    (h0 : ∑ i, m i ≠ 0) (h : Cond t p (Magma.Thermo.Compo.Spinel.conv.toR m)) (i : Fin 5) :
    Magma.Thermo.Extensive.Partial
      (fun m => (∑ i, m i) * (mix X E).g t p (Magma.Thermo.Compo.Spinel.conv.toR m)) m i
      (mu X E t p (Magma.Thermo.Compo.Spinel.conv.toR m) i) :=
  C24_ends_potential (C24_spinel hX hE) _ Magma.Thermo.Compo.C25_spinel t p m h0 (fr_eq m h0) (fr_weight _) h i

/-- The hypotheses are met: one mole of each end member at 1400 K. -/
example : ∃ X, ∃ E : Ends, Equilibrium X ∧ E.Ok ∧ ∑ i, (![1, 1, 1, 1, 1] : Fin 5 → ℝ) i ≠ 0 ∧
    Cond 1400 1 (Magma.Thermo.Compo.Spinel.conv.toR ![1, 1, 1, 1, 1]) := by
  obtain ⟨X, hX⟩ := equilibrium_exists
  obtain ⟨a, ha⟩ := PureHercynite.equilibrium_exists
  obtain ⟨b, hb⟩ := PureMagnetite.equilibrium_exists
  obtain ⟨c, hc⟩ := PureSpinel.equilibrium_exists
  have ht : Magma.Thermo.Compo.total (![1, 1, 1, 1, 1] : Fin 5 → ℝ) = 5 := by
    unfold Magma.Thermo.Compo.total; simp [Fin.sum_univ_five]; norm_num
  refine ⟨X, ⟨a, b, c⟩, hX, ⟨ha, hb, hc⟩, by simp [Fin.sum_univ_five]; norm_num, by norm_num, ?_⟩
  have e : Magma.Thermo.Compo.Spinel.conv.toR (![1, 1, 1, 1, 1] : Fin 5 → ℝ) = ![1 / 5, 1 / 5, 1 / 5, 1 / 5] := by
    change Magma.Thermo.Compo.Spinel.toR _ = _
    unfold Magma.Thermo.Compo.Spinel.toR
    rw [ht, if_pos (by norm_num)]
    funext j; fin_cases j <;> simp
  rw [e]
  refine ⟨?_, ?_, ?_, ?_, ?_, ?_⟩ <;> simp only [Matrix.cons_val] <;> norm_num

/-! ### The Newton iteration stays feasible -/

/-- Changes of the tested site fractions for a step of the ordering state, spinel.c 2292-2340. -/
def dir (d : Fin 3 → ℝ) : Fin 10 → ℝ :=
  ![d 0 / 2, -d 0 / 2 + d 1 + d 2, -d 1, -d 2, -d 0 / 4, d 0 / 4 - d 1 / 2 - d 2 / 2, d 1 / 2, d 2 / 2, 0, 0]

/-- The site fractions tested, in order, spinel.c 2291-2340. -/
def tested : List (Fin 10) := [0, 1, 2, 3, 4, 5, 6, 7]

/-- One iteration of `order()`, spinel.c 2222-2345, for the step `d` that the LU solver gave. -/
def next (r : Fin 4 → ℝ) (t p : ℝ) (s d : Fin 3 → ℝ) : Fin 3 → ℝ :=
  Step.advance (Step.caps (site (join (env r t p, s))) (dir d) tested 1) s d

/-- The ordering states of the iteration, for any steps. -/
def iterate (r : Fin 4 → ℝ) (t p : ℝ) (d : ℕ → Fin 3 → ℝ) : ℕ → Fin 3 → ℝ
  | 0 => guess r
  | n + 1 => next r t p (iterate r t p d n) (d n)

/-- **C61.** The initial guess of spinel.c has all site fractions in `[0, 1]`, for every composition with nonnegative cation
totals and at least one tetrahedral place for the cations that may take it. -/
theorem C61_spinel_guess {r : Fin 4 → ℝ} (h : 0 ≤ r 0 ∧ 0 ≤ 1 - r 0 + r 2 ∧ 0 ≤ 1 - r 1 - r 2 - r 3 ∧ 0 ≤ r 3 ∧ 0 ≤ r 1 ∧ 0 ≤ r 2)
    (t p : ℝ) (i : Fin 10) :
    0 ≤ raw (join (env r t p, guess r)) i ∧ raw (join (env r t p, guess r)) i ≤ 1 := by
  have pos : ∀ i, 0 ≤ raw (join (env r t p, guess r)) i := by
    intro i
    obtain ⟨h0, h1, h2, h3, h4, h5⟩ := h
    have hq : 1 ≤ 3 - 2 * r 1 - r 2 := by linarith
    rw [raw_eq]
    change 0 ≤ frac (siteA r i) (siteB i) (guess r)
    rw [guess_sites r (by linarith)]
    have q0 : 0 ≤ (3 - 2 * r 1 - r 2)⁻¹ := inv_nonneg.mpr (by linarith)
    have q1 : 0 ≤ 1 - (3 - 2 * r 1 - r 2)⁻¹ := by
      have := inv_le_one_of_one_le₀ hq
      linarith
    set q := (3 - 2 * r 1 - r 2)⁻¹
    fin_cases i <;> simp <;> positivity
  refine ⟨pos i, ?_⟩
  obtain ⟨e0, e1⟩ := raw_sum (join (env r t p, guess r))
  have b0 := pos 0; have b1 := pos 1; have b2 := pos 2; have b3 := pos 3; have b4 := pos 4; have b5 := pos 5; have b6 := pos 6
  have b7 := pos 7; have b8 := pos 8; have b9 := pos 9
  fin_cases i <;> simp only [Fin.zero_eta, Fin.mk_one, Fin.reduceFinMk] <;> linarith

/-- **C61.** Whatever steps the linear solver gives, after `n` iterations the site fractions of spinel lie in `[0, 1]` up to
`n` units of rounding (`DBL_EPSILON`). -/
theorem C61_spinel_feasible {r : Fin 4 → ℝ}
    (h : 0 ≤ r 0 ∧ 0 ≤ 1 - r 0 + r 2 ∧ 0 ≤ 1 - r 1 - r 2 - r 3 ∧ 0 ≤ r 3 ∧ 0 ≤ r 1 ∧ 0 ≤ r 2) (t p : ℝ) (d : ℕ → Fin 3 → ℝ) (n : ℕ)
    (i : Fin 10) : -(n * dblEps) ≤ raw (join (env r t p, iterate r t p d n)) i ∧
      raw (join (env r t p, iterate r t p d n)) i ≤ 1 + n * dblEps := by
  have hn : ∀ n : ℕ, 0 ≤ n * dblEps := fun n => mul_nonneg (Nat.cast_nonneg n) dblEps_pos.le
  have hr : ∀ s i, raw (join (env r t p, s)) i = frac (siteA r i) (siteB i) s := fun s i => raw_eq (env r t p) s i
  have main : ∀ n : ℕ, ∀ i ∈ tested, -(n * dblEps) ≤ frac (siteA r i) (siteB i) (iterate r t p d n) ∧
      frac (siteA r i) (siteB i) (iterate r t p d n) ≤ 1 + n * dblEps := by
    intro n
    induction n with
    | zero =>
      intro i _
      have := C61_spinel_guess h t p i
      rw [hr] at this
      simpa [iterate] using this
    | succ n ih =>
      intro i hi
      have := Step.advance_feasible (a := siteA r) (b := siteB) (x := site (join (env r t p, iterate r t p d n)))
        (dir := dir (d n)) (l := tested) (s := iterate r t p d n) (d := d n) (fun i _ => by
          rw [← hr]; fin_cases i <;> rfl) (fun i _ => by
          fin_cases i <;> simp [dir, siteB, Fin.sum_univ_three] <;> ring) (hn n) ih i hi
      push_cast
      rw [add_mul, one_mul]
      exact this
  by_cases hi : i ∈ tested
  · rw [hr]; exact main n i hi
  · have h8 : i = 8 ∨ i = 9 := by
      revert hi; fin_cases i <;> simp [tested]
    have h0 := hn n
    obtain ⟨h0', h1, h2, h3, h4, h5⟩ := h
    rw [hr]
    rcases h8 with rfl | rfl <;> simp [frac, siteA, siteB, Fin.sum_univ_three] <;> constructor <;> linarith

end

end Verif.Thermo.Ordering.Spinel
