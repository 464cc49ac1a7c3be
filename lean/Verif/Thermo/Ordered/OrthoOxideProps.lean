import Verif.Thermo.Ordered.OrthoOxide
import Verif.Thermo.Ordered.OrthoOxideEnds
import Verif.Thermo.ConvTables

/-!
Ortho-oxide, the pseudobrookite solid solution (/repo/sources/ortho-oxide.c): its equilibrium ordering state exists at every
temperature and every composition between the end members, is unique above 482 K, and what the file reports are the
derivatives of the Gibbs energy at equilibrium order less that of its (ordered) end members.
-/

namespace Verif.Thermo.Ordering.OrthoOxide

open Finset Filter Topology
open Magma.Thermo.Mixing (R R_pos Mix)
open Verif.Thermo.StdState (Std Consistent)

noncomputable section

/-- Constant terms of the site fractions, ortho-oxide.c 1507-1515. -/
def siteA (r : Fin 2 → ℝ) : Fin 8 → ℝ :=
  ![r 0 / 2, r 1 / 2, 1 / 2, (1 - r 0 - r 1) / 2, r 0 / 4, r 1 / 4, (1 + 2 * r 0 + 2 * r 1) / 4, (3 - 3 * r 0 - 3 * r 1) / 4]

/-- Coefficients of the ordering parameters in the site fractions, ortho-oxide.c 1507-1515. -/
def siteB : Fin 8 → Fin 3 → ℝ :=
  ![![0, 1 / 2, 0], ![0, 0, 1 / 2], ![-(1 / 2), -(1 / 2), -(1 / 2)], ![1 / 2, 0, 0], ![0, -(1 / 4), 0], ![0, 0, -(1 / 4)],
    ![1 / 4, 1 / 4, 1 / 4], ![-(1 / 4), 0, 0]]

/-- Sites per formula unit, times `RT`: one M1, two M2. -/
def siteC (t : ℝ) : Fin 8 → ℝ :=
  ![R * t, R * t, R * t, R * t, 2 * (R * t), 2 * (R * t), 2 * (R * t), 2 * (R * t)]

lemma raw_eq (θ : Ext 2 → ℝ) (s : Fin 3 → ℝ) (i : Fin 8) :
    raw (join (θ, s)) i = frac (siteA (fun j => θ (.inl j)) i) (siteB i) s := by
  fin_cases i <;> simp [raw, join, frac, siteA, siteB, Fin.sum_univ_three] <;> ring

/-- The M1 site and the two M2 sites are full. -/
lemma raw_sum (y : Var 2 3 → ℝ) : raw y 0 + raw y 1 + raw y 2 + raw y 3 = 1 ∧
    raw y 4 + raw y 5 + raw y 6 + raw y 7 = 1 := by
  constructor <;> simp only [raw, Matrix.cons_val] <;> ring

/-- `Dom`: all eight site fractions positive. -/
lemma dom_pos (y : Var 2 3 → ℝ) : Dom y ↔ ∀ i, 0 < raw y i := by
  constructor
  · rintro ⟨a0, a1, a2, a3, a4, a5, a6, a7⟩ i
    fin_cases i
    exacts [a0, a1, a2, a3, a4, a5, a6, a7]
  · intro h
    exact ⟨h 0, h 1, h 2, h 3, h 4, h 5, h 6, h 7⟩

lemma dom_iff (θ : Ext 2 → ℝ) (s : Fin 3 → ℝ) :
    Dom (join (θ, s)) ↔ ∀ i, 0 < frac (siteA (fun j => θ (.inl j)) i) (siteB i) s := by
  rw [dom_pos]
  exact forall_congr' fun i => by rw [raw_eq]

/-- The part of `G` without the ideal entropy of mixing. -/
def excess (r : Fin 2 → ℝ) (s : Fin 3 → ℝ) : ℝ := H (r 0) (r 1) (s 0) (s 1) (s 2)

lemma g_eq (θ : Ext 2 → ℝ) (s : Fin 3 → ℝ) (h : Dom (join (θ, s))) :
    (macros (join (θ, s))).g = excess (fun j => θ (.inl j)) s + ∑ i, siteC (θ iT) i *
      (frac (siteA (fun j => θ (.inl j)) i) (siteB i) s * Real.log (frac (siteA (fun j => θ (.inl j)) i) (siteB i) s)) := by
  simp only [← raw_eq θ s]
  unfold macros
  rw [site_eq _ h]
  simp only [tables, G, S, excess, Fin.sum_univ_eight, siteC, Matrix.cons_val]
  simp only [join, Sum.elim_inl, Sum.elim_inr]
  ring

lemma bounded (r : Fin 2 → ℝ) (hr : r 0 ≤ 1 ∧ r 1 ≤ 1 ∧ 0 ≤ r 0 ∧ 0 ≤ r 1) :
    Bornology.IsBounded {s : Fin 3 → ℝ | ∀ i, 0 ≤ frac (siteA r i) (siteB i) s} := by
  refine (Metric.isBounded_closedBall (x := (0 : Fin 3 → ℝ)) (r := 10)).subset fun s hs => ?_
  rw [Metric.mem_closedBall, dist_zero_right]
  refine (pi_norm_le_iff_of_nonneg (by norm_num)).mpr fun k => ?_
  have h0 := hs 0; have h1 := hs 1; have h2 := hs 2; have h3 := hs 3; have h4 := hs 4; have h5 := hs 5; have h6 := hs 6
  have h7 := hs 7
  simp [frac, siteA, siteB, Fin.sum_univ_three] at h0 h1 h2 h3 h4 h5 h6 h7
  rw [Real.norm_eq_abs, abs_le]
  fin_cases k <;> constructor <;> simp only [Fin.zero_eta, Fin.mk_one, Fin.reduceFinMk] <;> linarith

/-- All three end members are present. -/
def Present (r : Fin 2 → ℝ) : Prop := 0 < r 0 ∧ 0 < r 1 ∧ 0 < 1 - r 0 - r 1

/-- Initial guess of the ordering state, ortho-oxide.c 1490-1492. -/
def guess (r : Fin 2 → ℝ) : Fin 3 → ℝ := ![9 / 10 * (1 - r 0 - r 1), 9 / 10 * r 0, 9 / 10 * r 1]

/-- The site fractions of the guess. -/
lemma guess_sites (r : Fin 2 → ℝ) (i : Fin 8) : frac (siteA r i) (siteB i) (guess r) =
    (![19 / 20 * r 0, 19 / 20 * r 1, 1 / 20, 19 / 20 * (1 - r 0 - r 1), r 0 / 40, r 1 / 40, (19 + 20 * r 0 + 20 * r 1) / 40,
       21 / 40 * (1 - r 0 - r 1)] : Fin 8 → ℝ) i := by
  fin_cases i <;> simp [frac, siteA, siteB, guess, Fin.sum_univ_three] <;> ring

lemma guess_pos {r : Fin 2 → ℝ} (h : Present r) (i : Fin 8) : 0 < frac (siteA r i) (siteB i) (guess r) := by
  obtain ⟨h0, h1, h2⟩ := h
  rw [guess_sites r]
  fin_cases i <;> simp only [Fin.zero_eta, Fin.mk_one, Fin.reduceFinMk, Matrix.cons_val, Matrix.cons_val_zero,
    Matrix.cons_val_one] <;> first | positivity | linarith

/-- **C61.** The initial guess of ortho-oxide.c has all site fractions in `[0, 1]`, for every mixture of the end members. -/
theorem C61_ortho_oxide_guess {r : Fin 2 → ℝ} (h : 0 ≤ r 0 ∧ 0 ≤ r 1 ∧ r 0 + r 1 ≤ 1) (t p : ℝ) (i : Fin 8) :
    0 ≤ raw (join (env r t p, guess r)) i ∧ raw (join (env r t p, guess r)) i ≤ 1 := by
  obtain ⟨h0, h1, h2⟩ := h
  rw [raw_eq]
  change 0 ≤ frac (siteA r i) (siteB i) (guess r) ∧ frac (siteA r i) (siteB i) (guess r) ≤ 1
  rw [guess_sites r]
  fin_cases i <;> simp only [Fin.zero_eta, Fin.mk_one, Fin.reduceFinMk, Matrix.cons_val, Matrix.cons_val_zero,
    Matrix.cons_val_one] <;> constructor <;> linarith

/-- **C61.** At every temperature, pressure and composition with all end members present ortho-oxide has an equilibrium
ordering state: one with all site fractions positive, with the lowest Gibbs energy of all such states, and so a solution of
the equations `order()` solves. -/
theorem C61_ortho_oxide_exists (θ : Ext 2 → ℝ) (ht : 0 < θ iT) (hr : Present fun j => θ (.inl j)) :
    ∃ s : Fin 3 → ℝ, IsEq macros Dom θ s ∧
      ∀ s', Dom (join (θ, s')) → (macros (join (θ, s))).g ≤ (macros (join (θ, s'))).g := by
  have hR := R_pos
  obtain ⟨h0, h1, h2⟩ := hr
  refine pack_exists (n := 8) (a := siteA fun j => θ (.inl j)) (b := siteB) (c := siteC (θ iT))
    (Q := excess (fun j => θ (.inl j))) (s0 := guess fun j => θ (.inl j)) ok dom_open (dom_iff θ) (g_eq θ) ?_ ?_
    (guess_pos ⟨h0, h1, h2⟩) (bounded _ ⟨?_, ?_, ?_, ?_⟩)
  · intro i; fin_cases i <;> simp only [siteC] <;> simp <;> positivity
  · unfold excess H; fun_prop
  all_goals linarith

/-- The interaction energies of ortho-oxide.c against the total change of the M1 site fractions. -/
lemma quad (x y z : ℝ) : 2 * (x ^ 2 + y ^ 2 + z ^ 2) ≤ (|x| + |y| + |-(x + y + z)| + |z|) ^ 2 := by
  rcases abs_cases x with ⟨h1, h1'⟩ | ⟨h1, h1'⟩ <;> rcases abs_cases y with ⟨h2, h2'⟩ | ⟨h2, h2'⟩ <;>
    rcases abs_cases z with ⟨h3, h3'⟩ | ⟨h3, h3'⟩ <;> rcases abs_cases (-(x + y + z)) with ⟨h4, h4'⟩ | ⟨h4, h4'⟩ <;>
    rw [h1, h2, h3, h4] <;> nlinarith [sq_nonneg x, sq_nonneg y, sq_nonneg z, sq_nonneg (x + y), sq_nonneg (x + z),
      sq_nonneg (y + z), sq_nonneg (x + y + z), mul_nonneg (abs_nonneg x) (abs_nonneg y), mul_nonneg (abs_nonneg x) (abs_nonneg z),
      mul_nonneg (abs_nonneg y) (abs_nonneg z)]

/-- Above 482 K the energy is strictly convex in the ordering state. -/
lemma posHess (y : Var 2 3 → ℝ) (ht : 482 < y (.inl iT)) (h : Dom y) : PosHess (jets macros) y := by
  intro v hv
  set t := y (.inl iT) with hyT
  obtain ⟨e0, e1⟩ := raw_sum y
  have hx := (dom_pos y).mp h
  set a : Fin 4 → ℝ := ![v 1 / 2, v 2 / 2, -(v 1 / 2 + v 2 / 2 + v 0 / 2), v 0 / 2] with ha
  set x1 : Fin 4 → ℝ := ![raw y 0, raw y 1, raw y 2, raw y 3] with hx1
  set x2 : Fin 4 → ℝ := ![raw y 4, raw y 5, raw y 6, raw y 7] with hx2
  have key : ∑ k, ∑ l, (jets macros).g2 y (.inr k) (.inr l) * v k * v l
      = R * t * (∑ i, a i ^ 2 / x1 i + 1 / 2 * ∑ i, a i ^ 2 / x2 i) - 12000 * (a 0 ^ 2 + a 1 ^ 2 + a 3 ^ 2) := by
    have e : ∀ k l, (jets macros).g2 y (.inr k) (.inr l) = (tables (raw y) y).d2gds2 k l := by
      intro k l
      change (macros y).d2gds2 k l = _
      unfold macros; rw [site_eq y h]
    simp only [e, Fin.sum_univ_three, Fin.sum_univ_four]
    simp only [tables, Matrix.cons_val, D2GDS0S0, D2GDS0S1, D2GDS0S2, D2GDS1S1, D2GDS1S2, D2GDS2S2, ← hyT, ha, hx1, hx2, GS1S1,
      GS2S2, GS3S3, GS1S2, GS1S3, GS2S3, W11P, W22P, W33P, W12, W12P, W1P2, W1P2P, W13, W13P, W1P3, W1P3P, W23, W23P, W2P3, W2P3P]
    ring
  rw [key]
  have ht1 : (∑ i, |a i|) ^ 2 / 1 ≤ ∑ i, a i ^ 2 / x1 i := by
    refine titu a x1 (fun i => ?_) ?_
    · fin_cases i; exacts [hx 0, hx 1, hx 2, hx 3]
    · simp only [Fin.sum_univ_four, hx1, Matrix.cons_val]; linarith
  have ho1 : (∑ i, |a i|) ^ 2 / 1 ≤ ∑ i, a i ^ 2 / x2 i := by
    refine titu a x2 (fun i => ?_) ?_
    · fin_cases i; exacts [hx 4, hx 5, hx 6, hx 7]
    · simp only [Fin.sum_univ_four, hx2, Matrix.cons_val]; linarith
  have hS : ∑ i, |a i| = |a 0| + |a 1| + |a 2| + |a 3| := Fin.sum_univ_four _
  have hq := quad (a 0) (a 1) (a 3)
  have h2 : -(a 0 + a 1 + a 3) = a 2 := by simp [ha]
  rw [h2, ← hS] at hq
  have hS0 : 0 < ∑ i, |a i| := by
    rw [hS]
    by_contra hc
    have b0 := abs_nonneg (a 0); have b1 := abs_nonneg (a 1); have b2 := abs_nonneg (a 2); have b3 := abs_nonneg (a 3)
    have c0 : a 0 = 0 := abs_eq_zero.mp (by linarith)
    have c1 : a 1 = 0 := abs_eq_zero.mp (by linarith)
    have c3 : a 3 = 0 := abs_eq_zero.mp (by linarith)
    simp [ha] at c0 c1 c3
    exact hv (funext fun k => by fin_cases k; exacts [c3, c0, c1])
  set σ := ∑ i, |a i| with hσ
  have hRt : 4007 ≤ R * t := by rw [R_val]; linarith
  have hb : 3 / 2 * σ ^ 2 ≤ ∑ i, a i ^ 2 / x1 i + 1 / 2 * ∑ i, a i ^ 2 / x2 i := by
    rw [div_one] at ht1 ho1; linarith
  have hm : 4007 * (3 / 2 * σ ^ 2) ≤ R * t * (∑ i, a i ^ 2 / x1 i + 1 / 2 * ∑ i, a i ^ 2 / x2 i) :=
    mul_le_mul hRt hb (by positivity) (by linarith)
  have : 0 < σ ^ 2 := by positivity
  linarith

/-- Conditions: temperatures above 482 K, all end members present. -/
def Cond (t _p : ℝ) (r : Fin 2 → ℝ) : Prop := 482 < t ∧ Present r

/-- The same as a set of conditions. -/
def hot : Set (Ext 2 → ℝ) := {θ | Cond (θ iT) (θ iP) fun j => θ (.inl j)}

lemma hot_open : IsOpen hot := by
  unfold hot Cond Present
  simp only [Set.setOf_and]
  have c : ∀ j : Fin 2, Continuous fun θ : Ext 2 → ℝ => θ (.inl j) := fun j => continuous_apply _
  have c0 := c 0; have c1 := c 1
  refine (isOpen_lt continuous_const (continuous_apply _)).inter ?_
  exact (isOpen_lt continuous_const c0).inter ((isOpen_lt continuous_const c1).inter (isOpen_lt continuous_const (by fun_prop)))

/-- **C61.** Above 482 K ortho-oxide has exactly one equilibrium ordering state with positive site fractions, so whatever
solution `order()` finds is the equilibrium state. -/
theorem C61_ortho_oxide_unique (θ : Ext 2 → ℝ) (h : θ ∈ hot) : ∃! s : Fin 3 → ℝ, IsEq macros Dom θ s := by
  obtain ⟨s, hs, -⟩ := C61_ortho_oxide_exists θ (lt_trans (by norm_num) h.1) h.2
  exact ⟨s, hs, fun s' h' => pack_unique ok (pack_convex (dom_iff θ)) (fun s hs => posHess _ h.1 hs) h' hs⟩

/-- `X` gives, at these conditions, an ordering state in which all site fractions are positive and the equilibrium
equations hold: what the Newton iteration of `order()` looks for (ortho-oxide.c 1494-1561). -/
def Equilibrium (X : (Ext 2 → ℝ) → Fin 3 → ℝ) : Prop := ∀ θ ∈ hot, IsEq macros Dom θ (X θ)

theorem solved {X : (Ext 2 → ℝ) → Fin 3 → ℝ} (hX : Equilibrium X) : Solved (jets macros) Dom X hot :=
  pack_solved ok dom_open hot_open hX (fun θ _ => pack_convex (dom_iff θ)) fun _ h _ hs => posHess _ h.1 hs

theorem equilibrium_exists : ∃ X, Equilibrium X := pack_choose fun θ h => (C61_ortho_oxide_unique θ h).exists

/-- Ordering states of the pure end members, as `pureOrder` finds them (ortho-oxide.c 559-622). -/
structure Ends where
  pb : (Ext 0 → ℝ) → Fin 1 → ℝ
  fe : (Ext 0 → ℝ) → Fin 1 → ℝ
  mg : (Ext 0 → ℝ) → Fin 1 → ℝ

/-- They are equilibrium states. -/
structure Ends.Ok (E : Ends) : Prop where
  pb : PurePseudobrookite.Equilibrium E.pb
  fe : PureFerropseudobrookite.Equilibrium E.fe
  mg : PureKarrooite.Equilibrium E.mg

/-- The end members in the order of `ends`: pseudobrookite, ferropseudobrookite, karrooite (ortho-oxide.c 773-1018). -/
def ends (E : Ends) : Fin 3 → ℝ → ℝ → Std :=
  ![PurePseudobrookite.std E.pb, PureFerropseudobrookite.std E.fe, PureKarrooite.std E.mg]

/-- The weights in `ENDMEMBERS`, ortho-oxide.c 1127. -/
def weight (r : Fin 2 → ℝ) : Fin 3 → ℝ := ![1 - r 0 - r 1, r 0, r 1]

/-- `DENDDR0, DENDDR1`, ortho-oxide.c 1129-1130. -/
def dweight : Fin 2 → Fin 3 → ℝ := ![![-1, 1, 0], ![-1, 0, 1]]

/-- The solution itself, before the end members are subtracted. -/
def whole (X : (Ext 2 → ℝ) → Fin 3 → ℝ) : Mix 2 := ordMix (jets macros) (fun y => (macros y).s) X

/-- `gmixOox, hmixOox, smixOox, cpmixOox, vmixOox`, ortho-oxide.c 2278-2930. -/
def mix (X : (Ext 2 → ℝ) → Fin 3 → ℝ) (E : Ends) : Mix 2 := lessEnds (whole X) weight dweight (ends E)

lemma weight_lin (r : Fin 2 → ℝ) (a : Fin 3) : weight r a = (![1, 0, 0] : Fin 3 → ℝ) a + ∑ j, dweight j a * r j := by
  fin_cases a <;> simp [weight, dweight, Fin.sum_univ_two] <;> ring

/-- **C24.** Ortho-oxide: every mixing property the file reports is the derivative it claims to be of the Gibbs energy at
equilibrium order less that of the ordered end members, above 482 K, at any pressure and any composition with all end
members present. -/
theorem C24_ortho_oxide {X : (Ext 2 → ℝ) → Fin 3 → ℝ} (hX : Equilibrium X) {E : Ends} (hE : E.Ok) :
    ConsistentOn (mix X E) Cond := by
  have h : ConsistentOn (whole X) Cond := C24_ordering (E := fun y => (macros y).s) ok (fun y _ => entropy_eq y) (solved hX)
  have h2 := C24_less_ends (Q := fun t _ => 482 < t) h (P := ends E) (w := weight) (d := dweight) (fun t p ht a => by
    fin_cases a
    · exact PurePseudobrookite.C24_pure_pseudobrookite hE.pb (lt_trans (by norm_num) ht)
    · exact PureFerropseudobrookite.C24_pure_ferropseudobrookite hE.fe (lt_trans (by norm_num) ht)
    · exact PureKarrooite.C24_pure_karrooite hE.mg (lt_trans (by norm_num) ht)) weight_lin
  have e : (fun t p r => Cond t p r ∧ 482 < t) = Cond := by
    funext t p r; exact propext ⟨fun h => h.1, fun h => ⟨h, h.1⟩⟩
  rw [e] at h2
  exact h2

/-- `FR0, FR1`, ortho-oxide.c 1113-1114. -/
def fr (r : Fin 2 → ℝ) (i : Fin 3) (j : Fin 2) : ℝ := if i = (![1, 2] : Fin 2 → Fin 3) j then 1 - r j else -r j

/-- `DFR0DR0, DFR1DR1`, ortho-oxide.c 1121-1122. -/
def dfr (_i : Fin 3) (_k : Fin 2) : ℝ := -1

/-- `GSS0, GSS1, GSS2`, ortho-oxide.c 1117-1119. -/
def gs (_r : Fin 2 → ℝ) (s : Fin 3 → ℝ) (i : Fin 3) (j : Fin 3) : ℝ := if i = j then 1 - s j else -s j

/-- `actOox`, first mask (`a[i]`), ortho-oxide.c 2170-2186. -/
def act (X : (Ext 2 → ℝ) → Fin 3 → ℝ) (E : Ends) (t p : ℝ) (r : Fin 2 → ℝ) (i : Fin 3) : ℝ := actE (whole X) (ends E) fr t p r i

/-- `actOox`, second mask (`mu[i]`), ortho-oxide.c 2188-2202. -/
def mu (X : (Ext 2 → ℝ) → Fin 3 → ℝ) (E : Ends) (t p : ℝ) (r : Fin 2 → ℝ) (i : Fin 3) : ℝ := muE (whole X) (ends E) fr t p r i

/-- **C24.** Ortho-oxide: activities are `exp(μ/RT)`. -/
theorem C24_ortho_oxide_activity (X : (Ext 2 → ℝ) → Fin 3 → ℝ) (E : Ends) (t p : ℝ) (ht : t ≠ 0) (r : Fin 2 → ℝ) (i : Fin 3) :
    R * t * Real.log (act X E t p r i) = mu X E t p r i := C24_ends_activity _ _ _ t p ht r i

/-- **C24.** Ortho-oxide: the reported composition derivatives of the activities are their derivatives. -/
theorem C24_ortho_oxide_activity_derivative {X : (Ext 2 → ℝ) → Fin 3 → ℝ} (hX : Equilibrium X) (E : Ends) {t p : ℝ}
    {r : Fin 2 → ℝ} (h : Cond t p r) (i : Fin 3) (k : Fin 2) :
    Magma.Thermo.Extensive.Partial (fun r => act X E t p r i) r k
      (dactE (jets macros) X (ends E) fr dfr gs t p r i k) := by
  refine C24_ends_activity_derivative (e := fun i j => if i = (![1, 2] : Fin 2 → Fin 3) j then 1 else 0) ok
    (fun y _ => entropy_eq y) (solved hX) (ends E) ?_ (fun _ _ => rfl) h i k
  intro r i j
  unfold fr
  split_ifs <;> ring

lemma fr_weight (r : Fin 2 → ℝ) (a b : Fin 3) : weight r b + ∑ j, fr r a j * dweight j b = if a = b then 1 else 0 := by
  fin_cases a <;> fin_cases b <;> simp [weight, dweight, fr, Fin.sum_univ_two] <;> ring

open Magma.Thermo.Compo in
lemma fr_eq (m : Fin 3 → ℝ) (h0 : ∑ i, m i ≠ 0) (i : Fin 3) (j : Fin 2) :
    (∑ i, m i) * Magma.Thermo.Compo.OrthoOxide.conv.dm m j i = fr (Magma.Thermo.Compo.OrthoOxide.conv.toR m) i j := by
  have ht : total m = ∑ i, m i := rfl
  have e1 : Magma.Thermo.Compo.OrthoOxide.conv.dm m j i = Magma.Thermo.Compo.OrthoOxide.dm m i j := rfl
  have e2 : Magma.Thermo.Compo.OrthoOxide.conv.toR m = Magma.Thermo.Compo.OrthoOxide.toR m := rfl
  rw [e1, e2]
  unfold Magma.Thermo.Compo.OrthoOxide.dm Magma.Thermo.Compo.OrthoOxide.toR fr
  simp only [ht, if_neg h0, if_pos h0]
  fin_cases j <;> fin_cases i <;> simp [h0] <;> field_simp

/-- **C24.** Ortho-oxide: the reported chemical potentials are the derivatives of the total Gibbs energy of mixing in the moles
of the end members. -/
theorem C24_ortho_oxide_potential {X : (Ext 2 → ℝ) → Fin 3 → ℝ} (hX : Equilibrium X) {E : Ends} (hE : E.Ok) (t p : ℝ)
    (m : Fin 3 → ℝ) (h0 : ∑ i, m i ≠ 0) (h : Cond t p (Magma.Thermo.Compo.OrthoOxide.conv.toR m)) (i : Fin 3) :
    Magma.Thermo.Extensive.Partial
      (fun m => (∑ i, m i) * (mix X E).g t p (Magma.Thermo.Compo.OrthoOxide.conv.toR m)) m i
      (mu X E t p (Magma.Thermo.Compo.OrthoOxide.conv.toR m) i) :=
  C24_ends_potential (C24_ortho_oxide hX hE) _ Magma.Thermo.Compo.C25_orthoOxide t p m h0 (fr_eq m h0) (fr_weight _) h i

/-- The hypotheses are met: one mole of each end member at 1400 K. -/
example : ∃ X, ∃ E : Ends, Equilibrium X ∧ E.Ok ∧ ∑ i, (![1, 1, 1] : Fin 3 → ℝ) i ≠ 0 ∧
    Cond 1400 1 (Magma.Thermo.Compo.OrthoOxide.conv.toR ![1, 1, 1]) := by
  obtain ⟨X, hX⟩ := equilibrium_exists
  obtain ⟨a, ha⟩ := PurePseudobrookite.equilibrium_exists
  obtain ⟨b, hb⟩ := PureFerropseudobrookite.equilibrium_exists
  obtain ⟨c, hc⟩ := PureKarrooite.equilibrium_exists
  have ht : Magma.Thermo.Compo.total (![1, 1, 1] : Fin 3 → ℝ) = 3 := by
    unfold Magma.Thermo.Compo.total; simp [Fin.sum_univ_three]; norm_num
  refine ⟨X, ⟨a, b, c⟩, hX, ⟨ha, hb, hc⟩, by simp [Fin.sum_univ_three]; norm_num, by norm_num, ?_⟩
  have e : Magma.Thermo.Compo.OrthoOxide.conv.toR (![1, 1, 1] : Fin 3 → ℝ) = ![1 / 3, 1 / 3] := by
    change Magma.Thermo.Compo.OrthoOxide.toR _ = _
    unfold Magma.Thermo.Compo.OrthoOxide.toR
    rw [ht, if_pos (by norm_num)]
    funext j; fin_cases j <;> simp
  rw [e]
  refine ⟨?_, ?_, ?_⟩ <;> simp only [Matrix.cons_val, Matrix.cons_val_zero, Matrix.cons_val_one] <;> norm_num

end

end Verif.Thermo.Ordering.OrthoOxide
