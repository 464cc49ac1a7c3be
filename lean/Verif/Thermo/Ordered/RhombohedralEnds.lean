import Verif.Thermo.Ordered.PureIlmenite
import Verif.Thermo.Ordered.PureGeikielite
import Verif.Thermo.Ordered.PurePyrophanite
import Verif.Thermo.Ordered.SpinelEnds
import Verif.Thermo.OrderSym
import Mathlib.Analysis.Complex.ExponentialBounds

/-!
The pure end members of rhombohedral.c that order: ilmenite, geikielite and pyrophanite. Their two cation sites are equivalent
when disordered, so that disorder always solves the equations and every ordered state has a mirror image. `pureOrder`
(rhombohedral.c 635-683) starts at 0.9 and keeps to positive order.
-/

namespace Verif.Thermo.Ordering

open Finset Filter Topology
open Magma.Thermo.Mixing (R R_pos)
open Verif.Thermo.StdState (Std Consistent)

noncomputable section

namespace Sym

lemma critical {θ : Ext 0 → ℝ} (h : 0 < θ iT ∧ θ iT < 2044) : 0 < R * θ iT ∧ R * θ iT < 17000 := by
  rw [R_val]; constructor <;> linarith [h.1, h.2]

/-- An ordering state of least energy, and it solves the equations. -/
lemma sym_exists {M : (Var 0 1 → ℝ) → Tables 0 1} {D : (Var 0 1 → ℝ) → Prop} (ok : (jets M).Ok D) (dom_open : IsOpen {y | D y})
    {θ : Ext 0 → ℝ} {T h K : ℝ} (hT : 0 < T) (hD : ∀ s : Fin 1 → ℝ, D (join (θ, s)) ↔ 0 < 1 + s 0 ∧ 0 < 1 - s 0)
    (hg : ∀ s : Fin 1 → ℝ, (M (join (θ, s))).g = Sym.energy T h (s 0) + K) :
    ∃ s, IsEq M D θ s ∧ ∀ s', D (join (θ, s')) → (M (join (θ, s))).g ≤ (M (join (θ, s'))).g := by
  have e0 : ∀ s : Fin 1 → ℝ, frac ((![1, 1] : Fin 2 → ℝ) 0) ((![![1], ![-1]] : Fin 2 → Fin 1 → ℝ) 0) s = 1 + s 0 := fun s => by simp [frac]
  have e1 : ∀ s : Fin 1 → ℝ, frac ((![1, 1] : Fin 2 → ℝ) 1) ((![![1], ![-1]] : Fin 2 → Fin 1 → ℝ) 1) s = 1 - s 0 := fun s => by
    simp [frac]; ring
  refine pack_exists (n := 2) (a := ![1, 1]) (b := ![![1], ![-1]]) (c := fun _ => T) (Q := fun s => K - h * s 0 ^ 2) (s0 := fun _ => 0)
    ok dom_open (fun s => ?_) (fun s _ => ?_) (fun _ => hT) (by fun_prop) (fun i => ?_) ?_
  · rw [hD]
    constructor
    · rintro ⟨h0, h1⟩ i
      fin_cases i
      · exact (e0 s).symm ▸ h0
      · exact (e1 s).symm ▸ h1
    · intro hi
      exact ⟨e0 s ▸ hi 0, e1 s ▸ hi 1⟩
  · rw [Fin.sum_univ_two, e0, e1, hg]
    unfold Sym.energy
    ring
  · fin_cases i <;> norm_num [frac]
  · refine (Metric.isBounded_closedBall (x := (0 : Fin 1 → ℝ)) (r := 1)).subset fun s hs => ?_
    rw [Metric.mem_closedBall, dist_zero_right]
    refine (pi_norm_le_iff_of_nonneg zero_le_one).mpr fun k => ?_
    have h0 := e0 s ▸ hs 0; have h1 := e1 s ▸ hs 1
    rw [Real.norm_eq_abs, abs_le]
    fin_cases k
    constructor <;> simp only [Fin.zero_eta] <;> linarith

lemma eps_small : dblEps ≤ 1 / 2 ^ 50 := by unfold dblEps; norm_num

/-- The limits on the iteration are beyond the ordered state. -/
lemma inside {t x : ℝ} (ht : 389 < t) (ht' : t < 2044) (hx : 0 < x ∧ x < 1) (sx : slope (R * t) 17000 x = 0) :
    dblEps ≤ x ∧ x ≤ 1 - dblEps := by
  have hT : 0 < R * t := by rw [R_val]; linarith
  have he := dblEps_pos
  have hs := eps_small
  have hs1 : dblEps ≤ 1 / 2 ^ 10 := hs.trans (by norm_num)
  constructor
  · by_contra q
    push Not at q
    -- the curvature at `x` would be negative
    have c := curvature hT hx.1 hx.2 sx
    have hx10 : x ≤ 1 / 2 ^ 50 := q.le.trans hs
    have e : 1 / (1 + x) + 1 / (1 - x) = 2 / (1 - x ^ 2) := by
      have : 1 - x ^ 2 = (1 + x) * (1 - x) := by ring
      have a : 1 + x ≠ 0 := by linarith [hx.1]
      have b : 1 - x ≠ 0 := by linarith [hx.2]
      rw [this]; field_simp; ring
    have hx2 : x ^ 2 ≤ 1 / 2 ^ 50 := by nlinarith [hx.1]
    have p : 0 < 1 - x ^ 2 := by linarith [show (1 : ℝ) / 2 ^ 50 < 1 / 2 by norm_num]
    rw [e, sub_pos, mul_div_assoc', lt_div_iff₀ p] at c
    have : R * t < 16995 := by rw [R_val]; linarith
    have h50 : (1 : ℝ) / 2 ^ 50 ≤ 1 / 10 ^ 5 := by norm_num
    nlinarith
  · by_contra q
    push Not at q
    have hy : 0 < 1 - dblEps := by linarith [show (1 : ℝ) / 2 ^ 10 < 1 by norm_num]
    have hy1 : 1 - dblEps < 1 := by linarith
    have n := slope_neg hT hy q hx.2 sx
    unfold slope at n
    have l1 : 0 ≤ Real.log (1 + (1 - dblEps)) := Real.log_nonneg (by linarith [show (1 : ℝ) / 2 ^ 10 < 1 by norm_num])
    have l2 : Real.log (1 - (1 - dblEps)) = -(52 * Real.log 2) := by
      rw [sub_sub_cancel]
      unfold dblEps
      rw [Real.log_zpow]
      push_cast
      ring
    have l3 := Real.log_two_gt_d9
    have hRt : 3234 < R * t := by rw [R_val]; linarith
    rw [l2] at n
    have : 3234 * (52 * 0.6931471803) ≤ R * t * (Real.log (1 + (1 - dblEps)) - -(52 * Real.log 2)) := by
      refine mul_le_mul hRt.le (by linarith) (by norm_num) (by linarith)
    nlinarith

/-- The iteration from 0.9 converges to the ordered state. -/
lemma sym_newton {θ : Ext 0 → ℝ} (h : 0 < θ iT ∧ θ iT < 2044) (hl : 389 < θ iT) {x : ℝ} (hx : 0 < x ∧ x < 1)
    (sx : slope (R * θ iT) 17000 x = 0) : Tendsto (fun n => (newton (R * θ iT) 17000 dblEps)^[n] 0.9) atTop (𝓝 x) := by
  obtain ⟨i1, i2⟩ := inside hl h.2 hx sx
  refine newton_tendsto (critical h).1 dblEps_pos hx.1 i1 i2 sx ⟨by norm_num, by norm_num⟩ ?_
  unfold curv
  rw [R_val]
  norm_num
  linarith

lemma sym_stops {f : ℝ → ℝ} {x y : ℝ} (l : Tendsto (fun n => f^[n] y) atTop (𝓝 x)) : ∃ n, |f^[n + 1] y - f^[n] y| ≤ 10 * dblEps := by
  have d : Tendsto (fun n => f^[n + 1] y - f^[n] y) atTop (𝓝 0) := by
    have := ((tendsto_add_atTop_iff_nat 1).mpr l).sub l
    simpa using this
  have := d.eventually (Metric.ball_mem_nhds (0 : ℝ) (by have := dblEps_pos; positivity : 0 < 10 * dblEps))
  obtain ⟨n, hn⟩ := this.exists
  refine ⟨n, ?_⟩
  have hn' : dist (f^[n + 1] y - f^[n] y) 0 < 10 * dblEps := hn
  rw [Real.dist_eq, sub_zero] at hn'
  exact hn'.le

/-- Below 388 K it does not. -/
lemma sym_lost {t : ℝ} (h : 0 < t) (hl : t < 388) {x : ℝ} (hx : 0 < x ∧ x < 1) (sx : slope (R * t) 17000 x = 0) (n : ℕ) :
    (newton (R * t) 17000 dblEps)^[n] 0.9 ≤ 0.9 ∧ 0.9 < x := by
  have hT : 0 < R * t := mul_pos R_pos h
  have hs := eps_small
  have := newton_lost (e := dblEps) (y := 0.9) hT hx.1 hx.2 sx dblEps_pos (hs.trans (by norm_num)) (by norm_num) (by
    unfold curv
    rw [R_val]
    norm_num
    linarith) n
  exact this.2

end Sym

open Sym (critical sym_exists sym_newton sym_stops sym_lost)

namespace PureIlmenite

lemma g_eq (t s0 : ℝ) : G t s0 = Sym.energy (R * t) 17000 s0 + (17000 - 2 * (R * t) * Real.log 2) := by
  unfold G H S hil Sym.energy; ring

lemma dgds_eq (t s0 : ℝ) : DGDS0 t s0 = Sym.slope (R * t) 17000 s0 := by unfold DGDS0 hil Sym.slope; ring

lemma d2gds2_eq (t s0 : ℝ) : D2GDS0S0 t s0 = Sym.curv (R * t) 17000 s0 := by unfold D2GDS0S0 hil Sym.curv; ring

lemma isEq_iff (θ : Ext 0 → ℝ) (s : Fin 1 → ℝ) :
    IsEq macros Dom θ s ↔ (-1 < s 0 ∧ s 0 < 1) ∧ Sym.slope (R * θ iT) 17000 (s 0) = 0 := by
  have e : (macros (join (θ, s))).dgds 0 = Sym.slope (R * θ iT) 17000 (s 0) := dgds_eq _ _
  constructor
  · rintro ⟨⟨h0, h1⟩, h⟩
    simp only [join, Sum.elim_inr] at h0 h1
    exact ⟨⟨by linarith, by linarith⟩, e ▸ h 0⟩
  · rintro ⟨⟨h0, h1⟩, h⟩
    refine ⟨⟨?_, ?_⟩, fun k => ?_⟩
    · simp only [join, Sum.elim_inr]; linarith
    · simp only [join, Sum.elim_inr]; linarith
    · fin_cases k; exact e.trans h

/-- The temperatures below the critical temperature of the convergent ordering (17000/R, 2044.67 K). -/
def hot : Set (Ext 0 → ℝ) := {θ | 0 < θ iT ∧ θ iT < 2044}

lemma hot_open : IsOpen hot := (isOpen_lt continuous_const (continuous_apply _)).inter (isOpen_lt (continuous_apply _) continuous_const)

/-- **C61.** Pure ilmenite (FeTiO3): below 2044 K and at any pressure exactly one ordering state is positively ordered and
solves the equations of `pureOrder`, and it has the lowest energy of all. -/
theorem C61_pure_ilmenite_unique (θ : Ext 0 → ℝ) (h : θ ∈ hot) :
    ∃! s : Fin 1 → ℝ, (IsEq macros Dom θ s ∧ 0 < s 0) ∧
      ∀ s', Dom (join (θ, s')) → (macros (join (θ, s))).g ≤ (macros (join (θ, s'))).g := by
  have hc := critical h
  have g_at : ∀ s : Fin 1 → ℝ, (macros (join (θ, s))).g = Sym.energy (R * θ iT) 17000 (s 0) + (17000 - 2 * (R * θ iT) * Real.log 2) :=
    fun s => g_eq _ _
  obtain ⟨s, hs, hm⟩ := sym_exists ok dom_open (θ := θ) (K := 17000 - 2 * (R * θ iT) * Real.log 2) hc.1 (fun s => by
      constructor
      · rintro ⟨h0, h1⟩
        simp only [join, Sum.elim_inr] at h0 h1
        exact ⟨by linarith, by linarith⟩
      · rintro ⟨h0, h1⟩
        exact ⟨by simp only [join, Sum.elim_inr]; linarith, by simp only [join, Sum.elim_inr]; linarith⟩) g_at
  have hs' := (isEq_iff θ s).mp hs
  have ne : s 0 ≠ 0 := by
    intro e
    obtain ⟨x, x0, x1, hx⟩ := Sym.disorder hc.1 hc.2
    have := hm (fun _ => x) ⟨by simp only [join, Sum.elim_inr]; linarith, by simp only [join, Sum.elim_inr]; linarith⟩
    rw [g_at, g_at, e] at this
    linarith
  have pos : ∃ s : Fin 1 → ℝ, (IsEq macros Dom θ s ∧ 0 < s 0) ∧
      ∀ s', Dom (join (θ, s')) → (macros (join (θ, s))).g ≤ (macros (join (θ, s'))).g := by
    rcases lt_or_gt_of_ne ne with q | q
    · refine ⟨-s, ⟨(isEq_iff θ _).mpr ⟨⟨?_, ?_⟩, ?_⟩, ?_⟩, fun s' h' => ?_⟩
      · rw [Pi.neg_apply]; linarith [hs'.1.2]
      · rw [Pi.neg_apply]; linarith [hs'.1.1]
      · rw [Pi.neg_apply, Sym.slope_odd, hs'.2, neg_zero]
      · rw [Pi.neg_apply]; linarith
      · refine le_trans (le_of_eq ?_) (hm s' h')
        rw [g_at, g_at, Pi.neg_apply, Sym.energy_even]
    · exact ⟨s, ⟨hs, q⟩, hm⟩
  obtain ⟨s, hs, hm⟩ := pos
  refine ⟨s, ⟨hs, hm⟩, fun s' h' => ?_⟩
  have a := (isEq_iff θ s).mp hs.1
  have b := (isEq_iff θ s').mp h'.1.1
  funext k
  fin_cases k
  exact Sym.unique hc.1 ⟨h'.1.2, b.1.2⟩ ⟨hs.2, a.1.2⟩ b.2 a.2

/-- **C61.** Pure ilmenite: below 2044 K the equations of `pureOrder` have exactly three solutions, disorder and two mirror images;
disorder has more energy than the other two, which have the same. -/
theorem C61_pure_ilmenite_states (θ : Ext 0 → ℝ) (h : θ ∈ hot) : ∃ x : ℝ, 0 < x ∧
    (∀ s : Fin 1 → ℝ, IsEq macros Dom θ s ↔ s 0 = 0 ∨ s 0 = x ∨ s 0 = -x) ∧
    (macros (join (θ, fun _ => -x))).g = (macros (join (θ, fun _ => x))).g ∧
    (macros (join (θ, fun _ => x))).g < (macros (join (θ, fun _ => 0))).g := by
  have hc := critical h
  obtain ⟨s, ⟨hs, hm⟩, -⟩ := C61_pure_ilmenite_unique θ h
  have a := (isEq_iff θ s).mp hs.1
  have g_at : ∀ s : Fin 1 → ℝ, (macros (join (θ, s))).g = Sym.energy (R * θ iT) 17000 (s 0) + (17000 - 2 * (R * θ iT) * Real.log 2) :=
    fun s => g_eq _ _
  refine ⟨s 0, hs.2, fun s' => ?_, ?_, ?_⟩
  · rw [isEq_iff]
    constructor
    · rintro ⟨b1, b2⟩
      rcases lt_trichotomy (s' 0) 0 with q | q | q
      · right; right
        have := Sym.unique hc.1 (a := -s' 0) (b := s 0) ⟨by linarith, by linarith [b1.1]⟩ ⟨hs.2, a.1.2⟩ (by rw [Sym.slope_odd, b2, neg_zero]) a.2
        linarith
      · exact Or.inl q
      · exact Or.inr (Or.inl (Sym.unique hc.1 ⟨q, b1.2⟩ ⟨hs.2, a.1.2⟩ b2 a.2))
    · rintro (q | q | q)
      · rw [q]; exact ⟨⟨by norm_num, by norm_num⟩, Sym.slope_zero _ _⟩
      · rw [q]; exact a
      · rw [q, Sym.slope_odd, a.2]; exact ⟨⟨by linarith [a.1.2], by linarith [hs.2]⟩, neg_zero⟩
  · rw [g_at, g_at, Sym.energy_even]
  · obtain ⟨x, x0, x1, hx⟩ := Sym.disorder hc.1 hc.2
    have := hm (fun _ => x) ⟨by simp only [join, Sum.elim_inr]; linarith, by simp only [join, Sum.elim_inr]; linarith⟩
    rw [g_at, g_at] at this
    rw [g_at, g_at]
    linarith

/-- **C61.** Pure ilmenite: above 2045 K it is disordered, at any pressure. -/
theorem C61_pure_ilmenite_disordered (θ : Ext 0 → ℝ) (h : 2045 < θ iT) (s : Fin 1 → ℝ) : IsEq macros Dom θ s ↔ s 0 = 0 := by
  have hT : 17000 < R * θ iT := by rw [R_val]; linarith
  rw [isEq_iff]
  constructor
  · rintro ⟨b1, b2⟩
    exact Sym.only_disorder hT (by linarith) b1 b2
  · intro q
    rw [q]; exact ⟨⟨by norm_num, by norm_num⟩, Sym.slope_zero _ _⟩

/-- One pass of the loop of `pureOrder` for ilmenite (rhombohedral.c 662-679): a Newton step, kept between `DBL_EPSILON` and
`1 - DBL_EPSILON`. -/
def step (t s0 : ℝ) : ℝ := max (min (s0 + -(DGDS0 t s0 / D2GDS0S0 t s0)) (1 - dblEps)) dblEps

lemma step_eq (t : ℝ) : step t = Sym.newton (R * t) 17000 dblEps := by
  funext s0
  unfold step Sym.newton
  rw [dgds_eq, d2gds2_eq, ← sub_eq_add_neg]

/-- **C61.** Pure ilmenite: between 389 and 2044 K the iteration of `pureOrder`, started at 0.9 (rhombohedral.c 653), converges to the
positively ordered state, so that it stops (in exact arithmetic, without the limit on its passes). -/
theorem C61_pure_ilmenite_converges {θ : Ext 0 → ℝ} (h : θ ∈ hot) (hl : 389 < θ iT) {s : Fin 1 → ℝ} (hs : IsEq macros Dom θ s) (h0 : 0 < s 0) :
    Tendsto (fun n => (step (θ iT))^[n] 0.9) atTop (𝓝 (s 0)) ∧
    ∃ n, |(step (θ iT))^[n + 1] 0.9 - (step (θ iT))^[n] 0.9| ≤ 10 * dblEps := by
  have a := (isEq_iff θ s).mp hs
  have l := sym_newton h hl ⟨h0, a.1.2⟩ a.2
  rw [step_eq]
  exact ⟨l, sym_stops l⟩

/-- **C61.** Pure ilmenite: below 388 K it never comes near: it stays below 0.9, where it started, and the ordered state is beyond. -/
theorem C61_pure_ilmenite_lost {θ : Ext 0 → ℝ} (h : 0 < θ iT) (hl : θ iT < 388) {s : Fin 1 → ℝ} (hs : IsEq macros Dom θ s) (h0 : 0 < s 0)
    (n : ℕ) : (step (θ iT))^[n] 0.9 ≤ 0.9 ∧ 0.9 < s 0 := by
  have a := (isEq_iff θ s).mp hs
  rw [step_eq]
  exact sym_lost h hl ⟨h0, a.1.2⟩ a.2 n

/-- `X` gives the ordered equilibrium state of pure ilmenite at every temperature and pressure of the range. -/
def Equilibrium (X : (Ext 0 → ℝ) → Fin 1 → ℝ) : Prop := ∀ θ ∈ hot, IsEq macros Dom θ (X θ) ∧ 0 < X θ 0

theorem equilibrium_exists : ∃ X, Equilibrium X := by
  classical
  have h' : ∀ θ : Ext 0 → ℝ, ∃ s : Fin 1 → ℝ, θ ∈ hot → IsEq macros Dom θ s ∧ 0 < s 0 := by
    intro θ
    by_cases hθ : θ ∈ hot
    · obtain ⟨s, hs⟩ := (C61_pure_ilmenite_unique θ hθ).exists
      exact ⟨s, fun _ => hs.1⟩
    · exact ⟨0, fun hh => absurd hh hθ⟩
  choose X hX using h'
  exact ⟨X, hX⟩

/-- Inside the bounds, and positively ordered. -/
def Dom' (y : Var 0 1 → ℝ) : Prop := Dom y ∧ 0 < y (.inr 0)

lemma dom'_open : IsOpen {y | Dom' y} := dom_open.inter (isOpen_lt continuous_const (continuous_apply _))

theorem ok' : (jets macros).Ok Dom' :=
  ⟨fun x h => ok.d1 x h.1, fun x h => ok.d2 x h.1, fun x h => ok.d3 x h.1, fun x h => ok.sym2 x h.1, fun x h => ok.sym3 x h.1⟩

theorem solved {X : (Ext 0 → ℝ) → Fin 1 → ℝ} (hX : Equilibrium X) : Solved (jets macros) Dom' X hot := by
  refine solved_of_unique ok' dom'_open hot_open (fun θ h => ⟨(hX θ h).1.1, (hX θ h).2⟩) (fun θ h => (hX θ h).1.2)
    (fun θ h => ?_) fun θ h s hd hst => ?_
  · have hc := critical h
    have a := (isEq_iff θ (X θ)).mp (hX θ h).1
    refine (posHess_one (J := jets macros) (x := pt X θ) ?_).regular
    have : (jets macros).g2 (pt X θ) (.inr 0) (.inr 0) = Sym.curv (R * θ iT) 17000 (X θ 0) := d2gds2_eq _ _
    rw [this]
    exact Sym.curvature hc.1 (hX θ h).2 a.1.2 a.2
  · have hc := critical h
    have a := (isEq_iff θ (X θ)).mp (hX θ h).1
    have b := (isEq_iff θ s).mp ⟨hd.1, hst⟩
    funext k
    fin_cases k
    exact Sym.unique hc.1 ⟨hd.2, b.1.2⟩ ⟨(hX θ h).2, a.1.2⟩ b.2 a.2

/-- The properties of pure ilmenite that `pureRhm` (rhombohedral.c 887-1150) computes. -/
def std (X : (Ext 0 → ℝ) → Fin 1 → ℝ) : ℝ → ℝ → Std := pureStd (jets macros) (fun y => (macros y).s) X

/-- **C24.** Pure ilmenite: what `pureRhm` computes are the derivatives of the Gibbs energy at equilibrium order. -/
theorem C24_pure_ilmenite {X : (Ext 0 → ℝ) → Fin 1 → ℝ} (hX : Equilibrium X) {t p : ℝ} (ht : 0 < t) (ht' : t < 2044) :
    Consistent (std X) t p :=
  pureStd_consistent ok' (fun y _ => entropy_eq y) (solved hX) ht.ne' (show env ![] t p ∈ hot from ⟨ht, ht'⟩)

/-- Non-vacuity: there is such a function, and 1200 K is in the range. -/
example : (∃ X, Equilibrium X) ∧ env ![] 1200 1 ∈ hot :=
  ⟨equilibrium_exists, show (0 : ℝ) < 1200 ∧ (1200 : ℝ) < 2044 by norm_num⟩

end PureIlmenite

namespace PureGeikielite

lemma g_eq (t s0 : ℝ) : G t s0 = Sym.energy (R * t) 17000 s0 + (17000 - 2 * (R * t) * Real.log 2) := by
  unfold G H S hgk Sym.energy; ring

lemma dgds_eq (t s0 : ℝ) : DGDS0 t s0 = Sym.slope (R * t) 17000 s0 := by unfold DGDS0 hgk Sym.slope; ring

lemma d2gds2_eq (t s0 : ℝ) : D2GDS0S0 t s0 = Sym.curv (R * t) 17000 s0 := by unfold D2GDS0S0 hgk Sym.curv; ring

lemma isEq_iff (θ : Ext 0 → ℝ) (s : Fin 1 → ℝ) :
    IsEq macros Dom θ s ↔ (-1 < s 0 ∧ s 0 < 1) ∧ Sym.slope (R * θ iT) 17000 (s 0) = 0 := by
  have e : (macros (join (θ, s))).dgds 0 = Sym.slope (R * θ iT) 17000 (s 0) := dgds_eq _ _
  constructor
  · rintro ⟨⟨h0, h1⟩, h⟩
    simp only [join, Sum.elim_inr] at h0 h1
    exact ⟨⟨by linarith, by linarith⟩, e ▸ h 0⟩
  · rintro ⟨⟨h0, h1⟩, h⟩
    refine ⟨⟨?_, ?_⟩, fun k => ?_⟩
    · simp only [join, Sum.elim_inr]; linarith
    · simp only [join, Sum.elim_inr]; linarith
    · fin_cases k; exact e.trans h

/-- The temperatures below the critical temperature of the convergent ordering (17000/R, 2044.67 K). -/
def hot : Set (Ext 0 → ℝ) := {θ | 0 < θ iT ∧ θ iT < 2044}

lemma hot_open : IsOpen hot := (isOpen_lt continuous_const (continuous_apply _)).inter (isOpen_lt (continuous_apply _) continuous_const)

/-- **C61.** Pure geikielite (MgTiO3): below 2044 K and at any pressure exactly one ordering state is positively ordered and
solves the equations of `pureOrder`, and it has the lowest energy of all. -/
theorem C61_pure_geikielite_unique (θ : Ext 0 → ℝ) (h : θ ∈ hot) :
    ∃! s : Fin 1 → ℝ, (IsEq macros Dom θ s ∧ 0 < s 0) ∧
      ∀ s', Dom (join (θ, s')) → (macros (join (θ, s))).g ≤ (macros (join (θ, s'))).g := by
  have hc := critical h
  have g_at : ∀ s : Fin 1 → ℝ, (macros (join (θ, s))).g = Sym.energy (R * θ iT) 17000 (s 0) + (17000 - 2 * (R * θ iT) * Real.log 2) :=
    fun s => g_eq _ _
  obtain ⟨s, hs, hm⟩ := sym_exists ok dom_open (θ := θ) (K := 17000 - 2 * (R * θ iT) * Real.log 2) hc.1 (fun s => by
      constructor
      · rintro ⟨h0, h1⟩
        simp only [join, Sum.elim_inr] at h0 h1
        exact ⟨by linarith, by linarith⟩
      · rintro ⟨h0, h1⟩
        exact ⟨by simp only [join, Sum.elim_inr]; linarith, by simp only [join, Sum.elim_inr]; linarith⟩) g_at
  have hs' := (isEq_iff θ s).mp hs
  have ne : s 0 ≠ 0 := by
    intro e
    obtain ⟨x, x0, x1, hx⟩ := Sym.disorder hc.1 hc.2
    have := hm (fun _ => x) ⟨by simp only [join, Sum.elim_inr]; linarith, by simp only [join, Sum.elim_inr]; linarith⟩
    rw [g_at, g_at, e] at this
    linarith
  have pos : ∃ s : Fin 1 → ℝ, (IsEq macros Dom θ s ∧ 0 < s 0) ∧
      ∀ s', Dom (join (θ, s')) → (macros (join (θ, s))).g ≤ (macros (join (θ, s'))).g := by
    rcases lt_or_gt_of_ne ne with q | q
    · refine ⟨-s, ⟨(isEq_iff θ _).mpr ⟨⟨?_, ?_⟩, ?_⟩, ?_⟩, fun s' h' => ?_⟩
      · rw [Pi.neg_apply]; linarith [hs'.1.2]
      · rw [Pi.neg_apply]; linarith [hs'.1.1]
      · rw [Pi.neg_apply, Sym.slope_odd, hs'.2, neg_zero]
      · rw [Pi.neg_apply]; linarith
      · refine le_trans (le_of_eq ?_) (hm s' h')
        rw [g_at, g_at, Pi.neg_apply, Sym.energy_even]
    · exact ⟨s, ⟨hs, q⟩, hm⟩
  obtain ⟨s, hs, hm⟩ := pos
  refine ⟨s, ⟨hs, hm⟩, fun s' h' => ?_⟩
  have a := (isEq_iff θ s).mp hs.1
  have b := (isEq_iff θ s').mp h'.1.1
  funext k
  fin_cases k
  exact Sym.unique hc.1 ⟨h'.1.2, b.1.2⟩ ⟨hs.2, a.1.2⟩ b.2 a.2

/-- **C61.** Pure geikielite: below 2044 K the equations of `pureOrder` have exactly three solutions, disorder and two mirror images;
disorder has more energy than the other two, which have the same. -/
theorem C61_pure_geikielite_states (θ : Ext 0 → ℝ) (h : θ ∈ hot) : ∃ x : ℝ, 0 < x ∧
    (∀ s : Fin 1 → ℝ, IsEq macros Dom θ s ↔ s 0 = 0 ∨ s 0 = x ∨ s 0 = -x) ∧
    (macros (join (θ, fun _ => -x))).g = (macros (join (θ, fun _ => x))).g ∧
    (macros (join (θ, fun _ => x))).g < (macros (join (θ, fun _ => 0))).g := by
  have hc := critical h
  obtain ⟨s, ⟨hs, hm⟩, -⟩ := C61_pure_geikielite_unique θ h
  have a := (isEq_iff θ s).mp hs.1
  have g_at : ∀ s : Fin 1 → ℝ, (macros (join (θ, s))).g = Sym.energy (R * θ iT) 17000 (s 0) + (17000 - 2 * (R * θ iT) * Real.log 2) :=
    fun s => g_eq _ _
  refine ⟨s 0, hs.2, fun s' => ?_, ?_, ?_⟩
  · rw [isEq_iff]
    constructor
    · rintro ⟨b1, b2⟩
      rcases lt_trichotomy (s' 0) 0 with q | q | q
      · right; right
        have := Sym.unique hc.1 (a := -s' 0) (b := s 0) ⟨by linarith, by linarith [b1.1]⟩ ⟨hs.2, a.1.2⟩ (by rw [Sym.slope_odd, b2, neg_zero]) a.2
        linarith
      · exact Or.inl q
      · exact Or.inr (Or.inl (Sym.unique hc.1 ⟨q, b1.2⟩ ⟨hs.2, a.1.2⟩ b2 a.2))
    · rintro (q | q | q)
      · rw [q]; exact ⟨⟨by norm_num, by norm_num⟩, Sym.slope_zero _ _⟩
      · rw [q]; exact a
      · rw [q, Sym.slope_odd, a.2]; exact ⟨⟨by linarith [a.1.2], by linarith [hs.2]⟩, neg_zero⟩
  · rw [g_at, g_at, Sym.energy_even]
  · obtain ⟨x, x0, x1, hx⟩ := Sym.disorder hc.1 hc.2
    have := hm (fun _ => x) ⟨by simp only [join, Sum.elim_inr]; linarith, by simp only [join, Sum.elim_inr]; linarith⟩
    rw [g_at, g_at] at this
    rw [g_at, g_at]
    linarith

/-- **C61.** Pure geikielite: above 2045 K it is disordered, at any pressure. -/
theorem C61_pure_geikielite_disordered (θ : Ext 0 → ℝ) (h : 2045 < θ iT) (s : Fin 1 → ℝ) : IsEq macros Dom θ s ↔ s 0 = 0 := by
  have hT : 17000 < R * θ iT := by rw [R_val]; linarith
  rw [isEq_iff]
  constructor
  · rintro ⟨b1, b2⟩
    exact Sym.only_disorder hT (by linarith) b1 b2
  · intro q
    rw [q]; exact ⟨⟨by norm_num, by norm_num⟩, Sym.slope_zero _ _⟩

/-- One pass of the loop of `pureOrder` for geikielite (rhombohedral.c 662-679): a Newton step, kept between `DBL_EPSILON` and
`1 - DBL_EPSILON`. -/
def step (t s0 : ℝ) : ℝ := max (min (s0 + -(DGDS0 t s0 / D2GDS0S0 t s0)) (1 - dblEps)) dblEps

lemma step_eq (t : ℝ) : step t = Sym.newton (R * t) 17000 dblEps := by
  funext s0
  unfold step Sym.newton
  rw [dgds_eq, d2gds2_eq, ← sub_eq_add_neg]

/-- **C61.** Pure geikielite: between 389 and 2044 K the iteration of `pureOrder`, started at 0.9 (rhombohedral.c 653), converges to the
positively ordered state, so that it stops (in exact arithmetic, without the limit on its passes). -/
theorem C61_pure_geikielite_converges {θ : Ext 0 → ℝ} (h : θ ∈ hot) (hl : 389 < θ iT) {s : Fin 1 → ℝ} (hs : IsEq macros Dom θ s) (h0 : 0 < s 0) :
    Tendsto (fun n => (step (θ iT))^[n] 0.9) atTop (𝓝 (s 0)) ∧
    ∃ n, |(step (θ iT))^[n + 1] 0.9 - (step (θ iT))^[n] 0.9| ≤ 10 * dblEps := by
  have a := (isEq_iff θ s).mp hs
  have l := sym_newton h hl ⟨h0, a.1.2⟩ a.2
  rw [step_eq]
  exact ⟨l, sym_stops l⟩

/-- **C61.** Pure geikielite: below 388 K it never comes near: it stays below 0.9, where it started, and the ordered state is beyond. -/
theorem C61_pure_geikielite_lost {θ : Ext 0 → ℝ} (h : 0 < θ iT) (hl : θ iT < 388) {s : Fin 1 → ℝ} (hs : IsEq macros Dom θ s) (h0 : 0 < s 0)
    (n : ℕ) : (step (θ iT))^[n] 0.9 ≤ 0.9 ∧ 0.9 < s 0 := by
  have a := (isEq_iff θ s).mp hs
  rw [step_eq]
  exact sym_lost h hl ⟨h0, a.1.2⟩ a.2 n

/-- `X` gives the ordered equilibrium state of pure geikielite at every temperature and pressure of the range. -/
def Equilibrium (X : (Ext 0 → ℝ) → Fin 1 → ℝ) : Prop := ∀ θ ∈ hot, IsEq macros Dom θ (X θ) ∧ 0 < X θ 0

theorem equilibrium_exists : ∃ X, Equilibrium X := by
  classical
  have h' : ∀ θ : Ext 0 → ℝ, ∃ s : Fin 1 → ℝ, θ ∈ hot → IsEq macros Dom θ s ∧ 0 < s 0 := by
    intro θ
    by_cases hθ : θ ∈ hot
    · obtain ⟨s, hs⟩ := (C61_pure_geikielite_unique θ hθ).exists
      exact ⟨s, fun _ => hs.1⟩
    · exact ⟨0, fun hh => absurd hh hθ⟩
  choose X hX using h'
  exact ⟨X, hX⟩

/-- Inside the bounds, and positively ordered. -/
def Dom' (y : Var 0 1 → ℝ) : Prop := Dom y ∧ 0 < y (.inr 0)

lemma dom'_open : IsOpen {y | Dom' y} := dom_open.inter (isOpen_lt continuous_const (continuous_apply _))

theorem ok' : (jets macros).Ok Dom' :=
  ⟨fun x h => ok.d1 x h.1, fun x h => ok.d2 x h.1, fun x h => ok.d3 x h.1, fun x h => ok.sym2 x h.1, fun x h => ok.sym3 x h.1⟩

theorem solved {X : (Ext 0 → ℝ) → Fin 1 → ℝ} (hX : Equilibrium X) : Solved (jets macros) Dom' X hot := by
  refine solved_of_unique ok' dom'_open hot_open (fun θ h => ⟨(hX θ h).1.1, (hX θ h).2⟩) (fun θ h => (hX θ h).1.2)
    (fun θ h => ?_) fun θ h s hd hst => ?_
  · have hc := critical h
    have a := (isEq_iff θ (X θ)).mp (hX θ h).1
    refine (posHess_one (J := jets macros) (x := pt X θ) ?_).regular
    have : (jets macros).g2 (pt X θ) (.inr 0) (.inr 0) = Sym.curv (R * θ iT) 17000 (X θ 0) := d2gds2_eq _ _
    rw [this]
    exact Sym.curvature hc.1 (hX θ h).2 a.1.2 a.2
  · have hc := critical h
    have a := (isEq_iff θ (X θ)).mp (hX θ h).1
    have b := (isEq_iff θ s).mp ⟨hd.1, hst⟩
    funext k
    fin_cases k
    exact Sym.unique hc.1 ⟨hd.2, b.1.2⟩ ⟨(hX θ h).2, a.1.2⟩ b.2 a.2

/-- The properties of pure geikielite that `pureRhm` (rhombohedral.c 887-1150) computes. -/
def std (X : (Ext 0 → ℝ) → Fin 1 → ℝ) : ℝ → ℝ → Std := pureStd (jets macros) (fun y => (macros y).s) X

/-- **C24.** Pure geikielite: what `pureRhm` computes are the derivatives of the Gibbs energy at equilibrium order. -/
theorem C24_pure_geikielite {X : (Ext 0 → ℝ) → Fin 1 → ℝ} (hX : Equilibrium X) {t p : ℝ} (ht : 0 < t) (ht' : t < 2044) :
    Consistent (std X) t p :=
  pureStd_consistent ok' (fun y _ => entropy_eq y) (solved hX) ht.ne' (show env ![] t p ∈ hot from ⟨ht, ht'⟩)

/-- Non-vacuity: there is such a function, and 1200 K is in the range. -/
example : (∃ X, Equilibrium X) ∧ env ![] 1200 1 ∈ hot :=
  ⟨equilibrium_exists, show (0 : ℝ) < 1200 ∧ (1200 : ℝ) < 2044 by norm_num⟩

end PureGeikielite

namespace PurePyrophanite

lemma g_eq (t s0 : ℝ) : G t s0 = Sym.energy (R * t) 17000 s0 + (17000 - 2 * (R * t) * Real.log 2) := by
  unfold G H S hpy Sym.energy; ring

lemma dgds_eq (t s0 : ℝ) : DGDS0 t s0 = Sym.slope (R * t) 17000 s0 := by unfold DGDS0 hpy Sym.slope; ring

lemma d2gds2_eq (t s0 : ℝ) : D2GDS0S0 t s0 = Sym.curv (R * t) 17000 s0 := by unfold D2GDS0S0 hpy Sym.curv; ring

lemma isEq_iff (θ : Ext 0 → ℝ) (s : Fin 1 → ℝ) :
    IsEq macros Dom θ s ↔ (-1 < s 0 ∧ s 0 < 1) ∧ Sym.slope (R * θ iT) 17000 (s 0) = 0 := by
  have e : (macros (join (θ, s))).dgds 0 = Sym.slope (R * θ iT) 17000 (s 0) := dgds_eq _ _
  constructor
  · rintro ⟨⟨h0, h1⟩, h⟩
    simp only [join, Sum.elim_inr] at h0 h1
    exact ⟨⟨by linarith, by linarith⟩, e ▸ h 0⟩
  · rintro ⟨⟨h0, h1⟩, h⟩
    refine ⟨⟨?_, ?_⟩, fun k => ?_⟩
    · simp only [join, Sum.elim_inr]; linarith
    · simp only [join, Sum.elim_inr]; linarith
    · fin_cases k; exact e.trans h

/-- The temperatures below the critical temperature of the convergent ordering (17000/R, 2044.67 K). -/
def hot : Set (Ext 0 → ℝ) := {θ | 0 < θ iT ∧ θ iT < 2044}

lemma hot_open : IsOpen hot := (isOpen_lt continuous_const (continuous_apply _)).inter (isOpen_lt (continuous_apply _) continuous_const)

/-- **C61.** Pure pyrophanite (MnTiO3): below 2044 K and at any pressure exactly one ordering state is positively ordered and
solves the equations of `pureOrder`, and it has the lowest energy of all. -/
theorem C61_pure_pyrophanite_unique (θ : Ext 0 → ℝ) (h : θ ∈ hot) :
    ∃! s : Fin 1 → ℝ, (IsEq macros Dom θ s ∧ 0 < s 0) ∧
      ∀ s', Dom (join (θ, s')) → (macros (join (θ, s))).g ≤ (macros (join (θ, s'))).g := by
  have hc := critical h
  have g_at : ∀ s : Fin 1 → ℝ, (macros (join (θ, s))).g = Sym.energy (R * θ iT) 17000 (s 0) + (17000 - 2 * (R * θ iT) * Real.log 2) :=
    fun s => g_eq _ _
  obtain ⟨s, hs, hm⟩ := sym_exists ok dom_open (θ := θ) (K := 17000 - 2 * (R * θ iT) * Real.log 2) hc.1 (fun s => by
      constructor
      · rintro ⟨h0, h1⟩
        simp only [join, Sum.elim_inr] at h0 h1
        exact ⟨by linarith, by linarith⟩
      · rintro ⟨h0, h1⟩
        exact ⟨by simp only [join, Sum.elim_inr]; linarith, by simp only [join, Sum.elim_inr]; linarith⟩) g_at
  have hs' := (isEq_iff θ s).mp hs
  have ne : s 0 ≠ 0 := by
    intro e
    obtain ⟨x, x0, x1, hx⟩ := Sym.disorder hc.1 hc.2
    have := hm (fun _ => x) ⟨by simp only [join, Sum.elim_inr]; linarith, by simp only [join, Sum.elim_inr]; linarith⟩
    rw [g_at, g_at, e] at this
    linarith
  have pos : ∃ s : Fin 1 → ℝ, (IsEq macros Dom θ s ∧ 0 < s 0) ∧
      ∀ s', Dom (join (θ, s')) → (macros (join (θ, s))).g ≤ (macros (join (θ, s'))).g := by
    rcases lt_or_gt_of_ne ne with q | q
    · refine ⟨-s, ⟨(isEq_iff θ _).mpr ⟨⟨?_, ?_⟩, ?_⟩, ?_⟩, fun s' h' => ?_⟩
      · rw [Pi.neg_apply]; linarith [hs'.1.2]
      · rw [Pi.neg_apply]; linarith [hs'.1.1]
      · rw [Pi.neg_apply, Sym.slope_odd, hs'.2, neg_zero]
      · rw [Pi.neg_apply]; linarith
      · refine le_trans (le_of_eq ?_) (hm s' h')
        rw [g_at, g_at, Pi.neg_apply, Sym.energy_even]
    · exact ⟨s, ⟨hs, q⟩, hm⟩
  obtain ⟨s, hs, hm⟩ := pos
  refine ⟨s, ⟨hs, hm⟩, fun s' h' => ?_⟩
  have a := (isEq_iff θ s).mp hs.1
  have b := (isEq_iff θ s').mp h'.1.1
  funext k
  fin_cases k
  exact Sym.unique hc.1 ⟨h'.1.2, b.1.2⟩ ⟨hs.2, a.1.2⟩ b.2 a.2

/-- **C61.** Pure pyrophanite: below 2044 K the equations of `pureOrder` have exactly three solutions, disorder and two mirror images;
disorder has more energy than the other two, which have the same. -/
theorem C61_pure_pyrophanite_states (θ : Ext 0 → ℝ) (h : θ ∈ hot) : ∃ x : ℝ, 0 < x ∧
    (∀ s : Fin 1 → ℝ, IsEq macros Dom θ s ↔ s 0 = 0 ∨ s 0 = x ∨ s 0 = -x) ∧
    (macros (join (θ, fun _ => -x))).g = (macros (join (θ, fun _ => x))).g ∧
    (macros (join (θ, fun _ => x))).g < (macros (join (θ, fun _ => 0))).g := by
  have hc := critical h
  obtain ⟨s, ⟨hs, hm⟩, -⟩ := C61_pure_pyrophanite_unique θ h
  have a := (isEq_iff θ s).mp hs.1
  have g_at : ∀ s : Fin 1 → ℝ, (macros (join (θ, s))).g = Sym.energy (R * θ iT) 17000 (s 0) + (17000 - 2 * (R * θ iT) * Real.log 2) :=
    fun s => g_eq _ _
  refine ⟨s 0, hs.2, fun s' => ?_, ?_, ?_⟩
  · rw [isEq_iff]
    constructor
    · rintro ⟨b1, b2⟩
      rcases lt_trichotomy (s' 0) 0 with q | q | q
      · right; right
        have := Sym.unique hc.1 (a := -s' 0) (b := s 0) ⟨by linarith, by linarith [b1.1]⟩ ⟨hs.2, a.1.2⟩ (by rw [Sym.slope_odd, b2, neg_zero]) a.2
        linarith
      · exact Or.inl q
      · exact Or.inr (Or.inl (Sym.unique hc.1 ⟨q, b1.2⟩ ⟨hs.2, a.1.2⟩ b2 a.2))
    · rintro (q | q | q)
      · rw [q]; exact ⟨⟨by norm_num, by norm_num⟩, Sym.slope_zero _ _⟩
      · rw [q]; exact a
      · rw [q, Sym.slope_odd, a.2]; exact ⟨⟨by linarith [a.1.2], by linarith [hs.2]⟩, neg_zero⟩
  · rw [g_at, g_at, Sym.energy_even]
  · obtain ⟨x, x0, x1, hx⟩ := Sym.disorder hc.1 hc.2
    have := hm (fun _ => x) ⟨by simp only [join, Sum.elim_inr]; linarith, by simp only [join, Sum.elim_inr]; linarith⟩
    rw [g_at, g_at] at this
    rw [g_at, g_at]
    linarith

/-- **C61.** Pure pyrophanite: above 2045 K it is disordered, at any pressure. -/
theorem C61_pure_pyrophanite_disordered (θ : Ext 0 → ℝ) (h : 2045 < θ iT) (s : Fin 1 → ℝ) : IsEq macros Dom θ s ↔ s 0 = 0 := by
  have hT : 17000 < R * θ iT := by rw [R_val]; linarith
  rw [isEq_iff]
  constructor
  · rintro ⟨b1, b2⟩
    exact Sym.only_disorder hT (by linarith) b1 b2
  · intro q
    rw [q]; exact ⟨⟨by norm_num, by norm_num⟩, Sym.slope_zero _ _⟩

/-- One pass of the loop of `pureOrder` for pyrophanite (rhombohedral.c 662-679): a Newton step, kept between `DBL_EPSILON` and
`1 - DBL_EPSILON`. -/
def step (t s0 : ℝ) : ℝ := max (min (s0 + -(DGDS0 t s0 / D2GDS0S0 t s0)) (1 - dblEps)) dblEps

lemma step_eq (t : ℝ) : step t = Sym.newton (R * t) 17000 dblEps := by
  funext s0
  unfold step Sym.newton
  rw [dgds_eq, d2gds2_eq, ← sub_eq_add_neg]

/-- **C61.** Pure pyrophanite: between 389 and 2044 K the iteration of `pureOrder`, started at 0.9 (rhombohedral.c 653), converges to the
positively ordered state, so that it stops (in exact arithmetic, without the limit on its passes). -/
theorem C61_pure_pyrophanite_converges {θ : Ext 0 → ℝ} (h : θ ∈ hot) (hl : 389 < θ iT) {s : Fin 1 → ℝ} (hs : IsEq macros Dom θ s) (h0 : 0 < s 0) :
    Tendsto (fun n => (step (θ iT))^[n] 0.9) atTop (𝓝 (s 0)) ∧
    ∃ n, |(step (θ iT))^[n + 1] 0.9 - (step (θ iT))^[n] 0.9| ≤ 10 * dblEps := by
  have a := (isEq_iff θ s).mp hs
  have l := sym_newton h hl ⟨h0, a.1.2⟩ a.2
  rw [step_eq]
  exact ⟨l, sym_stops l⟩

/-- **C61.** Pure pyrophanite: below 388 K it never comes near: it stays below 0.9, where it started, and the ordered state is beyond. -/
theorem C61_pure_pyrophanite_lost {θ : Ext 0 → ℝ} (h : 0 < θ iT) (hl : θ iT < 388) {s : Fin 1 → ℝ} (hs : IsEq macros Dom θ s) (h0 : 0 < s 0)
    (n : ℕ) : (step (θ iT))^[n] 0.9 ≤ 0.9 ∧ 0.9 < s 0 := by
  have a := (isEq_iff θ s).mp hs
  rw [step_eq]
  exact sym_lost h hl ⟨h0, a.1.2⟩ a.2 n

/-- `X` gives the ordered equilibrium state of pure pyrophanite at every temperature and pressure of the range. -/
def Equilibrium (X : (Ext 0 → ℝ) → Fin 1 → ℝ) : Prop := ∀ θ ∈ hot, IsEq macros Dom θ (X θ) ∧ 0 < X θ 0

theorem equilibrium_exists : ∃ X, Equilibrium X := by
  classical
  have h' : ∀ θ : Ext 0 → ℝ, ∃ s : Fin 1 → ℝ, θ ∈ hot → IsEq macros Dom θ s ∧ 0 < s 0 := by
    intro θ
    by_cases hθ : θ ∈ hot
    · obtain ⟨s, hs⟩ := (C61_pure_pyrophanite_unique θ hθ).exists
      exact ⟨s, fun _ => hs.1⟩
    · exact ⟨0, fun hh => absurd hh hθ⟩
  choose X hX using h'
  exact ⟨X, hX⟩

/-- Inside the bounds, and positively ordered. -/
def Dom' (y : Var 0 1 → ℝ) : Prop := Dom y ∧ 0 < y (.inr 0)

lemma dom'_open : IsOpen {y | Dom' y} := dom_open.inter (isOpen_lt continuous_const (continuous_apply _))

theorem ok' : (jets macros).Ok Dom' :=
  ⟨fun x h => ok.d1 x h.1, fun x h => ok.d2 x h.1, fun x h => ok.d3 x h.1, fun x h => ok.sym2 x h.1, fun x h => ok.sym3 x h.1⟩

theorem solved {X : (Ext 0 → ℝ) → Fin 1 → ℝ} (hX : Equilibrium X) : Solved (jets macros) Dom' X hot := by
  refine solved_of_unique ok' dom'_open hot_open (fun θ h => ⟨(hX θ h).1.1, (hX θ h).2⟩) (fun θ h => (hX θ h).1.2)
    (fun θ h => ?_) fun θ h s hd hst => ?_
  · have hc := critical h
    have a := (isEq_iff θ (X θ)).mp (hX θ h).1
    refine (posHess_one (J := jets macros) (x := pt X θ) ?_).regular
    have : (jets macros).g2 (pt X θ) (.inr 0) (.inr 0) = Sym.curv (R * θ iT) 17000 (X θ 0) := d2gds2_eq _ _
    rw [this]
    exact Sym.curvature hc.1 (hX θ h).2 a.1.2 a.2
  · have hc := critical h
    have a := (isEq_iff θ (X θ)).mp (hX θ h).1
    have b := (isEq_iff θ s).mp ⟨hd.1, hst⟩
    funext k
    fin_cases k
    exact Sym.unique hc.1 ⟨hd.2, b.1.2⟩ ⟨(hX θ h).2, a.1.2⟩ b.2 a.2

/-- The properties of pure pyrophanite that `pureRhm` (rhombohedral.c 887-1150) computes. -/
def std (X : (Ext 0 → ℝ) → Fin 1 → ℝ) : ℝ → ℝ → Std := pureStd (jets macros) (fun y => (macros y).s) X

/-- **C24.** Pure pyrophanite: what `pureRhm` computes are the derivatives of the Gibbs energy at equilibrium order. -/
theorem C24_pure_pyrophanite {X : (Ext 0 → ℝ) → Fin 1 → ℝ} (hX : Equilibrium X) {t p : ℝ} (ht : 0 < t) (ht' : t < 2044) :
    Consistent (std X) t p :=
  pureStd_consistent ok' (fun y _ => entropy_eq y) (solved hX) ht.ne' (show env ![] t p ∈ hot from ⟨ht, ht'⟩)

/-- Non-vacuity: there is such a function, and 1200 K is in the range. -/
example : (∃ X, Equilibrium X) ∧ env ![] 1200 1 ∈ hot :=
  ⟨equilibrium_exists, show (0 : ℝ) < 1200 ∧ (1200 : ℝ) < 2044 by norm_num⟩

end PurePyrophanite

end

end Verif.Thermo.Ordering
