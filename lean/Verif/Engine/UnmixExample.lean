import Verif.Engine.UnmixProps
import Mathlib.Tactic.FieldSimp

/-!
C74: a solution with two minima of the energy, for which the search succeeds, and what the routines then do.
-/

namespace Magma.Engine.Unmix

open Finset Magma.Num Magma.Num.Householder Magma.Num.Constraint Magma.Engine.Saturation

noncomputable section

/-- One thousand-millionth. -/
def dl : ℝ := 1 / 10 ^ 9

theorem countClose_one (P : Vmmin.Problem ℝ 1) (X b : Fin 1 → ℝ) :
    Vmmin.countClose P X b = if |X 0 - b 0| < P.reltest then 1 else 0 := by
  unfold Vmmin.countClose
  rw [Finset.filter_congr_decidable]
  simp [Finset.filter_singleton]
  split_ifs <;> simp

/-- `vmmin` on a parabola of curvature just below one: one step accepted, two below the tolerance, success. -/
theorem vmmin_parabola {n : ℕ} (hn : n = 1) (P : Vmmin.Problem ℝ n) (N : ℕ) (b : Fin n → ℝ) (c e x0 : ℝ)
    (hr : P.reltest = small) (hb : ∀ i, b i = x0)
    (hf0 : P.f b = some ((1 - dl) / 2 * (x0 - c) ^ 2 + e)) (hg0 : ∀ i, P.gr b i = (1 - dl) * (x0 - c))
    (hf1 : P.f (fun _ => c + dl * (x0 - c)) = some ((1 - dl) / 2 * (dl * (x0 - c)) ^ 2 + e))
    (hg1 : ∀ i, P.gr (fun _ => c + dl * (x0 - c)) i = (1 - dl) * (dl * (x0 - c)))
    (hx : |x0 - c| ≤ 1) (hx' : 1 / 20 ≤ |x0 - c|) :
    ∃ s, Vmmin.vmmin P (N + 1) b = some (.success, some s) ∧ s.fmin = (1 - dl) / 2 * (dl * (x0 - c)) ^ 2 + e ∧
      ∀ i, s.b i = c - (1 - dl) * (dl * (x0 - c)) := by
  subst hn
  set d := x0 - c with hd
  have hdl : dl = 1 / 10 ^ 9 := rfl
  have hdl0 : 0 < dl := by rw [hdl]; norm_num
  have hdl1 : dl < 1 / 2 := by rw [hdl]; norm_num
  have hd0 : d ≠ 0 := by intro h; rw [h] at hx'; norm_num at hx'
  have hd2 : 0 < d ^ 2 := by positivity
  have hsm : dl < small := by rw [hdl, small_eq]; norm_num
  have hsm2 : small < 1 / 100 := by rw [small_eq]; norm_num
  set b1 : Fin 1 → ℝ := fun _ => c + dl * d with hb1
  have hbe : b = fun _ => x0 := funext hb
  have hg0' : P.gr b = fun _ => (1 - dl) * d := funext hg0
  have hg1' : P.gr b1 = fun _ => (1 - dl) * (dl * d) := funext hg1
  -- first pass
  have dir0 : Vmmin.direction (Vmmin.start P b ((1 - dl) / 2 * d ^ 2 + e)) = fun _ => -((1 - dl) * d) := by
    funext i
    simp [Vmmin.direction, Vmmin.metric, Vmmin.start, Vmmin.mulv, Vmmin.one, hg0', Subsingleton.elim i 0]
  have s1 : Vmmin.search P b (fun _ => -((1 - dl) * d)) (-((1 - dl) * d) * ((1 - dl) * d)) ((1 - dl) / 2 * d ^ 2 + e)
      (N + 1) 1 = some (.acc b1 ((1 - dl) / 2 * (dl * d) ^ 2 + e) 1 0) := by
    have hb' : (fun i : Fin 1 => b i + 1 * -((1 - dl) * d)) = b1 := by
      funext i; rw [hb, hb1]; simp only [hd]; ring
    unfold Vmmin.search
    simp only [hb', countClose_one]
    have h1 : ¬ |b 0 - b1 0| < P.reltest := by
      rw [hr, hb, hb1, not_lt]
      simp only
      rw [show x0 - (c + dl * d) = (1 - dl) * d by rw [hd]; ring, abs_mul, abs_of_pos (by linarith)]
      nlinarith [abs_nonneg d]
    rw [if_neg h1, if_pos (by norm_num), hf1]
    simp only
    rw [if_pos]
    nlinarith [mul_pos hdl0 hd2]
  set st1 : Vmmin.St ℝ 1 := { B := Vmmin.update Vmmin.one (fun _ => -((1 - dl) * d) * 1) (fun _ => (1 - dl) * (dl * d) - (1 - dl) * d), b := b1, g := fun _ => (1 - dl) * (dl * d), fmin := (1 - dl) / 2 * (dl * d) ^ 2 + e, ilast := 1, grad := 2, count := 0 } with hst1
  have i1 : Vmmin.iter P (N + 1) (Vmmin.start P b ((1 - dl) / 2 * d ^ 2 + e)) = some st1 := by
    unfold Vmmin.iter
    simp only [dir0]
    have hgp : Vmmin.dot (fun _ => -((1 - dl) * d)) (Vmmin.start P b ((1 - dl) / 2 * d ^ 2 + e)).g = -((1 - dl) * d) * ((1 - dl) * d) := by
      simp [Vmmin.dot, Vmmin.start, hg0']
    have hneg : -((1 - dl) * d) * ((1 - dl) * d) < 0 := by
      have : 0 < ((1 - dl) * d) ^ 2 := by
        have : (1 - dl) ≠ 0 := by linarith
        positivity
      nlinarith
    rw [hgp, if_pos hneg]
    simp only [Vmmin.start, s1]
    refine (if_pos ?_).trans ?_
    · simp only [hg1', hg0', Vmmin.dot, Fin.sum_univ_one]
      nlinarith [mul_pos (mul_pos (show 0 < 1 - dl by linarith) (show 0 < 1 - dl by linarith)) (mul_pos (show 0 < 1 - dl by linarith) hd2)]
    · simp [hst1, hg1', hg0', Vmmin.metric]
  -- second pass: the step of Newton is below the tolerance
  have hB : st1.B 0 0 = 1 / (1 - dl) := by
    have h1 : (1 - dl) ≠ 0 := by linarith
    simp only [hst1, Vmmin.update, Vmmin.mulv, Vmmin.one, Vmmin.dot, Fin.sum_univ_one, if_true]
    have : -((1 - dl) * d) * 1 * ((1 - dl) * (dl * d) - (1 - dl) * d) = (1 - dl) ^ 3 * d ^ 2 := by ring
    rw [this]
    field_simp
    ring
  have dir1 : Vmmin.direction st1 = fun _ => -(dl * d) := by
    funext i
    have h1 : (1 - dl) ≠ 0 := by linarith
    have : Vmmin.metric st1 = st1.B := by simp [Vmmin.metric, hst1]
    unfold Vmmin.direction
    rw [this]
    simp only [Vmmin.mulv, Fin.sum_univ_one, Subsingleton.elim i 0, hB]
    simp only [hst1]
    field_simp
  set b2 : Fin 1 → ℝ := fun _ => c with hb2
  have s2 : Vmmin.search P st1.b (fun _ => -(dl * d)) (-(dl * d) * ((1 - dl) * (dl * d))) st1.fmin (N + 1) 1
      = some (.stop b2) := by
    have hb' : (fun i : Fin 1 => st1.b i + 1 * -(dl * d)) = b2 := by
      funext i; simp only [hst1, hb1, hb2]; ring
    unfold Vmmin.search
    simp only [hb', countClose_one]
    have h1 : |st1.b 0 - b2 0| < P.reltest := by
      rw [hr]
      simp only [hst1, hb1, hb2]
      rw [show c + dl * d - c = dl * d by ring, abs_mul, abs_of_pos hdl0]
      nlinarith [abs_nonneg d]
    rw [if_pos h1, if_neg (by norm_num)]
  set st2 : Vmmin.St ℝ 1 := { st1 with b := b2, count := 0, ilast := 2 } with hst2
  have hsq : 0 < (dl * d) ^ 2 := by positivity
  have i2 : Vmmin.iter P (N + 1) st1 = some st2 := by
    unfold Vmmin.iter
    simp only [dir1]
    have hgp : Vmmin.dot (fun _ => -(dl * d)) st1.g = -(dl * d) * ((1 - dl) * (dl * d)) := by
      simp [Vmmin.dot, hst1]
    rw [hgp, if_pos (by nlinarith), s2]
    simp only
    rw [if_pos (by simp [hst1])]
    simp [hst2, Vmmin.metric, hst1]
  -- third pass
  have dir2 : Vmmin.direction st2 = fun _ => -((1 - dl) * (dl * d)) := by
    funext i
    have : Vmmin.metric st2 = Vmmin.one := by simp [Vmmin.metric, hst2, hst1]
    unfold Vmmin.direction
    rw [this]
    simp [Vmmin.mulv, Vmmin.one, hst2, hst1, Subsingleton.elim i 0]
  set b3 : Fin 1 → ℝ := fun _ => c - (1 - dl) * (dl * d) with hb3
  have s3 : Vmmin.search P st2.b (fun _ => -((1 - dl) * (dl * d))) (-((1 - dl) * (dl * d)) * ((1 - dl) * (dl * d))) st2.fmin (N + 1) 1
      = some (.stop b3) := by
    have hb' : (fun i : Fin 1 => st2.b i + 1 * -((1 - dl) * (dl * d))) = b3 := by
      funext i; simp only [hst2, hb2, hb3]; ring
    unfold Vmmin.search
    simp only [hb', countClose_one]
    have h1 : |st2.b 0 - b3 0| < P.reltest := by
      rw [hr]
      simp only [hst2, hb2, hb3]
      rw [show c - (c - (1 - dl) * (dl * d)) = (1 - dl) * (dl * d) by ring, abs_mul, abs_mul, abs_of_pos hdl0, abs_of_pos (by linarith)]
      have : dl * |d| ≤ dl := by nlinarith
      nlinarith [mul_nonneg hdl0.le (abs_nonneg d)]
    rw [if_pos h1, if_neg (by norm_num)]
  set st3 : Vmmin.St ℝ 1 := { st2 with B := Vmmin.one, b := b3, count := 1 } with hst3
  have i3 : Vmmin.iter P (N + 1) st2 = some st3 := by
    unfold Vmmin.iter
    simp only [dir2]
    have hgp : Vmmin.dot (fun _ => -((1 - dl) * (dl * d))) st2.g = -((1 - dl) * (dl * d)) * ((1 - dl) * (dl * d)) := by
      simp [Vmmin.dot, hst2, hst1]
    have : 0 < ((1 - dl) * (dl * d)) ^ 2 := by
      have h1 : (1 - dl) ≠ 0 := by linarith
      have h2 : dl ≠ 0 := hdl0.ne'
      positivity
    rw [hgp, if_pos (by nlinarith), s3]
    simp only
    rw [if_neg (by simp [hst2, hst1])]
    simp [hst3, Vmmin.metric, hst2, hst1]
  refine ⟨st3, ?_, by simp [hst3, hst2, hst1], fun i => by simp [hst3, hb3]⟩
  unfold Vmmin.vmmin
  rw [hf0]
  simp only
  rw [show (10000 : ℕ) = 9997 + 1 + 1 + 1 from rfl]
  have : Vmmin.loop P (N + 1) (9997 + 1 + 1 + 1) (Vmmin.start P b ((1 - dl) / 2 * d ^ 2 + e)) = some (.success, st3) := by
    rw [Vmmin.loop, i1]
    simp only
    rw [if_pos (by simp [hst1]), Vmmin.loop, i2]
    simp only
    rw [if_pos (by simp [hst2]), Vmmin.loop, i3]
    simp only
    rw [if_neg (by simp [hst3, hst2, hst1])]
  rw [this]
  rfl

/-- A binary solution with two minima of the energy, at `1/4` and, deeper, at `7/8`. -/
def exM : Mix where
  na := 2
  conv := fun m _ => m 1 / (m 0 + m 1)
  frac := fun r i => if i = 0 then 1 - r 0 else r 0
  dxdr := fun _ i _ => if i = 0 then -1 else 1
  gmix := fun r => if r 0 < 1 / 2 then (1 - dl) / 2 * (r 0 - 1 / 4) ^ 2 else (1 - dl) / 2 * (r 0 - 7 / 8) ^ 2 - (1 - dl) * (5 / 128)
  dgmix := fun r _ => if r 0 < 1 / 2 then (1 - dl) * (r 0 - 1 / 4) else (1 - dl) * (r 0 - 7 / 8)
  eval := fun r => if 0 ≤ r 0 ∧ r 0 ≤ 1 then some r else none

theorem exM_gmix (r : ℕ → ℝ) : exM.gmix r = if r 0 < 1 / 2 then (1 - dl) / 2 * (r 0 - 1 / 4) ^ 2
    else (1 - dl) / 2 * (r 0 - 7 / 8) ^ 2 - (1 - dl) * (5 / 128) := rfl

theorem exM_dgmix (r : ℕ → ℝ) (j : ℕ) :
    exM.dgmix r j = if r 0 < 1 / 2 then (1 - dl) * (r 0 - 1 / 4) else (1 - dl) * (r 0 - 7 / 8) := rfl

theorem exM_conv (m : ℕ → ℝ) (j : ℕ) : exM.conv m j = m 1 / (m 0 + m 1) := rfl

theorem exM_eval (r : ℕ → ℝ) : exM.eval r = if 0 ≤ r 0 ∧ r 0 ≤ 1 then some r else none := rfl

/-- Three moles of one end member to one of the other, in any amount. -/
def exm (a : ℝ) (i : ℕ) : ℝ := if i = 0 then 3 * a else if i = 1 then a else 0

theorem exM_split (a : ℝ) (ha : 0 < a) (h0 : ℕ → ℝ) (N : ℕ) : ∃ r, split exM h0 (N + 1) (exm a) = some r ∧
    3 / 4 < r 0 ∧ r 0 < 1 := by
  have hdl0 : 0 < dl := by unfold dl; norm_num
  have hdl1 : dl < 1 / 100 := by unfold dl; norm_num
  have hz : ∀ i, i < 2 → zero (exm a) i = false := by
    intro i hi
    unfold zero exm
    interval_cases i <;> simp [ha.ne']
  have hlive : live exM.na (zero (exm a)) = [0, 1] := by
    unfold live
    rw [show exM.na = 2 from rfl, show List.range 2 = [0, 1] from rfl]
    simp [List.filter_cons, hz 0 (by norm_num), hz 1 (by norm_num)]
  have hnull : nulls exM.na (zero (exm a)) = [] := by
    unfold nulls
    rw [show exM.na = 2 from rfl, show List.range 2 = [0, 1] from rfl]
    simp [List.filter_cons, hz 0 (by norm_num), hz 1 (by norm_num)]
  have hnz : nz exM (exm a) = 1 := by unfold nz; rw [hlive]; rfl
  have href : ∀ j, ref exM (exm a) j = 1 / 4 := by
    intro j
    simp only [ref, exM, exm]
    simp
    field_simp
    norm_num
  have hgref : exM.gmix (ref exM (exm a)) = 0 := by rw [exM_gmix, href]; norm_num
  have hdgref : ∀ j, exM.dgmix (ref exM (exm a)) j = 0 := by intro j; rw [exM_dgmix, href]; norm_num
  have hheight : ∀ t, height exM (ref exM (exm a)) t = exM.gmix t := by
    intro t; unfold height; simp [hgref, hdgref]
  have hst : ∀ i, startMoles exM (exm a) i = fun j => if zero (exm a) j then 0 else if j = i then 20 else 1 := by
    intro i
    funext j
    unfold startMoles
    rw [hnull]
    simp only [List.length_nil, show exM.na = 2 from rfl]
    norm_num
  have hpt : ∀ b0 z, (unFrame exM (exm a) h0 b0).point z = z := by
    intro b0 z
    unfold Frame.point
    rw [if_pos (by simp [unFrame, hnull])]
  have hne : ∀ b0, (unFrame exM (exm a) h0 b0).ne = 0 := by intro b0; simp [unFrame, hnull]
  have hchain : ∀ b0 v, chain (unFrame exM (exm a) h0 b0).F.1 (unFrame exM (exm a) h0 b0).F.2 (unFrame exM (exm a) h0 b0).nr
      (unFrame exM (exm a) h0 b0).ne v = v := by
    intro b0 v; rw [hne]; rfl
  have hext : ∀ (z : Fin (nz exM (exm a)) → ℝ) (x : ℝ), (∀ i, z i = x) → ext z 0 = x := by
    intro z x h
    unfold ext
    rw [dif_pos (by rw [hnz]; norm_num)]
    exact h _
  have hf : ∀ b0 (z : Fin (nz exM (exm a)) → ℝ) (x : ℝ), (∀ i, z i = x) → 0 ≤ x → x ≤ 1 →
      (problem exM (exm a) (unFrame exM (exm a) h0 b0)).f z
        = some (if x < 1 / 2 then (1 - dl) / 2 * (x - 1 / 4) ^ 2 else (1 - dl) / 2 * (x - 7 / 8) ^ 2 - (1 - dl) * (5 / 128)) := by
    intro b0 z x hz h1 h2
    simp only [problem, hpt]
    have : exM.eval (ext z) = some (ext z) := by
      rw [exM_eval, hext z x hz, if_pos ⟨h1, h2⟩]
    rw [this, Option.map_some, hheight, exM_gmix, hext z x hz]
  have hg : ∀ b0 (z : Fin (nz exM (exm a)) → ℝ) (x : ℝ), (∀ i, z i = x) → 0 ≤ x → x ≤ 1 → ∀ i,
      (problem exM (exm a) (unFrame exM (exm a) h0 b0)).gr z i
        = if x < 1 / 2 then (1 - dl) * (x - 1 / 4) else (1 - dl) * (x - 7 / 8) := by
    intro b0 z x hz h1 h2 i
    simp only [problem, hpt, hchain]
    have : exM.eval (ext z) = some (ext z) := by
      rw [exM_eval, hext z x hz, if_pos ⟨h1, h2⟩]
    rw [this, hdgref, sub_zero, Option.getD_some, exM_dgmix, hext z x hz]
  -- towards the first end member: back to the minimum at 1/4
  have c0 : candidate exM h0 (N + 1) (exm a) 0 = none := by
    unfold candidate
    simp only
    set b0 := exM.conv (startMoles exM (exm a) 0) with hb0
    have hb0' : ∀ j, b0 j = 1 / 21 := by
      intro j
      rw [hb0, exM_conv, hst]
      simp only [hz 0 (by norm_num), hz 1 (by norm_num)]
      norm_num
    obtain ⟨s, hs, hfm, -⟩ := vmmin_parabola hnz (problem exM (exm a) (unFrame exM (exm a) h0 b0)) N
      (fun k => chain (unFrame exM (exm a) h0 b0).F.1 (unFrame exM (exm a) h0 b0).F.2 (unFrame exM (exm a) h0 b0).nr
        (unFrame exM (exm a) h0 b0).ne b0 ((unFrame exM (exm a) h0 b0).ne + k)) (1 / 4) 0 (1 / 21) rfl
      (fun i => by rw [hchain, hb0'])
      (by rw [hf b0 _ (1 / 21) (fun i => by rw [hchain, hb0']) (by norm_num) (by norm_num), if_pos (by norm_num), add_zero])
      (fun i => by rw [hg b0 _ (1 / 21) (fun i => by rw [hchain, hb0']) (by norm_num) (by norm_num), if_pos (by norm_num)])
      (by rw [hf b0 _ _ (fun i => rfl) (by linarith) (by linarith), if_pos (by linarith)]; ring_nf)
      (fun i => by rw [hg b0 _ _ (fun i => rfl) (by linarith) (by linarith), if_pos (by linarith)]; ring_nf)
      (by rw [abs_le]; constructor <;> norm_num) (by rw [abs_of_neg (by norm_num)]; norm_num)
    rw [hs]
    simp only
    rw [if_neg]
    rw [hfm, hgref, not_lt]
    simp
    have : 0 ≤ 1 - dl := by linarith
    positivity
  have c1 : ∃ r, candidate exM h0 (N + 1) (exm a) 1 = some r ∧ 3 / 4 < r 0 ∧ r 0 < 1 := by
    unfold candidate
    simp only
    set b0 := exM.conv (startMoles exM (exm a) 1) with hb0
    have hb0' : ∀ j, b0 j = 20 / 21 := by
      intro j
      rw [hb0, exM_conv, hst]
      simp only [hz 0 (by norm_num), hz 1 (by norm_num)]
      norm_num
    obtain ⟨s, hs, hfm, hsb⟩ := vmmin_parabola hnz (problem exM (exm a) (unFrame exM (exm a) h0 b0)) N
      (fun k => chain (unFrame exM (exm a) h0 b0).F.1 (unFrame exM (exm a) h0 b0).F.2 (unFrame exM (exm a) h0 b0).nr
        (unFrame exM (exm a) h0 b0).ne b0 ((unFrame exM (exm a) h0 b0).ne + k)) (7 / 8) (-((1 - dl) * (5 / 128))) (20 / 21) rfl
      (fun i => by rw [hchain, hb0'])
      (by rw [hf b0 _ (20 / 21) (fun i => by rw [hchain, hb0']) (by norm_num) (by norm_num), if_neg (by norm_num)]; rfl)
      (fun i => by rw [hg b0 _ (20 / 21) (fun i => by rw [hchain, hb0']) (by norm_num) (by norm_num), if_neg (by norm_num)])
      (by rw [hf b0 _ _ (fun i => rfl) (by linarith) (by linarith), if_neg (by linarith)]; ring_nf)
      (fun i => by rw [hg b0 _ _ (fun i => rfl) (by linarith) (by linarith), if_neg (by linarith)]; ring_nf)
      (by rw [abs_le]; constructor <;> norm_num) (by rw [abs_of_pos (by norm_num)]; norm_num)
    rw [hs]
    simp only
    rw [if_pos]
    · refine ⟨_, rfl, ?_⟩
      rw [hpt, hext s.b _ hsb]
      constructor <;> nlinarith
    · rw [hfm, hgref, abs_zero, mul_zero, neg_zero]
      nlinarith
  obtain ⟨r, hr, h1, h2⟩ := c1
  refine ⟨r, ?_, h1, h2⟩
  unfold split candidates
  rw [hlive]
  simp [List.filterMap_cons, c0, hr, farthest]

/-- The hypotheses of `C74_below_tangent`, `C74_farthest` and `C74_excluded` are met. -/
example : ∃ r, split exM 0 5 (exm 1) = some r ∧ 3 / 4 < r 0 ∧ r 0 < 1 := exM_split 1 one_pos 0 4

example : (∀ r, exM.dxdr r = fun i _ => if i = 0 then -1 else 1) ∧
    (∀ r r' i, i < exM.na → exM.frac r i - exM.frac r' i
      = ∑ j ∈ range (exM.na - 1), (if i = 0 then -1 else 1) * (r j - r' j)) := by
  refine ⟨fun r => rfl, fun r r' i hi => ?_⟩
  have hi' : i < 2 := hi
  rw [show range (exM.na - 1) = {0} from rfl, sum_singleton]
  simp only [exM]
  interval_cases i <;> simp

/-- The hypotheses of `C74_lowers_energy` are met: the copy at `1/4` and the other minimum. -/
example : ∃ D, HasDerivAt (fun s : ℝ => exM.gmix fun j => ref exM (exm 1) j + s * (7 / 8 - ref exM (exm 1) j)) D 0 ∧
    exM.gmix (fun _ => 7 / 8) < exM.gmix (ref exM (exm 1)) + D := by
  have href : ref exM (exm 1) 0 = 1 / 4 := by
    show exM.conv (exm 1) 0 = _
    rw [exM_conv]; simp [exm]; norm_num
  refine ⟨0, ?_, ?_⟩
  · have h1 : HasDerivAt (fun s : ℝ => (1 - dl) / 2 * (5 / 8 * s) ^ 2) 0 0 := by
      have := (((hasDerivAt_id (0 : ℝ)).const_mul (5 / 8 : ℝ)).pow 2).const_mul ((1 - dl) / 2)
      simpa using this
    refine h1.congr_of_eventuallyEq ?_
    have hev : ∀ᶠ s : ℝ in nhds 0, s < 2 / 5 := gt_mem_nhds (by norm_num)
    filter_upwards [hev] with s hs
    rw [exM_gmix, href, if_pos (by linarith)]
    ring
  · have hdl1 : dl < 1 / 100 := by unfold dl; norm_num
    rw [exM_gmix, exM_gmix, href, if_neg (by norm_num), if_pos (by norm_num)]
    nlinarith

/-- A convex energy: the hypotheses of `C74_convex` are met by `x²`. -/
def cvM : Mix := { exM with gmix := fun r => r 0 ^ 2, dgmix := fun r _ => 2 * r 0 }

example (m : ℕ → ℝ) (h0 : ℕ → ℝ) (N : ℕ) : split cvM h0 N m = none := by
  refine C74_convex (fun r t _ => ?_) (fun r t _ => ?_)
  · refine ⟨convex_Icc _ _, fun x _ y _ p q hp hq hpq => ?_⟩
    have hg : ∀ r, cvM.gmix r = r 0 ^ 2 := fun _ => rfl
    simp only [hg, smul_eq_mul]
    obtain rfl : q = 1 - p := by linarith
    generalize ref cvM m 0 = a
    generalize t 0 = c
    nlinarith [mul_nonneg (mul_nonneg hp hq) (sq_nonneg ((x - y) * (c - a)))]
  · have h1 : HasDerivAt (fun s : ℝ => ref cvM m 0 + s * (t 0 - ref cvM m 0)) (t 0 - ref cvM m 0) 0 := by
      simpa using ((hasDerivAt_id (0 : ℝ)).mul_const (t 0 - ref cvM m 0)).const_add (ref cvM m 0)
    have h2 := (h1.pow 2).hasDerivWithinAt (s := Set.Ici 0)
    rw [show range (cvM.na - 1) = {0} from rfl, sum_singleton]
    have e : ((2 : ℕ) * (ref cvM m 0 + 0 * (t 0 - ref cvM m 0)) ^ (2 - 1) * (t 0 - ref cvM m 0) : ℝ)
        = cvM.dgmix (ref cvM m) 0 * (t 0 - ref cvM m 0) := by
      show _ = 2 * ref cvM m 0 * _
      norm_num
    rw [e] at h2
    exact h2

/-- **C74** (what is not checked, liquids): the routine does not ask whether the first liquid can supply the new one.
Whatever amount is set apart, some liquid with positive amounts of everything is left with a negative one. -/
theorem C74_overdraw_liquid (massin : ℝ) (hm : 0 < massin) :
    ∃ (M : Mix) (l : Fin 2 → ℝ), (∀ i, 0 < l i) ∧
      ∃ l' x, checkLiquids M (fun _ => 0) 5 massin 1000 1 [l] = ([l', x], true) ∧ ∃ i, l' i < 0 := by
  refine ⟨exM, fun i => exm (massin / 2) i, ?_, ?_⟩
  · intro i
    fin_cases i <;> simp [exm] <;> linarith
  · have hext : ext (fun i : Fin 2 => exm (massin / 2) i) = exm (massin / 2) := by
      funext i
      unfold ext
      split_ifs with h
      · rfl
      · simp [exm, show i ≠ 0 by omega, show i ≠ 1 by omega]
    obtain ⟨r, hr, h1, _⟩ := exM_split (massin / 2) (by linarith) 0 4
    refine ⟨fun i => exm (massin / 2) i - exM.frac r i * massin, fun i => exM.frac r i * massin, ?_, 1, ?_⟩
    · unfold checkLiquids
      simp only
      rw [if_neg (by norm_num)]
      simp [hext, hr]
    · simp only [exm, exM]
      simp
      nlinarith

/-- A binary solid solution with consistent stoichiometry. -/
def exPh : SPhase 2 2 ℝ where
  row := ⟨fun _ => 0, fun _ => 0⟩
  ems := [⟨fun o => if o = 0 then 1 else 0, fun o => if o = 0 then 1 else 0⟩,
    ⟨fun o => if o = 1 then 1 else 0, fun o => if o = 1 then 1 else 0⟩]
  test := fun _ => true

/-- One copy of it, no liquid. -/
def exSys (a : ℝ) : Sys 2 2 ℝ := { bulk := 0, liquids := [], solids := [⟨exPh, [⟨4 * a, [3 * a, a]⟩], 0⟩] }

theorem exSys_good (a : ℝ) : Good ⟨fun j o => if j = o then 1 else 0, fun j o => if j = o then 1 else 0⟩ (fun _ => ⟨exM, .other⟩) (exSys a) := by
  intro k q hq
  match k, hq with
  | 0, hq =>
    simp [exSys] at hq
    subst hq
    refine ⟨⟨by simp [exPh], ?_⟩, ?_⟩
    · intro r hr o
      simp only [exPh, List.mem_cons, List.not_mem_nil, or_false] at hr
      rcases hr with rfl | rfl <;> fin_cases o <;> simp
    · intro _ x hx
      simp only [List.mem_singleton] at hx
      subst hx
      rfl
  | k + 1, hq => simp [exSys] at hq

/-- **C74** (what is not checked, solids without liquid): neither does the routine ask whether the last copy can supply
the new one. -/
theorem C74_overdraw_solid (massin : ℝ) (hm : 0 < massin) :
    ∃ (info : ℕ → Info) (s s' : Sys 2 2 ℝ), (∀ q ∈ s.solids, ∀ x ∈ q.insts, 0 < x.tot ∧ ∀ c ∈ x.comps, 0 < c) ∧
      checkSolids info (fun _ => 0) 5 (fun _ => true) massin 1 1000 1 s = some (s', true) ∧
      ∃ q ∈ s'.solids, ∃ x ∈ q.insts, ∃ c ∈ x.comps, c < 0 := by
  have hmol : moles ⟨4 * (massin / 2), [3 * (massin / 2), massin / 2]⟩ = exm (massin / 2) := by
    funext i
    unfold moles exm
    match i with
    | 0 => simp
    | 1 => simp
    | i + 2 => simp
  obtain ⟨r, hr, h1, _⟩ := exM_split (massin / 2) (by linarith) 0 4
  refine ⟨fun _ => ⟨exM, .other⟩, exSys (massin / 2),
    { exSys (massin / 2) with solids := [⟨exPh, onLast (takeFrom (fractions exM r) massin)
      [⟨4 * (massin / 2), [3 * (massin / 2), massin / 2]⟩] ++ [seed exPh (fractions exM r) massin], 0⟩] }, ?_, ?_, ?_⟩
  · intro q hq x hx
    simp only [exSys, List.mem_singleton] at hq
    subst hq
    simp only [List.mem_singleton] at hx
    subst hx
    refine ⟨by simp; linarith, ?_⟩
    intro c hc
    simp only [List.mem_cons, List.not_mem_nil, or_false] at hc
    rcases hc with rfl | rfl <;> linarith
  · unfold checkSolids
    rw [if_neg (by norm_num)]
    rw [show List.range (exSys (massin / 2)).solids.length = [0] from rfl]
    unfold solidsLoop
    have hq : (exSys (massin / 2)).solids[0]? = some ⟨exPh, [⟨4 * (massin / 2), [3 * (massin / 2), massin / 2]⟩], 0⟩ := rfl
    simp only [hq]
    rw [if_neg (by simp [exPh])]
    have hf : found exM .other (fun _ => 0) 5 (⟨exPh, [⟨4 * (massin / 2), [3 * (massin / 2), massin / 2]⟩], 0⟩ : SState 2 2 ℝ)
        = some r := by
      unfold found
      rw [if_neg (by simp [blocked])]
      simp [hmol, hr]
    rw [hf]
    simp only [addCopy, exSys, solidsLoop, setSolid, List.set_cons_zero]
  · refine ⟨_, List.mem_singleton.2 rfl, takeFrom (fractions exM r) massin ⟨4 * (massin / 2), [3 * (massin / 2), massin / 2]⟩,
      by simp [onLast], massin / 2 - exM.frac r 1 * massin, ?_, ?_⟩
    · have : fractions exM r = [exM.frac r 0, exM.frac r 1] := rfl
      simp [takeFrom, this]
    · simp only [exM]
      simp
      nlinarith

end

end Magma.Engine.Unmix
