import Verif.Thermo.Ordered.OlivineProps
import Mathlib.Analysis.Complex.ExponentialBounds

/-!
The iteration of `order()` in /repo/sources/olivine.c for the ordering state of olivine: initial guess, site fractions, step
length, stopping test. The linear solver (`gsl_linalg_SV_solve`) is not modelled: the search direction is arbitrary, or any
solution of the equations that are handed to the solver.
-/

namespace Verif.Thermo.Ordering.Olivine

open Finset
open Magma.Thermo.Mixing (R R_pos)

noncomputable section

/-- Initial guess of the ordering state, olivine.c 1878-1897. -/
def guess (r : Fin 5 → ℝ) : Fin 4 → ℝ :=
  let sMax0 := min (min (1 - r 0) (1 + r 0)) (1 - r 0 - 2 * r 4)
  let sMin0 := max (r 0 - 1) (-r 0 - 1)
  let sMax1 := min (min (1 - r 1) (1 + r 1)) (1 - r 1 - 2 * r 4)
  let sMin1 := max (r 1 - 1) (-r 1 - 1)
  let sMax2 := min (1 - r 2) (1 + r 2)
  let sMin2 := max (max (r 2 - 1) (-r 2 - 1)) (r 2 - 1 - 2 * r 4)
  let sMax3 := min (1 - r 3) (1 + r 3)
  let sMin3 := max (max (r 3 - 1) (-r 3 - 1)) (r 3 - 1 - 2 * r 4)
  ![if r 0 > 0 then sMax0 / 3 else 35 / 100 * sMin0 + 65 / 100 * sMax0,
    if r 1 > 0 then sMax1 / 15 else 45 / 100 * sMin1 + 55 / 100 * sMax1,
    if r 2 > 0 then sMax2 / 3 else 25 / 100 * sMin2 + 75 / 100 * sMax2,
    if r 3 > 0 then sMax3 / 2 else 25 / 100 * sMin3 + 75 / 100 * sMax3]

/-- Absent Mn, Fe, Co or Ni is not ordered, olivine.c 1908-1913. -/
def masked (r : Fin 5 → ℝ) (s : Fin 4 → ℝ) : Fin 4 → ℝ := fun k => if r k.castSucc = -1 then 0 else s k

/-- One test of the step length, olivine.c 1995-1998 (with the sign of the change in `d`; also 2000-2056). -/
def cap (x d lam : ℝ) : ℝ :=
  if d ≠ 0 ∧ x + lam * d < 0 then -x / d else if d ≠ 0 ∧ 1 < x + lam * d then (1 - x) / d else lam

/-- The sites tested, in order, olivine.c 1994-2056 (Ca on M2 does not change). -/
def tested : List (Fin 11) := [0, 1, 2, 3, 4, 5, 6, 7, 9, 10]

/-- Change of the site fractions with the ordering state, olivine.c 1995-2056. -/
def dir (d : Fin 4 → ℝ) : Fin 11 → ℝ :=
  ![-(d 0 / 2), d 0 / 2, -(d 1 / 2), d 1 / 2, d 2 / 2, -(d 2 / 2), d 3 / 2, -(d 3 / 2), 0,
    (d 0 + d 1 - d 2 - d 3) / 2, (d 2 + d 3 - d 0 - d 1) / 2]

/-- `lambda` after the tests of the listed sites, olivine.c 1992-2056. -/
def caps (x d : Fin 11 → ℝ) : List (Fin 11) → ℝ → ℝ
  | [], lam => lam
  | i :: l, lam => caps x d l (cap (x i) (d i) lam)

/-- `lambda`, olivine.c 1992-2056; `x` are the site fractions after the bounds have been applied. -/
def lambda (x : Fin 11 → ℝ) (d : Fin 4 → ℝ) : ℝ := caps x (dir d) tested 1

/-- One iteration, olivine.c 1908-2062: `s` the state with absent elements masked, `d` the correction `sCorr`. -/
def next (r : Fin 5 → ℝ) (t p : ℝ) (s d : Fin 4 → ℝ) : Fin 4 → ℝ :=
  if lambda (site (join (env r t p, s))) d < 1
  then fun i => s i + lambda (site (join (env r t p, s))) d * d i
  else fun i => s i + d i

/-- The ordering states of the iteration from the state `s0`, for any corrections `d` (olivine.c 1901-2063). -/
def iterate (r : Fin 5 → ℝ) (t p : ℝ) (s0 : Fin 4 → ℝ) (d : ℕ → Fin 4 → ℝ) : ℕ → Fin 4 → ℝ
  | 0 => masked r s0
  | n + 1 => masked r (next r t p (iterate r t p s0 d n) (d n))

/-- The stopping test, olivine.c 1901-1904, between an iterate and its predecessor. -/
def Stops (s s' : Fin 4 → ℝ) : Prop := ∀ k, |s' k - s k| ≤ 100 * dblEps

/-- The correction solves the equations handed to the solver: rows and columns of absent elements are zero, and the correction
of an absent element is set to zero afterwards (olivine.c 1939-1987). `10 * DBL_EPSILON` is the width of "absent". -/
def Corrects (r : Fin 5 → ℝ) (t p : ℝ) (s d : Fin 4 → ℝ) : Prop :=
  (∀ k, |r k.castSucc + 1| < 10 * dblEps → d k = 0) ∧
  ∀ k, 10 * dblEps < |r k.castSucc + 1| →
    -∑ l, (if 10 * dblEps < |r l.castSucc + 1| then (macros (join (env r t p, s))).d2gds2 k l else 0) * d l =
      (macros (join (env r t p, s))).dgds k

lemma cap_spec {x d lam : ℝ} (hx : 0 ≤ x ∧ x ≤ 1) (hl : 0 ≤ lam) :
    0 ≤ cap x d lam ∧ cap x d lam ≤ lam ∧ 0 ≤ x + cap x d lam * d ∧ x + cap x d lam * d ≤ 1 := by
  unfold cap
  split_ifs with h1 h2
  · obtain ⟨-, h1⟩ := h1
    have hd : d < 0 := by
      by_contra h
      have := mul_nonneg hl (not_lt.mp h)
      linarith [hx.1]
    have e : -x / d * d = -x := div_mul_cancel₀ _ hd.ne
    refine ⟨div_nonneg_of_nonpos (by linarith [hx.1]) hd.le, ?_, by linarith, by linarith⟩
    rw [div_le_iff_of_neg hd]; linarith
  · obtain ⟨-, h2⟩ := h2
    have hd : 0 < d := by
      by_contra h
      have := mul_nonpos_of_nonneg_of_nonpos hl (not_lt.mp h)
      linarith [hx.2]
    have e : (1 - x) / d * d = 1 - x := div_mul_cancel₀ _ hd.ne'
    refine ⟨div_nonneg (by linarith [hx.2]) hd.le, ?_, by linarith [hx.1], by linarith⟩
    rw [div_le_iff₀ hd]; linarith
  · by_cases hd : d = 0
    · subst hd; exact ⟨hl, le_refl _, by linarith [hx.1], by linarith [hx.2]⟩
    · exact ⟨hl, le_refl _, not_lt.mp fun h => h1 ⟨hd, h⟩, not_lt.mp fun h => h2 ⟨hd, h⟩⟩

/-- A shorter step than one that stays in the interval also stays in it. -/
lemma shorter {x d l l' : ℝ} (hx : 0 ≤ x ∧ x ≤ 1) (h : 0 ≤ x + l * d ∧ x + l * d ≤ 1) (h0 : 0 ≤ l') (h1 : l' ≤ l) :
    0 ≤ x + l' * d ∧ x + l' * d ≤ 1 := by
  rcases le_total 0 d with hd | hd
  · have a := mul_le_mul_of_nonneg_right h1 hd
    have b := mul_nonneg h0 hd
    constructor <;> linarith [hx.1, h.2]
  · have a := mul_le_mul_of_nonpos_right h1 hd
    have b := mul_nonpos_of_nonneg_of_nonpos h0 hd
    constructor <;> linarith [hx.2, h.1]

lemma caps_spec {x d : Fin 11 → ℝ} (l : List (Fin 11)) (hx : ∀ i ∈ l, 0 ≤ x i ∧ x i ≤ 1) {lam : ℝ} (hl : 0 ≤ lam) :
    0 ≤ caps x d l lam ∧ caps x d l lam ≤ lam ∧
      ∀ i ∈ l, 0 ≤ x i + caps x d l lam * d i ∧ x i + caps x d l lam * d i ≤ 1 := by
  induction l generalizing lam with
  | nil => exact ⟨hl, le_refl _, by simp⟩
  | cons j l ih =>
    obtain ⟨a0, a1, a2⟩ := cap_spec (d := d j) (hx j (by simp)) hl
    obtain ⟨b0, b1, b2⟩ := ih (fun i h => hx i (List.mem_cons_of_mem _ h)) a0
    refine ⟨b0, b1.trans a1, fun i hi => ?_⟩
    rcases List.mem_cons.mp hi with rfl | hi
    · exact shorter (hx i (by simp)) a2 b0 b1
    · exact b2 i hi

lemma site_keep (y : Var 5 4 → ℝ) (i : Fin 11) : site y i = keepAbove dblEps (raw y i) := by
  fin_cases i <;> rfl

lemma keep_spec (x : ℝ) : x ≤ keepAbove dblEps x ∧ dblEps ≤ keepAbove dblEps x ∧
    (keepAbove dblEps x = x ∨ keepAbove dblEps x = dblEps) := by
  unfold keepAbove
  split_ifs with h
  · exact ⟨h, le_refl _, .inr rfl⟩
  · exact ⟨le_refl _, (not_le.mp h).le, .inl rfl⟩

lemma raw_next (r : Fin 5 → ℝ) (t p : ℝ) (s d : Fin 4 → ℝ) (l : ℝ) (i : Fin 11) :
    raw (join (env r t p, fun i => s i + l * d i)) i = raw (join (env r t p, s)) i + l * dir d i := by
  fin_cases i <;> simp [raw, join, env, dir] <;> ring

lemma dblEps_le_one : dblEps ≤ 1 := by
  unfold dblEps; rw [zpow_neg]; exact inv_le_one_of_one_le₀ (by norm_num)

/-- All elements present: nothing is masked. -/
lemma masked_eq {r : Fin 5 → ℝ} (h : ∀ k : Fin 4, r k.castSucc ≠ -1) (s : Fin 4 → ℝ) : masked r s = s :=
  funext fun k => if_neg (h k)

/-- A correction that leaves absent elements alone gives a state the mask does not change. -/
lemma masked_next {r : Fin 5 → ℝ} {t p : ℝ} {s d : Fin 4 → ℝ} (hs : ∀ k : Fin 4, r k.castSucc = -1 → s k = 0)
    (hd : ∀ k : Fin 4, r k.castSucc = -1 → d k = 0) : masked r (next r t p s d) = next r t p s d := by
  funext k
  unfold masked next
  split_ifs with h1 h2 <;> simp_all

/-- **C61.** Olivine: whatever corrections the linear solver gives (absent elements excepted, whose corrections the file sets to
zero), from a start with all site fractions in `[0, 1]` no iterate has a site fraction above one, or below zero by more
than one unit of rounding (`DBL_EPSILON`) per iteration. -/
theorem C61_olivine_feasible (r : Fin 5 → ℝ) (t p : ℝ) (s0 : Fin 4 → ℝ) (d : ℕ → Fin 4 → ℝ)
    (hd : ∀ n, ∀ k : Fin 4, r k.castSucc = -1 → d n k = 0)
    (h0 : ∀ i, 0 ≤ raw (join (env r t p, masked r s0)) i ∧ raw (join (env r t p, masked r s0)) i ≤ 1) (n : ℕ) (i : Fin 11) :
    -(n * dblEps) ≤ raw (join (env r t p, iterate r t p s0 d n)) i ∧ raw (join (env r t p, iterate r t p s0 d n)) i ≤ 1 := by
  have hz : ∀ n, ∀ k : Fin 4, r k.castSucc = -1 → iterate r t p s0 d n k = 0 := by
    intro n k hk
    cases n <;> exact if_pos hk
  induction n generalizing i with
  | zero => simpa [iterate] using h0 i
  | succ n ih =>
    set s := iterate r t p s0 d n with hs
    set y := join (env r t p, s) with hy
    have hx : ∀ i, 0 ≤ site y i ∧ site y i ≤ 1 := by
      intro i
      rw [site_keep]
      obtain ⟨-, k2, k3⟩ := keep_spec (raw y i)
      refine ⟨dblEps_pos.le.trans k2, ?_⟩
      rcases k3 with k3 | k3 <;> rw [k3]
      · exact (ih i).2
      · exact dblEps_le_one
    obtain ⟨l0, l1, hl⟩ := caps_spec (x := site y) (d := dir (d n)) tested (fun i _ => hx i) zero_le_one
    have e : iterate r t p s0 d (n + 1) = fun i => s i + lambda (site y) (d n) * d n i := by
      change masked r (next r t p s (d n)) = _
      rw [masked_next (hz n) (hd n)]
      unfold next
      split_ifs with h
      · rfl
      · have h2 : lambda (site y) (d n) = 1 := le_antisymm l1 (not_lt.mp h)
        rw [h2, hs]; simp
    rw [e, raw_next]
    have hb : 0 ≤ site y i + lambda (site y) (d n) * dir (d n) i ∧ site y i + lambda (site y) (d n) * dir (d n) i ≤ 1 := by
      by_cases hi : i ∈ tested
      · exact hl i hi
      · have : i = 8 := by
          revert hi; revert i; decide
        subst this
        have : dir (d n) 8 = 0 := rfl
        rw [this, mul_zero, add_zero]
        exact hx 8
    rw [site_keep] at hb
    rw [← hy]
    set a := lambda (site y) (d n) * dir (d n) i
    obtain ⟨k1, -, k3⟩ := keep_spec (raw y i)
    obtain ⟨i1, i2⟩ := ih i
    have hn : 0 ≤ n * dblEps := mul_nonneg (Nat.cast_nonneg n) dblEps_pos.le
    have := dblEps_pos
    push_cast
    constructor
    · rcases k3 with k3 | k3 <;> rw [k3] at hb <;> linarith [hb.1]
    · linarith [hb.2]

/-- **C61.** Olivine of iron, magnesium and calcium: if the moles of the end members are not negative the initial guess has all
site fractions in `[0, 1]`, so that the iteration stays feasible. -/
theorem C61_olivine_guess {r1 r4 : ℝ} (h1 : -1 ≤ r1) (h4 : 0 ≤ r4) (h : (1 + r1) / 2 + r4 ≤ 1) (t p : ℝ) (i : Fin 11) :
    0 ≤ raw (join (env ![-1, r1, -1, -1, r4] t p, masked ![-1, r1, -1, -1, r4] (guess ![-1, r1, -1, -1, r4]))) i ∧
      raw (join (env ![-1, r1, -1, -1, r4] t p, masked ![-1, r1, -1, -1, r4] (guess ![-1, r1, -1, -1, r4]))) i ≤ 1 := by
  have e0 : masked ![-1, r1, -1, -1, r4] (guess ![-1, r1, -1, -1, r4]) 0 = 0 := if_pos rfl
  have e2 : masked ![-1, r1, -1, -1, r4] (guess ![-1, r1, -1, -1, r4]) 2 = 0 := if_pos rfl
  have e3 : masked ![-1, r1, -1, -1, r4] (guess ![-1, r1, -1, -1, r4]) 3 = 0 := if_pos rfl
  set s1 := masked ![-1, r1, -1, -1, r4] (guess ![-1, r1, -1, -1, r4]) 1 with hs1
  have hm : masked ![-1, r1, -1, -1, r4] (guess ![-1, r1, -1, -1, r4]) = ![0, s1, 0, 0] := by
    funext k
    fin_cases k
    exacts [e0, hs1.symm, e2, e3]
  have hb : -(1 + r1) ≤ s1 ∧ s1 ≤ 1 + r1 ∧ r1 - 1 ≤ s1 ∧ s1 ≤ 1 - r1 - 2 * r4 := by
    have e : s1 = if r1 = -1 then 0 else if r1 > 0 then min (min (1 - r1) (1 + r1)) (1 - r1 - 2 * r4) / 15
        else 45 / 100 * max (r1 - 1) (-r1 - 1) + 55 / 100 * min (min (1 - r1) (1 + r1)) (1 - r1 - 2 * r4) := rfl
    rw [e]
    split_ifs with c1 c2
    · subst c1; refine ⟨?_, ?_, ?_, ?_⟩ <;> linarith
    · have : min (min (1 - r1) (1 + r1)) (1 - r1 - 2 * r4) = 1 - r1 - 2 * r4 := by
        rw [min_eq_left (show 1 - r1 ≤ 1 + r1 by linarith), min_eq_right (show 1 - r1 - 2 * r4 ≤ 1 - r1 by linarith)]
      rw [this]
      refine ⟨?_, ?_, ?_, ?_⟩ <;> linarith
    · have b1 : max (r1 - 1) (-r1 - 1) = -r1 - 1 := max_eq_right (by linarith)
      rw [b1, min_eq_right (show 1 + r1 ≤ 1 - r1 by linarith)]
      rcases le_total (1 + r1) (1 - r1 - 2 * r4) with c | c
      · rw [min_eq_left c]; refine ⟨?_, ?_, ?_, ?_⟩ <;> linarith
      · rw [min_eq_right c]; refine ⟨?_, ?_, ?_, ?_⟩ <;> linarith
  rw [hm]
  obtain ⟨b1, b2, b3, b4⟩ := hb
  fin_cases i <;> simp [raw, join, env] <;> constructor <;> linarith

/-- An olivine beyond the join monticellite - fayalite: 60 % of the sites iron, 25 % calcium, 15 % magnesium. -/
def kir : Fin 5 → ℝ := ![-1, 1 / 5, -1, -1, 1 / 2]

lemma kir_guess : masked kir (guess kir) = ![0, -(1 / 75), 0, 0] := by
  funext k
  fin_cases k <;> simp [masked, guess, kir] <;> norm_num

lemma kir_raw (t p : ℝ) : raw (join (env kir t p, ![0, -(1 / 75), 0, 0])) =
    ![0, 0, 91 / 150, 89 / 150, 0, 0, 0, 0, 1 / 2, 59 / 150, -(7 / 75)] := by
  funext i
  fin_cases i <;> simp [raw, join, env, kir] <;> norm_num

lemma kir_site (t p : ℝ) : site (join (env kir t p, ![0, -(1 / 75), 0, 0])) =
    ![dblEps, dblEps, 91 / 150, 89 / 150, dblEps, dblEps, dblEps, dblEps, 1 / 2, 59 / 150, dblEps] := by
  have h0 := dblEps_pos
  have h1 : dblEps < 1 / 100 := by unfold dblEps; rw [zpow_neg]; norm_num
  funext i
  rw [site_keep, kir_raw]
  have hp : ∀ x : ℝ, x ≤ 0 → keepAbove dblEps x = dblEps := fun x hx => if_pos (hx.trans h0.le)
  have hn : ∀ x : ℝ, 1 / 100 ≤ x → keepAbove dblEps x = x := fun x hx => if_neg (not_le.mpr (h1.trans_le hx))
  fin_cases i <;> simp only [Fin.zero_eta, Fin.mk_one, Fin.reduceFinMk, Matrix.cons_val]
  · exact hp _ le_rfl
  · exact hp _ le_rfl
  · exact hn _ (by norm_num)
  · exact hn _ (by norm_num)
  · exact hp _ le_rfl
  · exact hp _ le_rfl
  · exact hp _ le_rfl
  · exact hp _ le_rfl
  · exact hn _ (by norm_num)
  · exact hn _ (by norm_num)
  · exact hp _ (by norm_num)

lemma kir_hess (t : ℝ) : (macros (join (env kir t 1, ![0, -(1 / 75), 0, 0]))).d2gds2 1 1 =
    R * t / 4 * (1 / (91 / 150) + 1 / (89 / 150) + 1 / (59 / 150) + 1 / dblEps) := by
  unfold macros
  rw [kir_site]
  simp only [tables, Matrix.cons_val, D2GDS1S1]
  simp only [join, env, iT, iP, Sum.elim_inl, Sum.elim_inr, Matrix.cons_val, GS2S2, GXMGFE, HXMGFE, VXMGFE, W1MGFE, W2MGFE, WH1MGFE, WH2MGFE, WV1MGFE, WV2MGFE]
  ring

lemma kir_grad (t : ℝ) : (macros (join (env kir t 1, ![0, -(1 / 75), 0, 0]))).dgds 1 =
    -(3925 / 2) + R * t / 2 * Real.log (89 / 150 * (59 / 150) / (91 / 150) / dblEps) := by
  unfold macros
  rw [kir_site]
  simp only [tables, Matrix.cons_val, DGDS1]
  generalize Real.log (89 / 150 * (59 / 150) / (91 / 150) / dblEps) = L
  simp only [join, env, kir, iT, iP, Sum.elim_inl, Sum.elim_inr, Matrix.cons_val, F_FE, GEXFECO, GEXFENI, GEXMGCO, GEXMGFE, GEXMGMN, GEXMGNI, GEXMNFE, GR1S2, GR2S2, GR3S2, GR4S2, GR5S2, GS1S2, GS2, GS2S2, GS2S3, GS2S4, GXFECO, GXFENI, GXMGCO, GXMGFE, GXMGMN, GXMGNI, GXMNFE, HEXFECO, HEXFENI, HEXMGCO, HEXMGFE, HEXMGMN, HEXMGNI, HEXMNFE, HXFECO, HXFENI, HXMGCO, HXMGFE, HXMGMN, HXMGNI, HXMNFE, VEXFECO, VEXFENI, VEXMGCO, VEXMGFE, VEXMGMN, VEXMGNI, VEXMNFE, VXFECO, VXFENI, VXMGCO, VXMGFE, VXMGMN, VXMGNI, VXMNFE, W1FECO, W1FENI, W1MGCO, W1MGFE, W1MGMN, W1MGNI, W1MNFE, W2CAFE, W2CAMG, W2FECO, W2FENI, W2MGCO, W2MGFE, W2MGMN, W2MGNI, W2MNFE, WH1FECO, WH1FENI, WH1MGCO, WH1MGFE, WH1MGMN, WH1MGNI, WH1MNFE, WH2CAFE, WH2CAMG, WH2FECO, WH2FENI, WH2MGCO, WH2MGFE, WH2MGMN, WH2MGNI, WH2MNFE, WV1FECO, WV1FENI, WV1MGCO, WV1MGFE, WV1MGMN, WV1MGNI, WV1MNFE, WV2CAFE, WV2CAMG, WV2FECO, WV2FENI, WV2MGCO, WV2MGFE, WV2MGMN, WV2MGNI, WV2MNFE]
  ring

lemma kir_log : 0 ≤ Real.log (89 / 150 * (59 / 150) / (91 / 150) / dblEps) ∧
    Real.log (89 / 150 * (59 / 150) / (91 / 150) / dblEps) ≤ 364 / 10 := by
  have h0 := dblEps_pos
  have h1 : dblEps < 1 / 100 := by unfold dblEps; rw [zpow_neg]; norm_num
  constructor
  · refine Real.log_nonneg ?_
    rw [le_div_iff₀ h0]
    norm_num
    linarith
  · have e : Real.log (1 / dblEps) = 52 * Real.log 2 := by
      unfold dblEps
      rw [zpow_neg, one_div, inv_inv, show ((2 : ℝ) ^ (52 : ℤ)) = 2 ^ (52 : ℕ) by norm_cast, Real.log_pow]
      norm_num
    have l := Real.log_two_lt_d9
    have : Real.log (89 / 150 * (59 / 150) / (91 / 150) / dblEps) ≤ Real.log (1 / dblEps) := by
      refine Real.log_le_log (by positivity) ?_
      exact div_le_div_of_nonneg_right (by norm_num) h0.le
    linarith

/-- The first correction from the guess. -/
lemma kir_step {t : ℝ} (ht : 1000 ≤ t) {d : Fin 4 → ℝ} (hd : Corrects kir t 1 ![0, -(1 / 75), 0, 0] d) :
    d 0 = 0 ∧ d 2 = 0 ∧ d 3 = 0 ∧ |d 1| ≤ 75 * dblEps := by
  have h0 := dblEps_pos
  have h1 : dblEps < 1 / 100 := by unfold dblEps; rw [zpow_neg]; norm_num
  have z : ∀ k : Fin 4, k ≠ 1 → |kir k.castSucc + 1| = 0 := by
    intro k hk
    fin_cases k <;> simp_all [kir]
  have z1 : 10 * dblEps < |kir (Fin.castSucc (1 : Fin 4)) + 1| := by
    have : kir (Fin.castSucc (1 : Fin 4)) = 1 / 5 := rfl
    rw [this, abs_of_pos (by norm_num)]
    linarith
  have d0 := hd.1 0 (by rw [z 0 (by decide)]; linarith)
  have d2 := hd.1 2 (by rw [z 2 (by decide)]; linarith)
  have d3 := hd.1 3 (by rw [z 3 (by decide)]; linarith)
  refine ⟨d0, d2, d3, ?_⟩
  have e := hd.2 1 z1
  simp only [Fin.sum_univ_four, d0, d2, d3, mul_zero, zero_add, add_zero] at e
  rw [if_pos z1, kir_hess, kir_grad] at e
  obtain ⟨l0, l1⟩ := kir_log
  generalize Real.log (89 / 150 * (59 / 150) / (91 / 150) / dblEps) = L at e l0 l1
  have hR : R = 83143 / 10000 := by unfold R; norm_num
  have hRt : 8314 ≤ R * t := by rw [hR]; linarith
  have hi : 1 / dblEps * dblEps = 1 := by field_simp
  have hq : 0 < 1 / dblEps := by positivity
  set Q := 1 / (91 / 150) + 1 / (89 / 150) + 1 / (59 / 150) + 1 / dblEps with hQ
  have hQ1 : 1 / dblEps ≤ Q := by rw [hQ]; norm_num
  have hQe : 1 ≤ Q * dblEps := by rw [← hi]; exact mul_le_mul_of_nonneg_right hQ1 h0.le
  have hH : 0 < R * t / 4 * Q := mul_pos (by linarith) (by linarith)
  have hb : |R * t / 4 * Q * d 1| ≤ R * t / 4 * Q * (75 * dblEps) := by
    have e' : R * t / 4 * Q * d 1 = 3925 / 2 - R * t / 2 * L := by linarith
    have b1 : R * t / 4 * 75 ≤ R * t / 4 * Q * (75 * dblEps) := by
      have := mul_le_mul_of_nonneg_left hQe (show 0 ≤ R * t / 4 * 75 by linarith)
      nlinarith
    have b2 : R * t / 2 * L ≤ R * t / 2 * (364 / 10) := mul_le_mul_of_nonneg_left l1 (by linarith)
    have b3 : 0 ≤ R * t / 2 * L := mul_nonneg (by linarith) l0
    rw [e', abs_le]
    constructor <;> linarith
  rw [abs_mul, abs_of_pos hH] at hb
  exact le_of_mul_le_mul_left hb hH

/-- **C61.** Olivine, what is not guaranteed: for compositions beyond the join monticellite - fayalite the initial guess has a
negative magnesium fraction on M2 although there are states with all fractions of the elements present positive. At 1 bar and
any temperature above 1000 K the iteration then stops after one step, at most 75 units of rounding away from the guess: the
reported ordering state has a negative site fraction. -/
theorem C61_olivine_stuck {t : ℝ} (ht : 1000 ≤ t) (d : Fin 4 → ℝ) (hd : Corrects kir t 1 (masked kir (guess kir)) d) :
    Stops (masked kir (guess kir)) (masked kir (next kir t 1 (masked kir (guess kir)) d)) ∧
    raw (join (env kir t 1, masked kir (next kir t 1 (masked kir (guess kir)) d))) 10 < -(9 / 100) ∧
    ∃ s, masked kir s = s ∧ ∀ i ∈ ({2, 3, 8, 9, 10} : Set (Fin 11)), 1 / 20 < raw (join (env kir t 1, s)) i := by
  have h0 := dblEps_pos
  have h1 : dblEps < 1 / 1000000 := by unfold dblEps; rw [zpow_neg]; norm_num
  rw [kir_guess] at hd ⊢
  set s : Fin 4 → ℝ := ![0, -(1 / 75), 0, 0] with hs
  obtain ⟨d0, d2, d3, d1⟩ := kir_step ht hd
  have hx : ∀ i, 0 ≤ site (join (env kir t 1, s)) i ∧ site (join (env kir t 1, s)) i ≤ 1 := by
    intro i
    rw [hs, kir_site]
    fin_cases i <;> simp only [Fin.reduceFinMk, Fin.zero_eta, Fin.mk_one, Matrix.cons_val] <;> constructor <;> linarith
  obtain ⟨l0, l1, -⟩ := caps_spec (x := site (join (env kir t 1, s))) (d := dir d) tested (fun i _ => hx i) zero_le_one
  have hl : caps (site (join (env kir t 1, s))) (dir d) tested 1 = lambda (site (join (env kir t 1, s))) d := rfl
  rw [hl] at l0 l1
  have hm : masked kir (next kir t 1 s d) = next kir t 1 s d := by
    refine masked_next (fun k hk => ?_) (fun k hk => ?_)
    · fin_cases k
      · rfl
      · exact absurd hk (by simp [kir]; norm_num)
      · rfl
      · rfl
    · fin_cases k
      · exact d0
      · exact absurd hk (by simp [kir]; norm_num)
      · exact d2
      · exact d3
  have e : next kir t 1 s d = fun i => s i + lambda (site (join (env kir t 1, s))) d * d i := by
    unfold next
    split_ifs with h
    · rfl
    · rw [le_antisymm l1 (not_lt.mp h)]; simp
  rw [hm, e]
  generalize lambda (site (join (env kir t 1, s))) d = l at *
  have hb : |l * d 1| ≤ 75 * dblEps := by
    rw [abs_mul, abs_of_nonneg l0]
    exact (mul_le_of_le_one_left (abs_nonneg _) l1).trans d1
  refine ⟨fun k => ?_, ?_, ?_⟩
  · rw [add_sub_cancel_left]
    fin_cases k
    · simp [d0, h0.le]
    · exact hb.trans (by linarith)
    · simp [d2, h0.le]
    · simp [d3, h0.le]
  · rw [raw_next, hs, kir_raw]
    have : l * dir d 10 = -(l * d 1) / 2 := by simp [dir, d0, d2, d3]; ring
    rw [this]
    have := neg_abs_le (l * d 1)
    simp only [Matrix.cons_val]
    linarith
  · refine ⟨![0, -(2 / 5), 0, 0], ?_, ?_⟩
    · funext k
      fin_cases k <;> simp [masked, kir]
      norm_num
    · intro i hi
      simp only [Set.mem_insert_iff, Set.mem_singleton_iff] at hi
      rcases hi with rfl | rfl | rfl | rfl | rfl <;> simp [raw, join, env, kir] <;> norm_num

/-- Such a correction exists. -/
example : ∃ d, Corrects kir 1400 1 (masked kir (guess kir)) d := by
  have h0 := dblEps_pos
  have h1 : dblEps < 1 / 100 := by unfold dblEps; rw [zpow_neg]; norm_num
  rw [kir_guess]
  refine ⟨![0, -((macros (join (env kir 1400 1, ![0, -(1 / 75), 0, 0]))).dgds 1) /
    (macros (join (env kir 1400 1, ![0, -(1 / 75), 0, 0]))).d2gds2 1 1, 0, 0], fun k hk => ?_, fun k hk => ?_⟩
  · fin_cases k
    · rfl
    · have : kir (Fin.castSucc (1 : Fin 4)) = 1 / 5 := rfl
      simp only [Fin.mk_one] at hk
      rw [this, abs_of_pos (by norm_num)] at hk
      linarith
    · rfl
    · rfl
  · have hH : (macros (join (env kir 1400 1, ![0, -(1 / 75), 0, 0]))).d2gds2 1 1 ≠ 0 := by
      rw [kir_hess]
      have := R_pos
      positivity
    have hk1 : k = 1 := by
      by_contra hne
      have : |kir k.castSucc + 1| = 0 := by fin_cases k <;> simp_all [kir]
      linarith
    subst hk1
    simp only [Fin.sum_univ_four, Matrix.cons_val, mul_zero, zero_add, add_zero]
    rw [if_pos hk]
    field_simp

/-- A start from which all iterates are feasible: an olivine of all six elements, unordered. -/
example : ∀ i, 0 ≤ raw (join (env ![-(1 / 2), -(1 / 2), -(1 / 2), -(1 / 2), 0] 1400 1, masked ![-(1 / 2), -(1 / 2), -(1 / 2), -(1 / 2), 0]
    0)) i ∧ raw (join (env ![-(1 / 2), -(1 / 2), -(1 / 2), -(1 / 2), 0] 1400 1, masked ![-(1 / 2), -(1 / 2), -(1 / 2), -(1 / 2), 0] 0)) i ≤ 1 := by
  intro i
  have : masked ![-(1 / 2), -(1 / 2), -(1 / 2), -(1 / 2), 0] (0 : Fin 4 → ℝ) = 0 := by
    funext k; unfold masked; split_ifs <;> rfl
  rw [this]
  fin_cases i <;> simp [raw, join, env] <;> norm_num

end

end Verif.Thermo.Ordering.Olivine
