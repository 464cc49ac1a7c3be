import Verif.Num.Householder

/-!
Model of the treatment of the linear equality constraints of the minimisation: decomposition of the
constraint matrix and solution of the triangular system, /repo/sources/equality_constraints.c 497-507, and
reassembly of the solution, /repo/sources/silmin.c 1031-1032.

Simplifications as in `Num.Householder`.
-/

namespace Magma.Num.Constraint

open Finset Magma.Num.Householder

/-- equality_constraints.c 499, one pass of the loop: H1 on row `i`, applied to rows `i+1..rows-1`. -/
noncomputable def stepC (rows cols i : ℕ) (s : (ℕ → ℕ → ℝ) × (ℕ → ℝ)) : (ℕ → ℕ → ℝ) × (ℕ → ℝ) :=
  let q := h1 i (i + 1) (cols - 1) (s.1 i) (s.2 i)
  (fun j => if j = i then q.1
    else if i < j ∧ j < rows then h2 i (i + 1) (cols - 1) q.1 q.2 (s.1 j) else s.1 j,
   Function.update s.2 i q.2)

/-- equality_constraints.c 499: the first `k` passes. -/
noncomputable def decomp (rows cols : ℕ) : ℕ → (ℕ → ℕ → ℝ) × (ℕ → ℝ) → (ℕ → ℕ → ℝ) × (ℕ → ℝ)
  | 0, s => s
  | k + 1, s => stepC rows cols k (decomp rows cols k s)

/-- equality_constraints.c 503-507: forward substitution, first `k` unknowns. -/
noncomputable def fwd (L : ℕ → ℕ → ℝ) (d : ℕ → ℝ) : ℕ → ℕ → ℝ
  | 0 => fun _ => 0
  | k + 1 => Function.update (fwd L d k) k ((d k - ∑ j ∈ range k, L k j * fwd L d k j) / L k k)

/-- silmin.c 1032: the stored transformations `k-1, ..., 0` applied to the solution vector. -/
noncomputable def back (C : ℕ → ℕ → ℝ) (h : ℕ → ℝ) (cols : ℕ) : ℕ → (ℕ → ℝ) → ℕ → ℝ
  | 0, b => b
  | k + 1, b => back C h cols k (h2 k (k + 1) (cols - 1) (C k) (h k) b)

/-- The whole computation of the step: `z` holds the unconstrained part (rows `rows..cols-1` of `bMatrix`,
whatever the quadratic solver put there), the constrained part comes from the triangular system. -/
noncomputable def solve (rows cols : ℕ) (C : ℕ → ℕ → ℝ) (d z h0 : ℕ → ℝ) : ℕ → ℝ :=
  let s := decomp rows cols rows (C, h0)
  let y := fwd s.1 d rows
  back s.1 s.2 cols rows fun i => if i < rows then y i else z i

/-! ### Lemmas -/

theorem decomp_stable (rows cols : ℕ) (s : (ℕ → ℕ → ℝ) × (ℕ → ℝ)) (k K : ℕ) (hk : k < K) :
    (decomp rows cols K s).1 k = (decomp rows cols (k + 1) s).1 k ∧
    (decomp rows cols K s).2 k = (decomp rows cols (k + 1) s).2 k := by
  induction K with
  | zero => omega
  | succ K ih =>
    by_cases h : k = K
    · subst h; exact ⟨rfl, rfl⟩
    · have hlt : k < K := by omega
      rw [← (ih hlt).1, ← (ih hlt).2]
      simp only [decomp, stepC]
      refine ⟨?_, Function.update_of_ne h _ _⟩
      rw [if_neg h, if_neg (by omega)]

/-- The transformations applied one after the other to a row. -/
noncomputable def chain (C : ℕ → ℕ → ℝ) (h : ℕ → ℝ) (cols : ℕ) : ℕ → (ℕ → ℝ) → ℕ → ℝ
  | 0, x => x
  | k + 1, x => h2 k (k + 1) (cols - 1) (C k) (h k) (chain C h cols k x)

theorem decomp_step (rows cols : ℕ) (s : (ℕ → ℕ → ℝ) × (ℕ → ℝ)) (k : ℕ) :
    h1 k (k + 1) (cols - 1) ((decomp rows cols k s).1 k) ((decomp rows cols k s).2 k) =
      ((decomp rows cols (k + 1) s).1 k, (decomp rows cols (k + 1) s).2 k) := by
  simp only [decomp, stepC, if_true, Function.update_self]

theorem decomp_row (rows cols : ℕ) (s : (ℕ → ℕ → ℝ) × (ℕ → ℝ)) (k j : ℕ) (hkj : k ≤ j) (hj : j < rows) :
    (decomp rows cols k s).1 j =
      chain (decomp rows cols rows s).1 (decomp rows cols rows s).2 cols k (s.1 j) := by
  induction k with
  | zero => rfl
  | succ k ih =>
    have hk := ih (by omega)
    have hst := decomp_stable rows cols s k rows (by omega)
    rw [chain, ← hk, hst.1, hst.2]
    have hd := decomp_step rows cols s k
    simp only [decomp, stepC]
    rw [if_neg (by omega), if_pos ⟨by omega, hj⟩, if_pos trivial, Function.update_self]

theorem dot_back (C : ℕ → ℕ → ℝ) (h : ℕ → ℝ) (cols : ℕ) (hc : 0 < cols) (k : ℕ) (x b : ℕ → ℝ) :
    dot cols x (back C h cols k b) = dot cols (chain C h cols k x) b := by
  induction k generalizing b with
  | zero => rfl
  | succ k ih =>
    rw [back, ih, chain]
    exact (dot_h2 (by omega) _ _ _ _).symm

theorem h2_fix (p l m : ℕ) (v : ℕ → ℝ) (h : ℝ) (c : ℕ → ℝ) (hp : c p = 0)
    (hz : ∀ i, l ≤ i → i ≤ m → c i = 0) : h2 p l m v h c = c := by
  unfold h2
  by_cases ha : Active p l m
  · rw [if_pos ha]
    by_cases hb : v p * h = 0
    · simp only [hb, if_true]
    · have hs : ∑ i ∈ Icc l m, c i * v i = 0 := sum_eq_zero fun i hi => by
        rw [mem_Icc] at hi
        rw [hz i hi.1 hi.2, zero_mul]
      simp only [hb, if_false]
      funext i
      rw [hs, hp]
      split_ifs with h1 h2
      · rw [h1, hp]; simp
      · simp
      · rfl
  · rw [if_neg ha]

/-- Row `i` in the transformed coordinates: the stored lower triangle, zero to the right. -/
theorem chain_row (rows cols : ℕ) (s : (ℕ → ℕ → ℝ) × (ℕ → ℝ)) (i : ℕ) (hi : i < rows) (hrc : rows ≤ cols) :
    let F := decomp rows cols rows s
    (∀ j ≤ i, chain F.1 F.2 cols rows (s.1 i) j = F.1 i j) ∧
    ∀ j, i < j → j < cols → chain F.1 F.2 cols rows (s.1 i) j = 0 := by
  intro F
  -- after pass `i`
  have hst := decomp_stable rows cols s i rows hi
  have hrow := decomp_row rows cols s i i le_rfl hi
  have hstep := decomp_step rows cols s i
  have base : (∀ j ≤ i, chain F.1 F.2 cols (i + 1) (s.1 i) j = F.1 i j) ∧
      ∀ j, i < j → j < cols → chain F.1 F.2 cols (i + 1) (s.1 i) j = 0 := by
    have hc : chain F.1 F.2 cols (i + 1) (s.1 i) =
        h2 i (i + 1) (cols - 1) (F.1 i) (F.2 i) ((decomp rows cols i s).1 i) := by
      rw [chain, ← hrow]
    rw [hc, hst.1, hst.2]
    by_cases ha : i < i + 1 ∧ i + 1 ≤ cols - 1
    · have hz := C42_zeroes i (i + 1) (cols - 1) ha ((decomp rows cols i s).1 i)
        ((decomp rows cols i s).2 i)
      rw [hstep] at hz
      obtain ⟨z1, z2, -, -, -, z6⟩ := hz
      refine ⟨fun j hj => ?_, fun j h1 h2 => z1 j (by omega) (by omega)⟩
      rcases eq_or_ne j i with rfl | hne
      · exact z2
      · rw [z6 j hne (by omega)]
        have := congrArg Prod.fst hstep
        simp only [h1, if_pos ha] at this
        rw [← this, Function.update_of_ne hne]
    · have h1eq : (decomp rows cols (i + 1) s).1 i = (decomp rows cols i s).1 i := by
        have := congrArg Prod.fst hstep
        simp only [h1, if_neg ha] at this
        exact this.symm
      rw [h1eq]
      refine ⟨fun j _ => ?_, fun j h1 h2 => by omega⟩
      rw [h2, if_neg ha]
  -- later passes leave it alone
  have later : ∀ k, i + 1 ≤ k → (∀ j, i < j → j < cols → chain F.1 F.2 cols k (s.1 i) j = 0) ∧
      (∀ j ≤ i, chain F.1 F.2 cols k (s.1 i) j = F.1 i j) := by
    intro k hk
    induction k, hk using Nat.le_induction with
    | base => exact ⟨base.2, base.1⟩
    | succ k hk ih =>
      by_cases hkc : k < cols
      · have : chain F.1 F.2 cols (k + 1) (s.1 i) = chain F.1 F.2 cols k (s.1 i) := by
          rw [chain]
          exact h2_fix _ _ _ _ _ _ (ih.1 k (by omega) hkc)
            fun j h1 h2 => ih.1 j (by omega) (by omega)
        rw [this]; exact ih
      · have : chain F.1 F.2 cols (k + 1) (s.1 i) = chain F.1 F.2 cols k (s.1 i) := by
          rw [chain, h2, if_neg (by omega)]
        rw [this]; exact ih
  exact ⟨(later rows hi).2, (later rows hi).1⟩

theorem fwd_stable (L : ℕ → ℕ → ℝ) (d : ℕ → ℝ) (k K : ℕ) (hk : k < K) :
    fwd L d K k = fwd L d (k + 1) k := by
  induction K with
  | zero => omega
  | succ K ih =>
    by_cases h : k = K
    · subst h; rfl
    · rw [fwd, Function.update_of_ne h, ih (by omega)]

theorem fwd_spec (L : ℕ → ℕ → ℝ) (d : ℕ → ℝ) (n i : ℕ) (hi : i < n) (hL : L i i ≠ 0) :
    ∑ j ∈ range (i + 1), L i j * fwd L d n j = d i := by
  have hs : ∀ j < i, fwd L d n j = fwd L d i j := fun j hj => by
    rw [fwd_stable L d j n (by omega), fwd_stable L d j i hj]
  rw [sum_range_succ, fwd_stable L d i n hi, fwd, Function.update_self]
  have : ∑ j ∈ range i, L i j * fwd L d n j = ∑ j ∈ range i, L i j * fwd L d i j :=
    sum_congr rfl fun j hj => by rw [hs j (mem_range.mp hj)]
  rw [this]
  field_simp
  ring

/-- The constraints are met when no diagonal element of the triangle is zero. -/
theorem solve_spec (rows cols : ℕ) (hrc : rows ≤ cols) (C : ℕ → ℕ → ℝ) (d z h0 : ℕ → ℝ)
    (hdiag : ∀ i < rows, (decomp rows cols rows (C, h0)).1 i i ≠ 0) (i : ℕ) (hi : i < rows) :
    ∑ j ∈ range cols, C i j * solve rows cols C d z h0 j = d i := by
  have hc : 0 < cols := by omega
  obtain ⟨r1, r2⟩ := chain_row rows cols (C, h0) i hi hrc
  have hb := dot_back (decomp rows cols rows (C, h0)).1 (decomp rows cols rows (C, h0)).2 cols hc rows
    (C i) (fun i => if i < rows then fwd (decomp rows cols rows (C, h0)).1 d rows i else z i)
  change dot cols (C i) (solve rows cols C d z h0) = d i
  rw [solve, hb, dot]
  have hsub : range (i + 1) ⊆ range cols := by
    intro j hj; simp only [mem_range] at hj ⊢; omega
  rw [← sum_subset hsub]
  · rw [← fwd_spec (decomp rows cols rows (C, h0)).1 d rows i hi (hdiag i hi)]
    refine sum_congr rfl fun j hj => ?_
    rw [mem_range] at hj
    rw [r1 j (by omega), if_pos (by omega)]
  · intro j hj hj'
    simp only [mem_range] at hj hj'
    rw [r2 j (by omega) hj, zero_mul]

/-! ### Independent rows have a non-singular triangle -/

theorem chain_linear (C : ℕ → ℕ → ℝ) (h : ℕ → ℝ) (cols : ℕ) (hc : 0 < cols) (k : ℕ) (x b : ℕ → ℝ) :
    dot cols (chain C h cols k x) b = dot cols x (back C h cols k b) := (dot_back C h cols hc k x b).symm

/-- Combination of the rows of a lower triangle giving any prescribed row. -/
theorem tri_solve (L : ℕ → ℕ → ℝ) (n : ℕ) (hL : ∀ k < n, L k k ≠ 0) :
    ∀ t : ℕ → ℝ, ∃ a : ℕ → ℝ, ∀ k < n, ∑ l ∈ Ico k n, a l * L l k = t k := by
  induction n with
  | zero => exact fun t => ⟨fun _ => 0, fun k hk => by omega⟩
  | succ n ih =>
    intro t
    obtain ⟨a, ha⟩ := ih (fun k hk => hL k (by omega)) fun k => t k - t n / L n n * L n k
    refine ⟨fun l => if l = n then t n / L n n else a l, fun k hk => ?_⟩
    rcases Nat.lt_succ_iff_lt_or_eq.mp hk with h | h
    · rw [Finset.sum_Ico_succ_top (by omega)]
      simp only [if_true]
      have : ∑ l ∈ Ico k n, (if l = n then t n / L n n else a l) * L l k = ∑ l ∈ Ico k n, a l * L l k :=
        sum_congr rfl fun l hl => by
          rw [mem_Ico] at hl
          rw [if_neg (by omega)]
      rw [this, ha k h]
      ring
    · subst h
      have := hL k (by omega)
      simp
      field_simp

/-- Rows are linearly independent on the first `cols` columns. -/
def Indep (rows cols : ℕ) (C : ℕ → ℕ → ℝ) : Prop :=
  ∀ a : ℕ → ℝ, (∀ j < cols, ∑ i ∈ range rows, a i * C i j = 0) → ∀ i < rows, a i = 0

/-- A vector orthogonal to everything reachable is zero: the transformations can be undone. -/
theorem dot_sum (n r : ℕ) (a : ℕ → ℝ) (C : ℕ → ℕ → ℝ) (b : ℕ → ℝ) :
    dot n (fun j => ∑ i ∈ range r, a i * C i j) b = ∑ i ∈ range r, a i * dot n (C i) b := by
  unfold dot
  simp only [sum_mul, mul_sum]
  rw [sum_comm]
  exact sum_congr rfl fun i _ => sum_congr rfl fun j _ => by ring

theorem orth (rows cols : ℕ) (s : (ℕ → ℕ → ℝ) × (ℕ → ℝ)) (hc : 0 < cols) (k : ℕ) (hk : k ≤ rows)
    (b : ℕ → ℝ) : ∃ c, back (decomp rows cols rows s).1 (decomp rows cols rows s).2 cols k c = b := by
  induction k generalizing b with
  | zero => exact ⟨b, rfl⟩
  | succ k ih =>
    obtain ⟨c, hcc⟩ := ih (by omega) b
    have hst := decomp_stable rows cols s k rows (by omega)
    have hstep := decomp_step rows cols s k
    have ho := (C42_orthogonal k (k + 1) (cols - 1) cols (by omega) ((decomp rows cols k s).1 k)
      ((decomp rows cols k s).2 k)).2.1
    rw [hstep, ← hst.1, ← hst.2] at ho
    refine ⟨h2 k (k + 1) (cols - 1) ((decomp rows cols rows s).1 k) ((decomp rows cols rows s).2 k) c, ?_⟩
    rw [back, ho c]
    exact hcc

theorem indep_diag (rows cols : ℕ) (hrc : rows ≤ cols) (C : ℕ → ℕ → ℝ) (h0 : ℕ → ℝ)
    (hind : Indep rows cols C) (i : ℕ) (hi : i < rows) :
    (decomp rows cols rows (C, h0)).1 i i ≠ 0 := by
  induction i using Nat.strong_induction_on with
  | _ i ih =>
  intro hzero
  have hc : 0 < cols := by omega
  set F := decomp rows cols rows (C, h0) with hF
  obtain ⟨a, ha⟩ := tri_solve F.1 i (fun k hk => ih k hk (by omega)) fun k => - F.1 i k
  -- the combination of rows 0..i
  set a' : ℕ → ℝ := fun l => if l < i then a l else if l = i then 1 else 0 with ha'
  have hall : ∀ b : ℕ → ℝ, ∑ l ∈ range rows, a' l * dot cols (chain F.1 F.2 cols rows (C l)) b = 0 := by
    intro b
    rw [← dot_sum cols rows a' (fun l => chain F.1 F.2 cols rows (C l)) b]
    unfold dot
    refine sum_eq_zero fun j hj => ?_
    rw [mem_range] at hj
    have hz : ∑ l ∈ range rows, a' l * chain F.1 F.2 cols rows (C l) j = 0 := by
      have hr : ∀ l < rows, chain F.1 F.2 cols rows (C l) j = if j ≤ l then F.1 l j else 0 := by
        intro l hl
        obtain ⟨r1, r2⟩ := chain_row rows cols (C, h0) l hl hrc
        split_ifs with h
        · exact r1 j h
        · exact r2 j (by omega) hj
      have h1 : ∑ l ∈ range rows, a' l * chain F.1 F.2 cols rows (C l) j =
          ∑ l ∈ range (i + 1), a' l * (if j ≤ l then F.1 l j else 0) := by
        have hsub : range (i + 1) ⊆ range rows := by
          intro l hl; simp only [mem_range] at hl ⊢; omega
        rw [← sum_subset hsub]
        · refine sum_congr rfl fun l hl => ?_
          rw [mem_range] at hl
          rw [hr l (by omega)]
        · intro l hl hl'
          simp only [mem_range] at hl hl'
          simp [ha', show ¬ l < i by omega, show ¬ l = i by omega]
      rw [h1, sum_range_succ]
      have hai : a' i = 1 := by simp [ha']
      rw [hai, one_mul]
      by_cases hji : j < i
      · rw [if_pos hji.le]
        have h2 : ∑ l ∈ range i, a' l * (if j ≤ l then F.1 l j else 0) = ∑ l ∈ Ico j i, a l * F.1 l j := by
          rw [← sum_subset (show Ico j i ⊆ range i by
            intro l hl; simp only [mem_Ico, mem_range] at hl ⊢; omega)]
          · refine sum_congr rfl fun l hl => ?_
            rw [mem_Ico] at hl
            rw [if_pos hl.1, ha']
            simp only [hl.2, if_true]
          · intro l hl hl'
            simp only [mem_Ico, mem_range, not_and, not_lt] at hl hl'
            have : ¬ j ≤ l := fun h => by have := hl' h; omega
            rw [if_neg this, mul_zero]
        rw [h2, ha j hji]
        ring
      · have h2 : ∑ l ∈ range i, a' l * (if j ≤ l then F.1 l j else 0) = 0 := by
          refine sum_eq_zero fun l hl => ?_
          rw [mem_range] at hl
          rw [if_neg (by omega), mul_zero]
        rw [h2, zero_add]
        split_ifs with h
        · have : j = i := by omega
          rw [this]; exact hzero
        · rfl
    simp only [hz, zero_mul]
  have hcomb : ∀ j < cols, ∑ l ∈ range rows, a' l * C l j = 0 := by
    intro j hj
    obtain ⟨c, hcc⟩ := orth rows cols (C, h0) hc rows le_rfl (fun m => if m = j then 1 else 0)
    have h := hall c
    rw [← hF] at hcc
    have h2 : ∀ l, dot cols (chain F.1 F.2 cols rows (C l)) c = C l j := by
      intro l
      rw [chain_linear _ _ _ hc, hcc]
      unfold dot
      simp [hj]
    simp only [h2] at h
    exact h
  have := hind a' hcomb i hi
  simp [ha'] at this

/-! ### C48 -/

/-- If the constraint rows are linearly independent, the solution assembled from the triangular system and
from *anything* the quadratic solver returned satisfies every linear constraint exactly. -/
theorem C48_constraints_met (rows cols : ℕ) (hrc : rows ≤ cols) (C : ℕ → ℕ → ℝ) (d z h0 : ℕ → ℝ)
    (hind : ∀ a : ℕ → ℝ, (∀ j < cols, ∑ i ∈ range rows, a i * C i j = 0) → ∀ i < rows, a i = 0) :
    ∀ i < rows, ∑ j ∈ range cols, C i j * solve rows cols C d z h0 j = d i := fun i hi =>
  solve_spec rows cols hrc C d z h0 (fun k hk => indep_diag rows cols hrc C h0 hind k hk) i hi

/-- silmin.c 1044, 1071, 1082 (`hasNlCon` false: the direction is solution minus present amounts) and
1285, 1293, 1296: the amounts after a step of length `lambda`. -/
noncomputable def stepped (lambda : ℝ) (x n : ℕ → ℝ) (j : ℕ) : ℝ := n j + lambda * (x j - n j)

/-- Without redox and energy constraints (`d` = bulk moles) a step of any length scales the mass imbalance
of every oxide by `1 - lambda`; in particular if the amounts `n` of the phases add up to the bulk
composition before the step they do afterwards, whatever the quadratic solver returned. -/
theorem C48_step_conserves (rows cols : ℕ) (hrc : rows ≤ cols) (C : ℕ → ℕ → ℝ) (bulk z h0 n : ℕ → ℝ)
    (hind : ∀ a : ℕ → ℝ, (∀ j < cols, ∑ i ∈ range rows, a i * C i j = 0) → ∀ i < rows, a i = 0)
    (lambda : ℝ) (i : ℕ) (hi : i < rows) :
    (∑ j ∈ range cols, C i j * stepped lambda (solve rows cols C bulk z h0) n j) - bulk i =
      (1 - lambda) * ((∑ j ∈ range cols, C i j * n j) - bulk i) := by
  have h := C48_constraints_met rows cols hrc C bulk z h0 hind i hi
  have : ∑ j ∈ range cols, C i j * stepped lambda (solve rows cols C bulk z h0) n j =
      (1 - lambda) * (∑ j ∈ range cols, C i j * n j) +
        lambda * ∑ j ∈ range cols, C i j * solve rows cols C bulk z h0 j := by
    rw [mul_sum, mul_sum, ← sum_add_distrib]
    exact sum_congr rfl fun j _ => by unfold stepped; ring
  rw [this, h]
  ring

/-- With an energy constraint (`d = 0`, the solution is the direction itself, silmin.c 1044 with `hasNlCon`)
a step of any length leaves every constrained sum exactly as it was. -/
theorem C48_direction_conserves (rows cols : ℕ) (hrc : rows ≤ cols) (C : ℕ → ℕ → ℝ) (z h0 n : ℕ → ℝ)
    (hind : ∀ a : ℕ → ℝ, (∀ j < cols, ∑ i ∈ range rows, a i * C i j = 0) → ∀ i < rows, a i = 0)
    (lambda : ℝ) (i : ℕ) (hi : i < rows) :
    ∑ j ∈ range cols, C i j * (n j + lambda * solve rows cols C (fun _ => 0) z h0 j) =
      ∑ j ∈ range cols, C i j * n j := by
  have h := C48_constraints_met rows cols hrc C (fun _ => 0) z h0 hind i hi
  have : ∑ j ∈ range cols, C i j * (n j + lambda * solve rows cols C (fun _ => 0) z h0 j) =
      (∑ j ∈ range cols, C i j * n j) +
        lambda * ∑ j ∈ range cols, C i j * solve rows cols C (fun _ => 0) z h0 j := by
    rw [mul_sum, ← sum_add_distrib]
    exact sum_congr rfl fun j _ => by ring
  rw [this, h]
  ring

/-- Concrete: two oxides, three phases (forsterite-, enstatite- and quartz-like: MgO 2 1 0, SiO2 1 1 1). -/
def exC (i j : ℕ) : ℝ :=
  if i = 0 then (if j = 0 then 2 else if j = 1 then 1 else 0) else 1

example : Indep 2 3 exC := by
  intro a h
  have h0 := h 0 (by norm_num)
  have h2 := h 2 (by norm_num)
  simp only [sum_range_succ, sum_range_zero, exC] at h0 h2
  norm_num at h0 h2
  intro i hi
  have : i = 0 ∨ i = 1 := by omega
  rcases this with rfl | rfl
  · rw [h2] at h0; simpa using h0
  · exact h2

/-- Two proportional rows (an oxide combination fixed twice) are not independent and the triangle is
singular: the C code divides by zero. -/
example : ¬ Indep 2 3 (fun _ j => if j = 0 then 1 else 0) := by
  intro h
  have := h (fun i => if i = 0 then 1 else -1) (by
    intro j _
    simp [sum_range_succ]) 0 (by norm_num)
  simp at this

end Magma.Num.Constraint
