import Verif.Engine.Evaluate
import Mathlib.Tactic.Linarith
import Mathlib.Tactic.FieldSimp
import Mathlib.Algebra.Order.BigOperators.Ring.Finset

/-!
Least squares by singular values as evaluate_saturation.c 283-285 does it, and what it gives for a system of equations
that has a solution.
-/

namespace Magma.Engine.Evaluate

open Finset

/-- The contract of `gsl_linalg_SV_decomp` for a matrix of `m` rows and `n` columns, `m ≥ n`. -/
structure IsSvd (m n : ℕ) (A : ℕ → ℕ → ℝ) (d : Svd) : Prop where
  prod : ∀ j < m, ∀ k < n, A j k = ∑ q ∈ range n, d.U j q * d.S q * d.V k q
  orthU : ∀ q < n, ∀ q' < n, ∑ j ∈ range m, d.U j q * d.U j q' = if q = q' then 1 else 0
  orthV : ∀ q < n, ∀ q' < n, ∑ k ∈ range n, d.V k q * d.V k q' = if q = q' then 1 else 0
  nonneg : ∀ q < n, 0 ≤ d.S q

variable {m n : ℕ} {A : ℕ → ℕ → ℝ} {d : Svd} {b : ℕ → ℝ}

/-- `U^T b`. -/
noncomputable def proj (m : ℕ) (d : Svd) (b : ℕ → ℝ) (q : ℕ) : ℝ := ∑ j ∈ range m, d.U j q * b j

theorem sum_delta (q n : ℕ) (hq : q < n) (w : ℕ → ℝ) (g : ℕ → ℕ → ℝ)
    (h : ∀ q' < n, g q q' = if q = q' then 1 else 0) : ∑ q' ∈ range n, g q q' * w q' = w q := by
  rw [sum_congr rfl fun q' hq' => by rw [h q' (mem_range.1 hq')]]
  simp [hq]

theorem V_solve (h : IsSvd m n A d) {q : ℕ} (hq : q < n) : ∑ k ∈ range n, d.V k q * svSolve m n d b k =
    if trunc d q ≠ 0 then proj m d b q / trunc d q else 0 := by
  unfold svSolve
  simp_rw [mul_sum]
  rw [sum_comm]
  have := sum_delta q n hq (fun q' => if trunc d q' ≠ 0 then proj m d b q' / trunc d q' else 0)
    (fun q q' => ∑ k ∈ range n, d.V k q * d.V k q') (fun q' hq' => h.orthV q hq q' hq')
  rw [← this]
  refine sum_congr rfl fun q' _ => ?_
  rw [sum_mul]
  exact sum_congr rfl fun k _ => by unfold proj; ring

theorem A_mul (h : IsSvd m n A d) {j : ℕ} (hj : j < m) (x : ℕ → ℝ) :
    ∑ k ∈ range n, A j k * x k = ∑ q ∈ range n, d.U j q * (d.S q * ∑ k ∈ range n, d.V k q * x k) := by
  rw [sum_congr rfl fun k hk => by rw [h.prod j hj k (mem_range.1 hk)]]
  simp_rw [sum_mul, mul_sum]
  rw [sum_comm]
  exact sum_congr rfl fun q _ => sum_congr rfl fun k _ => by ring

theorem trunc_cases (d : Svd) (q : ℕ) : (trunc d q = 0 ∧ d.S q < 1 / 10 ^ 8) ∨ (trunc d q = d.S q ∧ 1 / 10 ^ 8 ≤ d.S q) := by
  unfold trunc
  split
  · exact Or.inl ⟨rfl, ‹_›⟩
  · exact Or.inr ⟨rfl, not_lt.1 ‹_›⟩

/-- The fitted values. -/
theorem A_solve (h : IsSvd m n A d) {j : ℕ} (hj : j < m) : ∑ k ∈ range n, A j k * svSolve m n d b k =
    ∑ q ∈ range n, d.U j q * (if trunc d q ≠ 0 then proj m d b q else 0) := by
  rw [A_mul h hj]
  refine sum_congr rfl fun q hq => ?_
  rw [V_solve h (mem_range.1 hq)]
  rcases trunc_cases d q with ⟨e, _⟩ | ⟨e, hs⟩
  · simp [e]
  · have : d.S q ≠ 0 := by have : (0:ℝ) < 1 / 10 ^ 8 := by norm_num
                           intro h0; rw [h0] at hs; linarith
    rw [e]
    simp only [ne_eq, this, not_false_eq_true, if_true]
    field_simp

theorem Ut_sum (h : IsSvd m n A d) {q : ℕ} (hq : q < n) (w : ℕ → ℝ) :
    ∑ j ∈ range m, d.U j q * ∑ q' ∈ range n, d.U j q' * w q' = w q := by
  simp_rw [mul_sum]
  rw [sum_comm]
  rw [← sum_delta q n hq w (fun q q' => ∑ j ∈ range m, d.U j q * d.U j q') (fun q' hq' => h.orthU q hq q' hq')]
  refine sum_congr rfl fun q' _ => ?_
  rw [sum_mul]
  exact sum_congr rfl fun k _ => by ring

/-- If no singular value is cut off, the residuals are orthogonal to the columns of the matrix. -/
theorem residual_orth (h : IsSvd m n A d) (hs : ∀ q < n, d.S q = 0 ∨ 1 / 10 ^ 8 ≤ d.S q) {k : ℕ} (hk : k < n) :
    ∑ j ∈ range m, (b j - ∑ l ∈ range n, A j l * svSolve m n d b l) * A j k = 0 := by
  have e : ∀ w : ℕ → ℝ, ∑ j ∈ range m, w j * A j k = ∑ q ∈ range n, d.S q * d.V k q * ∑ j ∈ range m, d.U j q * w j := by
    intro w
    rw [sum_congr rfl fun j hj => by rw [h.prod j (mem_range.1 hj) k hk]]
    simp_rw [mul_sum]
    rw [sum_comm]
    exact sum_congr rfl fun q _ => sum_congr rfl fun j _ => by ring
  rw [e]
  refine sum_eq_zero fun q hq => ?_
  have hq := mem_range.1 hq
  have : ∑ j ∈ range m, d.U j q * (b j - ∑ l ∈ range n, A j l * svSolve m n d b l) =
      proj m d b q - (if trunc d q ≠ 0 then proj m d b q else 0) := by
    simp_rw [mul_sub]
    rw [sum_sub_distrib, ← Ut_sum h hq (fun q => if trunc d q ≠ 0 then proj m d b q else 0)]
    congr 1
    exact sum_congr rfl fun j hj => by rw [A_solve h (mem_range.1 hj)]
  rw [this]
  rcases trunc_cases d q with ⟨e', h1⟩ | ⟨e', h1⟩
  · rcases hs q hq with h0 | h0
    · rw [h0]; ring
    · linarith
  · have : trunc d q ≠ 0 := by
      have : (0:ℝ) < 1 / 10 ^ 8 := by norm_num
      rw [e']; intro h0; rw [h0] at h1; linarith
    rw [if_pos this]; ring

/-- If no singular value is cut off, the result is a least-squares solution. -/
theorem least_squares (h : IsSvd m n A d) (hs : ∀ q < n, d.S q = 0 ∨ 1 / 10 ^ 8 ≤ d.S q) (y : ℕ → ℝ) :
    ∑ j ∈ range m, (b j - ∑ l ∈ range n, A j l * svSolve m n d b l) ^ 2 ≤
      ∑ j ∈ range m, (b j - ∑ l ∈ range n, A j l * y l) ^ 2 := by
  set r := fun j => b j - ∑ l ∈ range n, A j l * svSolve m n d b l with hr
  set z := fun l => svSolve m n d b l - y l with hz
  have e : ∀ j, b j - ∑ l ∈ range n, A j l * y l = r j + ∑ l ∈ range n, A j l * z l := by
    intro j
    simp only [hr, hz, mul_sub, sum_sub_distrib]; ring
  have o : ∑ j ∈ range m, r j * ∑ l ∈ range n, A j l * z l = 0 := by
    simp_rw [mul_sum]
    rw [sum_comm]
    refine sum_eq_zero fun k hk => ?_
    have := residual_orth (b := b) h hs (mem_range.1 hk)
    calc ∑ j ∈ range m, r j * (A j k * z k) = (∑ j ∈ range m, r j * A j k) * z k := by
          rw [sum_mul]; exact sum_congr rfl fun j _ => by ring
      _ = 0 := by rw [this, zero_mul]
  have : ∑ j ∈ range m, (b j - ∑ l ∈ range n, A j l * y l) ^ 2 =
      ∑ j ∈ range m, r j ^ 2 + ∑ j ∈ range m, (∑ l ∈ range n, A j l * z l) ^ 2 := by
    have : ∀ j ∈ range m, (b j - ∑ l ∈ range n, A j l * y l) ^ 2 = r j ^ 2 + (∑ l ∈ range n, A j l * z l) ^ 2 +
        2 * (r j * ∑ l ∈ range n, A j l * z l) := fun j _ => by rw [e]; ring
    rw [sum_congr rfl this, sum_add_distrib, sum_add_distrib, ← mul_sum, o]; ring
  rw [this]
  have : 0 ≤ ∑ j ∈ range m, (∑ l ∈ range n, A j l * z l) ^ 2 := sum_nonneg fun _ _ => sq_nonneg _
  linarith

/-- If no singular value is cut off and every combination of rows that vanishes has a vanishing right-hand side, the
result solves the system. -/
theorem solve_exact (h : IsSvd m n A d) (hs : ∀ q < n, d.S q = 0 ∨ 1 / 10 ^ 8 ≤ d.S q)
    (hb : ∀ c : ℕ → ℝ, (∀ k < n, ∑ j ∈ range m, c j * A j k = 0) → ∑ j ∈ range m, c j * b j = 0) {j : ℕ} (hj : j < m) :
    ∑ k ∈ range n, A j k * svSolve m n d b k = b j := by
  set r := fun j => b j - ∑ l ∈ range n, A j l * svSolve m n d b l with hr
  have o : ∀ k < n, ∑ j ∈ range m, r j * A j k = 0 := fun k hk => residual_orth h hs hk
  have h1 := hb r o
  have h2 : ∑ j ∈ range m, r j * ∑ l ∈ range n, A j l * svSolve m n d b l = 0 := by
    simp_rw [mul_sum]
    rw [sum_comm]
    refine sum_eq_zero fun k hk => ?_
    calc ∑ j ∈ range m, r j * (A j k * svSolve m n d b k) = (∑ j ∈ range m, r j * A j k) * svSolve m n d b k := by
          rw [sum_mul]; exact sum_congr rfl fun j _ => by ring
      _ = 0 := by rw [o k (mem_range.1 hk), zero_mul]
  have h3 : ∑ j ∈ range m, r j * r j = 0 := by
    have : ∀ j ∈ range m, r j * r j = r j * b j - r j * ∑ l ∈ range n, A j l * svSolve m n d b l := fun j _ => by
      simp only [hr]; ring
    rw [sum_congr rfl this, sum_sub_distrib, h1, h2, sub_zero]
  have h4 := (sum_eq_zero_iff_of_nonneg fun j _ => mul_self_nonneg (r j)).1 h3 j (mem_range.2 hj)
  have : r j = 0 := mul_self_eq_zero.1 h4
  simp only [hr] at this
  linarith

/-- Whatever is cut off: if `y` solves the system, the squares of the residuals sum to at most `1e-16` of the squares of
`y`. -/
theorem solve_approx (h : IsSvd m n A d) (y : ℕ → ℝ) (hy : ∀ j < m, ∑ k ∈ range n, A j k * y k = b j) :
    ∑ j ∈ range m, (b j - ∑ k ∈ range n, A j k * svSolve m n d b k) ^ 2 ≤ 1 / 10 ^ 16 * ∑ k ∈ range n, y k ^ 2 := by
  set u := fun q => ∑ k ∈ range n, d.V k q * y k with hu
  have hw : ∀ q < n, proj m d b q = d.S q * u q := by
    intro q hq
    unfold proj
    rw [← Ut_sum h hq (fun q => d.S q * u q)]
    exact sum_congr rfl fun j hj => by rw [← hy j (mem_range.1 hj), A_mul h (mem_range.1 hj)]
  set w := fun q => if trunc d q ≠ 0 then 0 else d.S q * u q with hwd
  have hr : ∀ j < m, b j - ∑ k ∈ range n, A j k * svSolve m n d b k = ∑ q ∈ range n, d.U j q * w q := by
    intro j hj
    rw [A_solve h hj, ← hy j hj, A_mul h hj, ← sum_sub_distrib]
    refine sum_congr rfl fun q hq => ?_
    simp only [hwd, hw q (mem_range.1 hq)]
    split <;> simp [hu]
  have h1 : ∑ j ∈ range m, (b j - ∑ k ∈ range n, A j k * svSolve m n d b k) ^ 2 = ∑ q ∈ range n, w q ^ 2 := by
    rw [sum_congr rfl fun j hj => by rw [hr j (mem_range.1 hj)]]
    have : ∀ j ∈ range m, (∑ q ∈ range n, d.U j q * w q) ^ 2 =
        ∑ q ∈ range n, w q * (d.U j q * ∑ q' ∈ range n, d.U j q' * w q') := fun j _ => by
      rw [sq, sum_mul]; exact sum_congr rfl fun q _ => by ring
    rw [sum_congr rfl this, sum_comm]
    refine sum_congr rfl fun q hq => ?_
    rw [← mul_sum, Ut_sum h (mem_range.1 hq), sq]
  have h2 : ∑ q ∈ range n, u q ^ 2 ≤ ∑ k ∈ range n, y k ^ 2 := by
    have hx : ∀ k, ∑ q ∈ range n, d.V k q * u q = ∑ q ∈ range n, d.V k q * u q := fun _ => rfl
    have key : 0 ≤ ∑ k ∈ range n, (y k - ∑ q ∈ range n, d.V k q * u q) ^ 2 := sum_nonneg fun _ _ => sq_nonneg _
    have c1 : ∑ k ∈ range n, y k * ∑ q ∈ range n, d.V k q * u q = ∑ q ∈ range n, u q ^ 2 := by
      simp_rw [mul_sum]
      rw [sum_comm]
      refine sum_congr rfl fun q _ => ?_
      rw [sq]
      nth_rw 2 [hu]
      simp only
      rw [mul_sum]
      exact sum_congr rfl fun k _ => by ring
    have c2 : ∑ k ∈ range n, (∑ q ∈ range n, d.V k q * u q) ^ 2 = ∑ q ∈ range n, u q ^ 2 := by
      have : ∀ k ∈ range n, (∑ q ∈ range n, d.V k q * u q) ^ 2 =
          ∑ q ∈ range n, u q * (d.V k q * ∑ q' ∈ range n, d.V k q' * u q') := fun k _ => by
        rw [sq, sum_mul]; exact sum_congr rfl fun q _ => by ring
      rw [sum_congr rfl this, sum_comm]
      refine sum_congr rfl fun q hq => ?_
      rw [← mul_sum, sq]
      congr 1
      simp_rw [mul_sum]
      rw [sum_comm]
      rw [← sum_delta q n (mem_range.1 hq) u (fun q q' => ∑ k ∈ range n, d.V k q * d.V k q')
        (fun q' hq' => h.orthV q (mem_range.1 hq) q' hq')]
      refine sum_congr rfl fun q' _ => ?_
      rw [sum_mul]
      exact sum_congr rfl fun k _ => by ring
    have : ∀ k ∈ range n, (y k - ∑ q ∈ range n, d.V k q * u q) ^ 2 =
        y k ^ 2 - 2 * (y k * ∑ q ∈ range n, d.V k q * u q) + (∑ q ∈ range n, d.V k q * u q) ^ 2 := fun k _ => by ring
    rw [sum_congr rfl this, sum_add_distrib, sum_sub_distrib, ← mul_sum, c1, c2] at key
    linarith
  rw [h1]
  calc ∑ q ∈ range n, w q ^ 2 ≤ ∑ q ∈ range n, 1 / 10 ^ 16 * u q ^ 2 := by
        refine sum_le_sum fun q hq => ?_
        have hp := h.nonneg q (mem_range.1 hq)
        simp only [hwd]
        rcases trunc_cases d q with ⟨e, h1⟩ | ⟨e, h1⟩
        · simp only [e, ne_eq, not_true_eq_false, if_false]
          rw [mul_pow]
          refine mul_le_mul_of_nonneg_right ?_ (sq_nonneg _)
          calc d.S q ^ 2 ≤ (1 / 10 ^ 8) ^ 2 := pow_le_pow_left₀ hp h1.le 2
            _ = 1 / 10 ^ 16 := by norm_num
        · have : d.S q ≠ 0 := by
            have : (0:ℝ) < 1 / 10 ^ 8 := by norm_num
            intro h0; rw [h0] at h1; linarith
          rw [e, if_pos this]
          have := sq_nonneg (u q)
          simp only [ne_eq, OfNat.ofNat_ne_zero, not_false_eq_true, zero_pow]
          positivity
    _ = 1 / 10 ^ 16 * ∑ q ∈ range n, u q ^ 2 := by rw [mul_sum]
    _ ≤ _ := mul_le_mul_of_nonneg_left h2 (by norm_num)

end Magma.Engine.Evaluate
