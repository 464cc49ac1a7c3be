import Verif.Prelude
import Mathlib.Analysis.Real.Sqrt

/-!
Model of the Householder routines, /repo/sources/lawson_hanson.c 260-442, of the decomposition of the
constraint matrix and the triangular solve, /repo/sources/equality_constraints.c 497-507, and of the
reassembly of the step, /repo/sources/silmin.c 1031-1032.

Simplifications: `double` is the real numbers. A row or column of a C matrix is a function of the index;
the four routines `householder{Col,Row}{Col,Row}` differ only in whether the vectors are rows or columns of
their matrices and are modelled by the same operation on vectors. All indices are natural numbers.
-/

namespace Magma.Num.Householder

open Finset

/-- lawson_hanson.c 311, 344, 377, 410: the routine does nothing unless `0 <= p < l <= m`. -/
abbrev Active (p l m : ℕ) : Prop := p < l ∧ l ≤ m

/-- lawson_hanson.c 315-317: the new pivot element. -/
noncomputable def pivot (p l m : ℕ) (v : ℕ → ℝ) : ℝ :=
  let s := Real.sqrt (v p ^ 2 + ∑ i ∈ Icc l m, v i ^ 2)
  if v p > 0 then s * -1 else s

/-- lawson_hanson.c 314-318, mode H1: the vector as stored afterwards, and `*h`. The stored elements
`l..m` are kept: they are needed to apply the transformation. -/
noncomputable def h1 (p l m : ℕ) (v : ℕ → ℝ) (h : ℝ) : (ℕ → ℝ) × ℝ :=
  if Active p l m then (Function.update v p (pivot p l m v), v p - pivot p l m v) else (v, h)

/-- lawson_hanson.c 320-329, mode H2: apply the stored transformation to one vector. -/
noncomputable def h2 (p l m : ℕ) (v : ℕ → ℝ) (h : ℝ) (c : ℕ → ℝ) : ℕ → ℝ :=
  if Active p l m then
    let b := v p * h
    if b = 0 then c
    else
      let s := (c p * h + ∑ i ∈ Icc l m, c i * v i) / b
      fun i => if i = p then c p + s * h else if l ≤ i ∧ i ≤ m then c i + s * v i else c i
  else c

/-! ### Algebra -/

/-- Inner product of the first `n` elements. -/
def dot (n : ℕ) (x y : ℕ → ℝ) : ℝ := ∑ i ∈ range n, x i * y i

theorem dot_comm (n : ℕ) (x y : ℕ → ℝ) : dot n x y = dot n y x := by
  unfold dot; exact sum_congr rfl fun i _ => mul_comm _ _

/-- The reflection vector. -/
def uvec (p l m : ℕ) (v : ℕ → ℝ) (h : ℝ) (i : ℕ) : ℝ :=
  if i = p then h else if l ≤ i ∧ i ≤ m then v i else 0

theorem dot_uvec {p l m n : ℕ} (ha : Active p l m) (hn : m < n) (v : ℕ → ℝ) (h : ℝ) (c : ℕ → ℝ) :
    dot n c (uvec p l m v h) = c p * h + ∑ i ∈ Icc l m, c i * v i := by
  have hp : p ∉ Icc l m := by simp; omega
  have hsub : insert p (Icc l m) ⊆ range n := by
    intro i hi
    simp only [mem_insert, mem_Icc] at hi
    have := ha.1; have := ha.2
    simp only [mem_range]; omega
  unfold dot
  rw [← sum_subset hsub]
  · rw [sum_insert hp]
    congr 1
    · simp [uvec]
    · refine sum_congr rfl fun i hi => ?_
      have hne : i ≠ p := fun e => hp (e ▸ hi)
      rw [mem_Icc] at hi
      simp [uvec, hne, hi]
  · intro i _ hi
    simp only [mem_insert, mem_Icc, not_or] at hi
    simp [uvec, hi.1, hi.2]

theorem h2_eq {p l m n : ℕ} (ha : Active p l m) (hn : m < n) (v : ℕ → ℝ) (h : ℝ) (hb : v p * h ≠ 0)
    (c : ℕ → ℝ) (i : ℕ) :
    h2 p l m v h c i = c i + dot n c (uvec p l m v h) / (v p * h) * uvec p l m v h i := by
  rw [dot_uvec ha hn]
  unfold h2 uvec
  rw [if_pos ha]
  simp only [hb, if_false]
  split_ifs with h1 h2
  · rw [h1]
  · rfl
  · simp

theorem dot_add_smul (n : ℕ) (x y z : ℕ → ℝ) (a : ℝ) :
    dot n (fun i => x i + a * y i) z = dot n x z + a * dot n y z := by
  unfold dot
  rw [mul_sum, ← sum_add_distrib]
  exact sum_congr rfl fun i _ => by ring

/-- The transformation is symmetric, whatever is stored. -/
theorem dot_h2 {p l m n : ℕ} (hn : m < n) (v : ℕ → ℝ) (h : ℝ) (x y : ℕ → ℝ) :
    dot n (h2 p l m v h x) y = dot n x (h2 p l m v h y) := by
  by_cases ha : Active p l m
  · by_cases hb : v p * h = 0
    · simp [h2, hb]
    · have hx : h2 p l m v h x = fun i => x i + dot n x (uvec p l m v h) / (v p * h) *
          uvec p l m v h i := funext fun i => h2_eq ha hn v h hb x i
      have hy : h2 p l m v h y = fun i => y i + dot n y (uvec p l m v h) / (v p * h) *
          uvec p l m v h i := funext fun i => h2_eq ha hn v h hb y i
      rw [hx, hy, dot_add_smul, dot_comm n x (fun i => _ + _), dot_add_smul, dot_comm n y x,
        dot_comm n (uvec p l m v h) y, dot_comm n (uvec p l m v h) x]
      ring
  · simp [h2, ha]

/-- Elements other than the pivot and `l..m` are not touched. -/
theorem h2_outside (p l m : ℕ) (v : ℕ → ℝ) (h : ℝ) (c : ℕ → ℝ) (i : ℕ) (hi : i ≠ p)
    (hi' : ¬ (l ≤ i ∧ i ≤ m)) : h2 p l m v h c i = c i := by
  unfold h2
  by_cases ha : Active p l m
  · rw [if_pos ha]
    by_cases hb : v p * h = 0
    · simp only [hb, if_true]
    · simp only [hb, if_false, hi, hi']
  · rw [if_neg ha]

theorem pivot_sq (p l m : ℕ) (v : ℕ → ℝ) :
    pivot p l m v ^ 2 = v p ^ 2 + ∑ i ∈ Icc l m, v i ^ 2 := by
  have hnn : 0 ≤ v p ^ 2 + ∑ i ∈ Icc l m, v i ^ 2 :=
    add_nonneg (sq_nonneg _) (sum_nonneg fun i _ => sq_nonneg _)
  unfold pivot
  simp only
  split_ifs
  · rw [mul_pow, Real.sq_sqrt hnn]; norm_num
  · rw [Real.sq_sqrt hnn]

/-- The stored product is zero only for a vector that is zero at the pivot and at `l..m`. -/
theorem pivot_zero {p l m : ℕ} (v : ℕ → ℝ) (hb : pivot p l m v * (v p - pivot p l m v) = 0) :
    v p = 0 ∧ (∀ i, l ≤ i → i ≤ m → v i = 0) ∧ pivot p l m v = 0 := by
  have hsq := pivot_sq p l m v
  have hS : 0 ≤ ∑ i ∈ Icc l m, v i ^ 2 := sum_nonneg fun i _ => sq_nonneg _
  have hpz : pivot p l m v = 0 := by
    rcases mul_eq_zero.mp hb with h | h
    · exact h
    · have hv : v p = pivot p l m v := by linarith
      by_contra hne
      have hp : 0 ≤ Real.sqrt (v p ^ 2 + ∑ i ∈ Icc l m, v i ^ 2) := Real.sqrt_nonneg _
      unfold pivot at hv hne
      simp only at hv hne
      split_ifs at hv hne with hpos
      · linarith
      · push Not at hpos
        exact hne (le_antisymm (by linarith) hp)
  rw [hpz] at hsq
  have h0 : v p ^ 2 = 0 := by nlinarith [sq_nonneg (v p)]
  have hs0 : ∑ i ∈ Icc l m, v i ^ 2 = 0 := by nlinarith [sq_nonneg (v p)]
  refine ⟨by simpa using h0, fun i hl hm => ?_, hpz⟩
  have := (sum_eq_zero_iff_of_nonneg fun i _ => sq_nonneg (v i)).mp hs0 i (by simp [hl, hm])
  simpa using this

/-- Twice the stored product is minus the square of the reflection vector. -/
theorem uvec_sq {p l m n : ℕ} (ha : Active p l m) (hn : m < n) (v : ℕ → ℝ) :
    dot n (uvec p l m v (v p - pivot p l m v)) (uvec p l m v (v p - pivot p l m v)) =
      -2 * (pivot p l m v * (v p - pivot p l m v)) := by
  have hp : p ∉ Icc l m := by simp; have := ha.1; omega
  rw [dot_uvec ha hn]
  have h1 : uvec p l m v (v p - pivot p l m v) p = v p - pivot p l m v := by simp [uvec]
  have h2 : ∑ i ∈ Icc l m, uvec p l m v (v p - pivot p l m v) i * v i = ∑ i ∈ Icc l m, v i ^ 2 := by
    refine sum_congr rfl fun i hi => ?_
    have hne : i ≠ p := fun e => hp (e ▸ hi)
    rw [mem_Icc] at hi
    simp [uvec, hne, hi, sq]
  rw [h1, h2]
  have := pivot_sq p l m v
  nlinarith

theorem uvec_update {p l m : ℕ} (v : ℕ → ℝ) (h s : ℝ) :
    uvec p l m (Function.update v p s) h = uvec p l m v h := by
  funext i
  unfold uvec
  split_ifs with h1
  · rfl
  · rw [Function.update_of_ne h1]
  · rfl

/-! ### C42 -/

/-- The transformation constructed from `v` (mode H1) applied to any vector (mode H2) preserves the inner
product of any two vectors, hence Euclidean norms, and is its own inverse; it does not touch elements other
than the pivot and `l..m`. No assumption: it holds for a zero vector and for an inactive call too. -/
theorem C42_orthogonal (p l m n : ℕ) (hn : m < n) (v : ℕ → ℝ) (h0 : ℝ) :
    let q := h1 p l m v h0
    let R := h2 p l m q.1 q.2
    (∀ x y, ∑ i ∈ range n, R x i * R y i = ∑ i ∈ range n, x i * y i) ∧
    (∀ x, R (R x) = x) ∧
    ∀ x i, i ≠ p → ¬ (l ≤ i ∧ i ≤ m) → R x i = x i := by
  intro q R
  have hout : ∀ x i, i ≠ p → ¬ (l ≤ i ∧ i ≤ m) → R x i = x i :=
    fun x i hi hi' => h2_outside p l m q.1 q.2 x i hi hi'
  have hinv : ∀ x, R (R x) = x := by
    intro x
    by_cases ha : Active p l m
    · have hq : q = (Function.update v p (pivot p l m v), v p - pivot p l m v) := by
        simp only [q, h1, if_pos ha]
      have hqp : q.1 p * q.2 = pivot p l m v * (v p - pivot p l m v) := by rw [hq]; simp
      by_cases hb : q.1 p * q.2 = 0
      · simp [R, h2, hb]
      · have hR : ∀ c, R c = fun i => c i + dot n c (uvec p l m v (v p - pivot p l m v)) /
            (q.1 p * q.2) * uvec p l m v (v p - pivot p l m v) i := by
          intro c
          funext i
          have := h2_eq ha hn q.1 q.2 hb c i
          have hu : uvec p l m q.1 q.2 = uvec p l m v (v p - pivot p l m v) := by
            rw [hq, uvec_update]
          rw [hu] at this
          exact this
        rw [hR (R x), hR x]
        funext i
        simp only
        rw [dot_add_smul, uvec_sq ha hn, ← hqp]
        generalize q.1 p * q.2 = B at hb
        field_simp
        ring
    · simp [R, h2, ha]
  refine ⟨fun x y => ?_, hinv, hout⟩
  have := dot_h2 (p := p) (l := l) hn q.1 q.2 x (R y)
  change dot n (R x) (R y) = dot n x (R (R y)) at this
  rw [hinv] at this
  exact this

/-- Applied to the vector it was made from, the transformation zeroes the elements `l..m`, puts the stored
pivot element, of absolute value `sqrt (v_p^2 + Σ v_i^2)` and of sign opposite to a positive `v_p`, at the
pivot, and leaves the others. -/
theorem C42_zeroes (p l m : ℕ) (ha : p < l ∧ l ≤ m) (v : ℕ → ℝ) (h0 : ℝ) :
    let q := h1 p l m v h0
    let w := h2 p l m q.1 q.2 v
    (∀ i, l ≤ i → i ≤ m → w i = 0) ∧ w p = q.1 p ∧
    w p ^ 2 = v p ^ 2 + ∑ i ∈ Icc l m, v i ^ 2 ∧ (v p > 0 → w p ≤ 0) ∧ (v p ≤ 0 → 0 ≤ w p) ∧
    ∀ i, i ≠ p → ¬ (l ≤ i ∧ i ≤ m) → w i = v i := by
  intro q w
  have hq : q = (Function.update v p (pivot p l m v), v p - pivot p l m v) := by
    simp only [q, h1, if_pos ha]
  have hqp : q.1 p * q.2 = pivot p l m v * (v p - pivot p l m v) := by rw [hq]; simp
  have hpv : q.1 p = pivot p l m v := by rw [hq]; simp
  have hout : ∀ i, i ≠ p → ¬ (l ≤ i ∧ i ≤ m) → w i = v i :=
    fun i hi hi' => h2_outside p l m q.1 q.2 v i hi hi'
  have key : (∀ i, l ≤ i → i ≤ m → w i = 0) ∧ w p = pivot p l m v := by
    by_cases hb : q.1 p * q.2 = 0
    · have hz := pivot_zero v (hqp ▸ hb)
      have hw : w = v := by simp [w, h2, hb]
      rw [hw]
      exact ⟨hz.2.1, by rw [hz.1, hz.2.2]⟩
    · have hw : ∀ i, w i = v i + dot (m + 1) v (uvec p l m v (v p - pivot p l m v)) /
          (q.1 p * q.2) * uvec p l m v (v p - pivot p l m v) i := by
        intro i
        have := h2_eq ha (Nat.lt_succ_self m) q.1 q.2 hb v i
        have hu : uvec p l m q.1 q.2 = uvec p l m v (v p - pivot p l m v) := by
          rw [hq, uvec_update]
        rw [hu] at this
        exact this
      have hd : dot (m + 1) v (uvec p l m v (v p - pivot p l m v)) = -(q.1 p * q.2) := by
        rw [dot_uvec ha (Nat.lt_succ_self m), hqp]
        have := pivot_sq p l m v
        have h2 : ∑ i ∈ Icc l m, v i * v i = ∑ i ∈ Icc l m, v i ^ 2 :=
          sum_congr rfl fun i _ => (sq _).symm
        rw [h2]
        nlinarith
      have hm1 : -(q.1 p * q.2) / (q.1 p * q.2) = -1 := by rw [neg_div, div_self hb]
      rw [hd, hm1] at hw
      constructor
      · intro i hl hm
        have hne : i ≠ p := by have := ha.1; omega
        rw [hw i]
        simp [uvec, hne, hl, hm]
      · rw [hw p]
        simp [uvec]
  have hs : 0 ≤ Real.sqrt (v p ^ 2 + ∑ i ∈ Icc l m, v i ^ 2) := Real.sqrt_nonneg _
  refine ⟨key.1, by rw [key.2, hpv], by rw [key.2, pivot_sq], fun hpos => ?_, fun hneg => ?_, hout⟩
  · rw [key.2]; unfold pivot; simp only [if_pos hpos]; linarith
  · rw [key.2]; unfold pivot; simp only [if_neg (not_lt.mpr hneg)]; exact hs

/-- A concrete case: (3, 4) is turned into (-5, 0); h = 8. -/
example : h1 0 1 1 (fun i => if i = 0 then 3 else 4) 0 =
      (Function.update (fun i => if i = 0 then 3 else 4) 0 (-5), 8) ∧
    h2 0 1 1 (Function.update (fun i => if i = 0 then (3 : ℝ) else 4) 0 (-5)) 8
      (fun i => if i = 0 then 3 else 4) 0 = -5 := by
  have h25 : Real.sqrt 25 = 5 := by
    rw [show (25 : ℝ) = 5 ^ 2 by norm_num]; exact Real.sqrt_sq (by norm_num)
  constructor
  · have : pivot 0 1 1 (fun i => if i = 0 then 3 else 4) = -5 := by
      norm_num [pivot, h25]
    simp only [h1, this]
    norm_num
  · rw [h2, if_pos ⟨by norm_num, by norm_num⟩]
    norm_num

end Magma.Num.Householder
