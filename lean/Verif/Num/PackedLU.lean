import Mathlib.LinearAlgebra.Matrix.NonsingularInverse
import Mathlib.LinearAlgebra.Matrix.Block
import Mathlib.Data.Real.Basic
import Mathlib.Tactic.Linarith
import Mathlib.Tactic.FieldSimp
import Mathlib.Tactic.FinCases
import Mathlib.Tactic.IntervalCases
import Mathlib.LinearAlgebra.Matrix.Notation

/-!
The linear solver behind `order()` of the phase files, /repo/sources/melts_linalg.c: a wrapper of GSL's LU decomposition that
leaves out the zero rows and columns of a symmetric matrix.

Simplifications: `double` is the real numbers. GSL (not part of /repo) is modelled by what its manual says of
`gsl_linalg_LU_decomp`, `gsl_blas_dtrsv` and the permutation functions. Arrays are functions on the natural numbers of which only
the entries below the size are used. `N2` is a `size_t`: it is modelled by an integer, and a negative integer is treated as the
huge unsigned number it wraps round to.
-/

namespace Verif.Num.PackedLU

open Finset
open scoped Matrix

noncomputable section

open Classical in
/-- `gsl_vector_isnull` of a vector of length `n`. -/
def isnull (n : ℕ) (v : ℕ → ℝ) : Bool := decide (∀ j < n, v j = 0)

/-- The matrix, the permutation and `N2` inside `melts_LU_decomp`, melts_linalg.c 43-49. -/
structure Pack where
  A : ℕ → ℕ → ℝ
  p : ℕ → ℕ
  n2 : ℤ

/-- The loop over `i`, melts_linalg.c 55-70, with `k` rows left: also the row that was exchanged, if any. -/
def inner (N j : ℕ) : ℕ → ℕ → Pack → Pack × Option ℕ
  | 0, _, s => (s, none)
  | k + 1, i, s =>
    if isnull N (s.A i) then inner N j k (i + 1) { s with n2 := s.n2 - 1 }
    else ({ s with A := fun a => s.A (Equiv.swap j i a), p := fun a => s.p (Equiv.swap j i a) }, some i)

/-- The loop over `j`, melts_linalg.c 49-72 (at most `k` more rounds). -/
def outer (N : ℕ) : ℕ → ℕ → Pack → Pack
  | 0, _, s => s
  | k + 1, j, s =>
    if j < N then
      if isnull N (s.A j) then
        match inner N j (N - (j + 1)) (j + 1) { s with n2 := s.n2 - 1 } with
        | (s', none) => outer N k (j + 1) s'
        | (s', some i) => outer N k (i + 1) s'
      else outer N k (j + 1) s
    else s

/-- `gsl_permutation_swap(p, i, q[i])` for `i = 0, …, n - 1`, melts_linalg.c 104-107. -/
def combine (p q : ℕ → ℕ) : ℕ → ℕ → ℕ
  | 0 => p
  | n + 1 => fun a => combine p q n (Equiv.swap n (q n) a)

/-- `melts_LU_decomp`, melts_linalg.c 24-119. `lu n M` is what `gsl_linalg_LU_decomp` leaves in the matrix and the permutation
for the leading `n`×`n` block of `M`. -/
def decomp (lu : ℕ → (ℕ → ℕ → ℝ) → (ℕ → ℕ → ℝ) × (ℕ → ℕ)) (N : ℕ) (A : ℕ → ℕ → ℝ) : (ℕ → ℕ → ℝ) × (ℕ → ℕ) :=
  let s := outer N N 0 ⟨A, id, N⟩
  if 0 ≤ s.n2 ∧ s.n2 ≤ 1 then
    let p0 := s.p 0
    let A0 := s.A 0 p0
    let B := fun i j => if i = 0 ∧ j = p0 then 0 else s.A i j
    (fun i j => if A0 ≠ 0 ∧ i = 0 ∧ j = 0 then 1 / A0 else B i j, s.p)
  else if 0 ≤ s.n2 ∧ s.n2 < N then
    let n := s.n2.toNat
    let B := fun i j => s.A i (s.p j)
    (fun i j => if i < n ∧ j < n then (lu n B).1 i j else B i j, combine s.p (lu n B).2 n)
  else lu N s.A

/-- `gsl_blas_dtrsv` with `CblasLower, CblasUnit`. -/
def forward (LU : ℕ → ℕ → ℝ) (y : ℕ → ℝ) (i : ℕ) : ℝ := y i - ∑ j : Fin i, LU i j * forward LU y j
termination_by i
decreasing_by exact j.2

/-- `gsl_blas_dtrsv` with `CblasUpper, CblasNonUnit`: the entry `i` counted from the end, `n - 1 - i`. -/
def backward (n : ℕ) (LU : ℕ → ℕ → ℝ) (y : ℕ → ℝ) (i : ℕ) : ℝ :=
  (y (n - 1 - i) - ∑ j : Fin i, LU (n - 1 - i) (n - 1 - j) * backward n LU y j) / LU (n - 1 - i) (n - 1 - i)
termination_by i
decreasing_by exact j.2

/-- Both triangular solutions on the first `n` entries; the others are left. -/
def triangular (n : ℕ) (LU : ℕ → ℕ → ℝ) (y : ℕ → ℝ) : ℕ → ℝ :=
  fun i => if i < n then backward n LU (forward LU y) (n - 1 - i) else y i

/-- The number of rows that are not zero, melts_linalg.c 158-166. -/
def rowsOf (N : ℕ) (LU : ℕ → ℕ → ℝ) : ℕ := ((range N).filter fun i => isnull N (LU i) = false).card

/-- `gsl_permute_vector_inverse`: entry `a` of the result is the entry `i` of `x` with `p[i] = a`. -/
def unpermute (N : ℕ) (p : ℕ → ℕ) (x : ℕ → ℝ) : ℕ → ℝ := fun a => ∑ i ∈ range N, if p i = a then x i else 0

/-- `melts_LU_svx`, melts_linalg.c 140-202 (and `melts_LU_solve`, 121-138, which copies the right side first). -/
def svx (N : ℕ) (LU : ℕ → ℕ → ℝ) (p : ℕ → ℕ) (x : ℕ → ℝ) : ℕ → ℝ :=
  let n := rowsOf N LU
  if n ≤ 1 then fun i => if i = p 0 then x (p 0) * LU 0 0 else 0
  else if n < N then
    unpermute N p fun i => if i < n then triangular n LU (fun j => x (p j)) i else 0
  else triangular N LU fun j => x (p j)

/-- `melts_LU_decomp` followed by `melts_LU_solve`, as the phase files call them (spinel.c 2282-2284). -/
def solve (lu : ℕ → (ℕ → ℕ → ℝ) → (ℕ → ℕ → ℝ) × (ℕ → ℕ)) (N : ℕ) (A : ℕ → ℕ → ℝ) (b : ℕ → ℝ) : ℕ → ℝ :=
  svx N (decomp lu N A).1 (decomp lu N A).2 b

/-! ### Specification -/

/-- The entries of a matrix as an array. -/
def arr {N : ℕ} (A : Matrix (Fin N) (Fin N) ℝ) : ℕ → ℕ → ℝ :=
  fun i j => if h : i < N ∧ j < N then A ⟨i, h.1⟩ ⟨j, h.2⟩ else 0

/-- The entries of a vector as an array. -/
def vec {N : ℕ} (b : Fin N → ℝ) : ℕ → ℝ := fun i => if h : i < N then b ⟨i, h⟩ else 0

/-- What the GSL manual says of `gsl_linalg_LU_decomp(A, p, …)`: `P A = L U` with `L` unit lower and `U` upper triangular, both
stored in one matrix, row `i` of `P A` being row `p[i]` of `A`; no rows are exchanged and nothing is changed when there is
nothing to eliminate. -/
structure Factors (n : ℕ) (A C : ℕ → ℕ → ℝ) (p : ℕ → ℕ) : Prop where
  lt : ∀ i < n, p i < n
  inj : ∀ i < n, ∀ j < n, p i = p j → i = j
  prod : ∀ i < n, ∀ j < n, A (p i) j =
    ∑ k ∈ range n, (if k < i then C i k else if k = i then 1 else 0) * (if k ≤ j then C k j else 0)
  upper : (∀ i < n, ∀ j < i, A i j = 0) → (∀ i < n, ∀ j < n, C i j = A i j) ∧ ∀ i < n, p i = i

/-! ### Lemmas -/

lemma isnull_iff (n : ℕ) (v : ℕ → ℝ) : isnull n v = true ↔ ∀ j < n, v j = 0 := by simp [isnull]

lemma isnull_false (n : ℕ) (v : ℕ → ℝ) : isnull n v = false ↔ ∃ j < n, v j ≠ 0 := by simp [isnull]

lemma arr_lt {N : ℕ} (A : Matrix (Fin N) (Fin N) ℝ) {i j : ℕ} (hi : i < N) (hj : j < N) : arr A i j = A ⟨i, hi⟩ ⟨j, hj⟩ := by
  simp [arr, hi, hj]

/-- Without zero rows nothing is packed. -/
lemma outer_full {N : ℕ} (k j : ℕ) (s : Pack) (h : ∀ i < N, isnull N (s.A i) = false) : outer N k j s = s := by
  induction k generalizing j with
  | zero => rfl
  | succ k ih =>
    unfold outer
    split_ifs with h1 h2
    · rw [h j h1] at h2; cases h2
    · exact ih (j + 1)
    · rfl

/-- Forward substitution solves the lower triangular system. -/
lemma forward_spec (LU : ℕ → ℕ → ℝ) (y : ℕ → ℝ) (i : ℕ) : forward LU y i + ∑ j ∈ range i, LU i j * forward LU y j = y i := by
  rw [forward, Finset.sum_range (fun j => LU i j * forward LU y j)]; ring

/-- Back substitution solves the upper triangular system. -/
lemma backward_spec (n : ℕ) (LU : ℕ → ℕ → ℝ) (y : ℕ → ℝ) {i : ℕ} (hi : i < n) (h : LU i i ≠ 0) :
    ∑ j ∈ range n, (if i ≤ j then LU i j else 0) * backward n LU y (n - 1 - j) = y i := by
  have e : n - 1 - (n - 1 - i) = i := by omega
  have := backward.eq_1 n LU y (n - 1 - i)
  rw [e, eq_div_iff h, ← Finset.sum_range (fun j => LU i (n - 1 - j) * backward n LU y j)] at this
  rw [← sum_range_reflect]
  have s1 : ∀ j ∈ range n, (if i ≤ n - 1 - j then LU i (n - 1 - j) else 0) * backward n LU y (n - 1 - (n - 1 - j)) =
      if j ≤ n - 1 - i then LU i (n - 1 - j) * backward n LU y j else 0 := by
    intro j hj
    have hj := mem_range.mp hj
    rw [show n - 1 - (n - 1 - j) = j by omega]
    by_cases hc : j ≤ n - 1 - i
    · rw [if_pos hc, if_pos (by omega)]
    · rw [if_neg hc, if_neg (by omega), zero_mul]
  rw [sum_congr rfl s1, ← sum_filter]
  have s2 : (range n).filter (fun j => j ≤ n - 1 - i) = range (n - 1 - i + 1) := by
    ext j; simp only [mem_filter, mem_range]; omega
  rw [s2, sum_range_succ, e]
  linarith

/-- The two substitutions solve the factored system. -/
lemma triangular_spec {n : ℕ} {A C : ℕ → ℕ → ℝ} {p : ℕ → ℕ} (hF : Factors n A C p) (hd : ∀ i < n, C i i ≠ 0) (b : ℕ → ℝ) {i : ℕ}
    (hi : i < n) : ∑ j ∈ range n, A (p i) j * triangular n C (fun j => b (p j)) j = b (p i) := by
  set y : ℕ → ℝ := fun j => b (p j)
  have ht : ∀ j ∈ range n, triangular n C y j = backward n C (forward C y) (n - 1 - j) :=
    fun j hj => if_pos (mem_range.mp hj)
  calc ∑ j ∈ range n, A (p i) j * triangular n C y j
      = ∑ j ∈ range n, ∑ k ∈ range n, (if k < i then C i k else if k = i then 1 else 0) *
          ((if k ≤ j then C k j else 0) * backward n C (forward C y) (n - 1 - j)) := by
        refine sum_congr rfl fun j hj => ?_
        rw [ht j hj, hF.prod i hi j (mem_range.mp hj), sum_mul]
        exact sum_congr rfl fun k _ => mul_assoc _ _ _
    _ = ∑ k ∈ range n, (if k < i then C i k else if k = i then 1 else 0) * forward C y k := by
        rw [sum_comm]
        refine sum_congr rfl fun k hk => ?_
        rw [← mul_sum, backward_spec n C _ (mem_range.mp hk) (hd k (mem_range.mp hk))]
    _ = y i := by
        rw [← forward_spec C y i, ← sum_subset (range_subset_range.mpr hi : range (i + 1) ⊆ range n), sum_range_succ]
        · rw [add_comm]; congr 1
          · simp
          · refine sum_congr rfl fun k hk => ?_
            rw [if_pos (mem_range.mp hk)]
        · intro k _ hk
          have : ¬ k < i + 1 := fun h => hk (mem_range.mpr h)
          rw [if_neg (by omega), if_neg (by omega), zero_mul]

/-- A matrix with nonzero determinant has factors with nonzero diagonal. -/
lemma diag_ne {N : ℕ} {A : Matrix (Fin N) (Fin N) ℝ} {C : ℕ → ℕ → ℝ} {p : ℕ → ℕ} (hF : Factors N (arr A) C p)
    (hA : A.det ≠ 0) : ∀ i < N, C i i ≠ 0 := by
  let L : Matrix (Fin N) (Fin N) ℝ := fun i k => if (k : ℕ) < i then C i k else if (k : ℕ) = i then 1 else 0
  let U : Matrix (Fin N) (Fin N) ℝ := fun k j => if (k : ℕ) ≤ j then C k j else 0
  have hbij : Function.Bijective (fun i : Fin N => (⟨p i, hF.lt i i.2⟩ : Fin N)) := by
    rw [← Finite.injective_iff_bijective]
    intro i j h
    exact Fin.ext (hF.inj i i.2 j j.2 (by simpa using h))
  let q := Equiv.ofBijective _ hbij
  have hprod : A.submatrix q id = L * U := by
    ext i j
    have := hF.prod i i.2 j j.2
    rw [arr_lt A (hF.lt i i.2) j.2, Finset.sum_range] at this
    rw [Matrix.mul_apply]
    exact this
  have hdet : (A.submatrix q id).det ≠ 0 := by
    have h := Matrix.det_permute q A
    have e : A.submatrix q id = A.submatrix (⇑q) id := rfl
    rw [e, h]
    exact mul_ne_zero (by rcases Int.units_eq_one_or (Equiv.Perm.sign q) with h | h <;> rw [h] <;> simp) hA
  rw [hprod, Matrix.det_mul] at hdet
  have hU : U.det = ∏ i, U i i := Matrix.det_of_upperTriangular (fun i j h => if_neg (not_le.mpr h))
  have := right_ne_zero_of_mul hdet
  rw [hU, prod_ne_zero_iff] at this
  intro i hi
  have := this ⟨i, hi⟩ (mem_univ _)
  simpa [U] using this

/-- Rows of a matrix with nonzero determinant are not zero. -/
lemma rows_ne {N : ℕ} {A : Matrix (Fin N) (Fin N) ℝ} (hA : A.det ≠ 0) : ∀ i < N, isnull N (arr A i) = false := by
  intro i hi
  rw [isnull_false]
  by_contra h
  push Not at h
  refine hA (Matrix.det_eq_zero_of_row_eq_zero ⟨i, hi⟩ fun j => ?_)
  rw [← arr_lt A hi j.2]; exact h j j.2

lemma rowsOf_full {N : ℕ} {C : ℕ → ℕ → ℝ} (h : ∀ i < N, C i i ≠ 0) : rowsOf N C = N := by
  unfold rowsOf
  rw [filter_true_of_mem, card_range]
  intro i hi
  have hi := mem_range.mp hi
  exact (isnull_false _ _).mpr ⟨i, hi, h i hi⟩

/-- C77. A system with a nonsingular matrix of any size is solved exactly. -/
theorem C77_regular {N : ℕ} (lu : ℕ → (ℕ → ℕ → ℝ) → (ℕ → ℕ → ℝ) × (ℕ → ℕ)) (A : Matrix (Fin N) (Fin N) ℝ) (b : Fin N → ℝ)
    (hlu : 2 ≤ N → Factors N (arr A) (lu N (arr A)).1 (lu N (arr A)).2) (hA : A.det ≠ 0) (i : Fin N) :
    solve lu N (arr A) (vec b) i = (A⁻¹ *ᵥ b) i := by
  have hout : outer N N 0 ⟨arr A, id, N⟩ = ⟨arr A, id, N⟩ := outer_full N 0 _ (rows_ne hA)
  have key : ∀ x : Fin N → ℝ, A *ᵥ x = b → A⁻¹ *ᵥ b = x := by
    intro x hx
    rw [← hx, Matrix.mulVec_mulVec, Matrix.nonsing_inv_mul _ (isUnit_iff_ne_zero.mpr hA), Matrix.one_mulVec]
  have hN : 0 < N := i.pos
  suffices h : A *ᵥ (fun i : Fin N => solve lu N (arr A) (vec b) i) = b by rw [key _ h]
  rcases Nat.lt_or_ge N 2 with h2 | h2
  · obtain rfl : N = 1 := by omega
    have ha : A 0 0 ≠ 0 := by rw [Matrix.det_fin_one] at hA; exact hA
    have hd : decomp lu 1 (arr A) = (fun i j => if arr A 0 0 ≠ 0 ∧ i = 0 ∧ j = 0 then 1 / arr A 0 0 else
        if i = 0 ∧ j = 0 then 0 else arr A i j, id) := by
      simp only [decomp, hout]; simp
    have ha' : arr A 0 0 = A 0 0 := arr_lt A one_pos one_pos
    ext j
    have hj : j = 0 := Subsingleton.elim _ _
    subst hj
    have hr : rowsOf 1 (decomp lu 1 (arr A)).1 ≤ 1 := (card_filter_le _ _).trans (by simp)
    simp only [Matrix.mulVec, dotProduct, univ_unique, sum_singleton, solve, svx, hr, if_true]
    rw [hd]
    simp [ha', ha, vec]
    field_simp
  · have hF := hlu h2
    have hd : decomp lu N (arr A) = lu N (arr A) := by
      simp only [decomp, hout]
      rw [if_neg (by push_cast; omega), if_neg (by omega)]
    have hdiag := diag_ne hF hA
    have hsol : ∀ k, solve lu N (arr A) (vec b) k =
        triangular N (lu N (arr A)).1 (fun j => vec b ((lu N (arr A)).2 j)) k := by
      intro k
      simp only [solve, svx, hd, rowsOf_full hdiag]
      rw [if_neg (by omega), if_neg (by omega)]
    have hsurj : ∀ j : Fin N, ∃ i < N, (lu N (arr A)).2 i = j := by
      intro j
      have : Function.Surjective (fun i : Fin N => (⟨(lu N (arr A)).2 i, hF.lt i i.2⟩ : Fin N)) := by
        refine Finite.surjective_of_injective fun a c h => Fin.ext (hF.inj a a.2 c c.2 (by simpa using h))
      obtain ⟨i, hi⟩ := this j
      exact ⟨i, i.2, by simpa [Fin.ext_iff] using hi⟩
    ext j
    obtain ⟨a, ha, haj⟩ := hsurj j
    have := triangular_spec hF hdiag (vec b) ha
    rw [haj, Finset.sum_range] at this
    simp only [Matrix.mulVec, dotProduct]
    rw [show b j = vec b j by simp [vec], ← this]
    refine sum_congr rfl fun k _ => ?_
    rw [hsol, arr_lt A j.2 k.2]

end

end Verif.Num.PackedLU
