import Verif.Num.Reduced
import Mathlib.Algebra.BigOperators.Group.Finset.Basic
import Mathlib.Algebra.BigOperators.Field
import Mathlib.Logic.Equiv.Basic
import Mathlib.LinearAlgebra.Pi

/-!
Model of the least-squares solver `hfti`, /repo/sources/lawson_hanson.c 161-236, and of its call in the minimisation,
/repo/sources/silmin.c 932-968.

Simplifications as in `Num.Householder`: real numbers; a matrix is a function of two indices; entries outside the
dimensions are carried along but never read. One right-hand side (`nb` = 1, as in the only call).
-/

namespace Magma.Num.Hfti

open Finset Magma.Num.Householder Magma.Num.Constraint

/-- The arrays of `hfti`: matrix `a`, right-hand side `b`, pivot scalars `h`, reference norm `hBar` and interchange
record `p` (lawson_hanson.c 161-176). -/
structure St where
  a : ℕ → ℕ → ℝ
  b : ℕ → ℝ
  h : ℕ → ℝ
  hBar : ℝ
  p : ℕ → ℕ

/-- lawson_hanson.c 183, 189: `for (l=j, lambda=j; l<n; l++) if (h[l] > h[lambda]) lambda = l`, after `k` iterations. -/
noncomputable def amax (h : ℕ → ℝ) (j : ℕ) : ℕ → ℕ
  | 0 => j
  | k + 1 => if h (j + k) > h (amax h j k) then j + k else amax h j k

/-- lawson_hanson.c 182: the column norms brought up to date. -/
noncomputable def down (n j : ℕ) (s : St) (l : ℕ) : ℝ :=
  if 0 < j ∧ j ≤ l ∧ l < n then s.h l - s.a (j - 1) l ^ 2 else s.h l

/-- lawson_hanson.c 183: the column of greatest norm; `lambda` is zero at the start. -/
noncomputable def lam0 (n j : ℕ) (s : St) : ℕ := if 0 < j then amax (down n j s) j (n - j) else 0

/-- lawson_hanson.c 185. -/
def Again (n j : ℕ) (s : St) : Prop := j = 0 ∨ s.hBar + 0.001 * down n j s (lam0 n j s) ≤ s.hBar

open Classical in
/-- lawson_hanson.c 186-188: the column norms, computed afresh if the test of line 185 says so. -/
noncomputable def norms (m n j : ℕ) (s : St) (l : ℕ) : ℝ :=
  if Again n j s ∧ j ≤ l ∧ l < n then ∑ i ∈ Ico j m, s.a i l ^ 2 else down n j s l

open Classical in
/-- lawson_hanson.c 183, 189: the pivot column. -/
noncomputable def lam (m n j : ℕ) (s : St) : ℕ :=
  if Again n j s then amax (norms m n j s) j (n - j) else lam0 n j s

/-- lawson_hanson.c 194-196: interchange of columns `j` and `lambda`. -/
def swapCol (j k : ℕ) (a : ℕ → ℕ → ℝ) (i l : ℕ) : ℝ :=
  if l = j then a i k else if l = k then a i j else a i l

open Classical in
/-- lawson_hanson.c 180-204: one pass of the loop over the columns. -/
noncomputable def step (m n j : ℕ) (s : St) : St :=
  let k := lam m n j s
  let a := swapCol j k s.a
  let h := Function.update (norms m n j s) k (norms m n j s j)
  let q := h1 j (j + 1) (m - 1) (fun i => a i j) (h j)
  { a := fun i l => if l = j then q.1 i
      else if j < l ∧ l < n then h2 j (j + 1) (m - 1) q.1 q.2 (fun i => a i l) i else a i l
    b := h2 j (j + 1) (m - 1) q.1 q.2 s.b
    h := Function.update h j q.2
    hBar := if Again n j s then norms m n j s k else s.hBar
    p := Function.update s.p j k }

/-- lawson_hanson.c 180: the passes 0 to `k - 1`. -/
noncomputable def steps (m n : ℕ) : ℕ → St → St
  | 0, s => s
  | k + 1, s => step m n k (steps m n k s)

/-- lawson_hanson.c 206-209: the pseudorank. -/
noncomputable def rank (tau : ℝ) (n : ℕ) (a : ℕ → ℕ → ℝ) : ℕ :=
  if tau < 0 then ⌊|tau|⌋₊ else ((range n).filter fun i => |a i i| > tau).card

/-- lawson_hanson.c 211-214: the residual norm. -/
noncomputable def rnorm (k m : ℕ) (b : ℕ → ℝ) : ℝ := Real.sqrt (∑ i ∈ Ico k m, b i ^ 2)

/-- lawson_hanson.c 219-220: one reflection of the rows. -/
noncomputable def rowStep (k n i : ℕ) (s : (ℕ → ℕ → ℝ) × (ℕ → ℝ)) : (ℕ → ℕ → ℝ) × (ℕ → ℝ) :=
  let q := h1 i k (n - 1) (s.1 i) (s.2 i)
  (fun r => if r = i then q.1 else if r < i then h2 i k (n - 1) q.1 q.2 (s.1 r) else s.1 r,
   Function.update s.2 i q.2)

/-- lawson_hanson.c 219: `t` of the reflections, from row `k - 1` down. -/
noncomputable def rowSteps (k n : ℕ) : ℕ → (ℕ → ℕ → ℝ) × (ℕ → ℝ) → (ℕ → ℕ → ℝ) × (ℕ → ℝ)
  | 0, s => s
  | t + 1, s => rowStep k n (k - 1 - t) (rowSteps k n t s)

/-- lawson_hanson.c 223-227: back-substitution, the last `t` unknowns. -/
noncomputable def bsub (a : ℕ → ℕ → ℝ) (k : ℕ) (b : ℕ → ℝ) : ℕ → ℕ → ℝ
  | 0 => b
  | t + 1 =>
    let i := k - 1 - t
    Function.update (bsub a k b t) i ((bsub a k b t i - ∑ j ∈ Ioo i k, a i j * bsub a k b t j) / a i i)

/-- lawson_hanson.c 230-231: the reflections of the rows applied to the solution. -/
noncomputable def kback (k n : ℕ) (s : (ℕ → ℕ → ℝ) × (ℕ → ℝ)) : ℕ → (ℕ → ℝ) → ℕ → ℝ
  | 0, x => x
  | i + 1, x => h2 i k (n - 1) (s.1 i) (s.2 i) (kback k n s i x)

/-- lawson_hanson.c 233-237: the interchanges undone, from the last to the first. -/
def unperm (p : ℕ → ℕ) : ℕ → (ℕ → ℝ) → ℕ → ℝ
  | 0, x => x
  | j + 1, x => unperm p j fun i => if i = j then x (p j) else if i = p j then x j else x i

/-- lawson_hanson.c 161-239: pseudorank, residual norm and solution. `g0` and `h0` are the uninitialised arrays. -/
noncomputable def hfti (m n : ℕ) (A : ℕ → ℕ → ℝ) (b : ℕ → ℝ) (tau : ℝ) (g0 h0 : ℕ → ℝ) (p0 : ℕ → ℕ) :
    ℕ × ℝ × (ℕ → ℝ) :=
  let s := steps m n (min m n) ⟨A, b, h0, 0, p0⟩
  let k := rank tau n s.a
  let x :=
    if k = 0 then fun i => if i < n then 0 else s.b i
    else
      let f := if k < n then rowSteps k n k (s.a, g0) else (s.a, g0)
      let y := bsub f.1 k s.b k
      let z := fun i => if k ≤ i ∧ i < n then 0 else y i
      unperm s.p (min m n) (if k < n then kback k n f k z else z)
  (k, rnorm k m s.b, x)

/-! ### Reflections as linear maps -/

/-- The transformation with stored vector `v` and scalar `h`, as a linear map. -/
noncomputable def lin (p l m : ℕ) (v : ℕ → ℝ) (h : ℝ) : (ℕ → ℝ) →ₗ[ℝ] (ℕ → ℝ) where
  toFun := h2 p l m v h
  map_add' x y := by
    by_cases ha : Active p l m
    · by_cases hb : v p * h = 0
      · simp [h2, hb]
      · funext i
        simp only [Pi.add_apply]
        rw [h2_eq (n := m + 1) ha (by omega) v h hb, h2_eq (n := m + 1) ha (by omega) v h hb,
          h2_eq (n := m + 1) ha (by omega) v h hb]
        have : dot (m + 1) (x + y) (uvec p l m v h) = dot (m + 1) x (uvec p l m v h) + dot (m + 1) y (uvec p l m v h) := by
          unfold dot; rw [← sum_add_distrib]; exact sum_congr rfl fun l _ => by simp [add_mul]
        rw [this]; simp only [Pi.add_apply]; ring
    · simp [h2, ha]
  map_smul' c x := by
    by_cases ha : Active p l m
    · by_cases hb : v p * h = 0
      · simp [h2, hb]
      · funext i
        simp only [Pi.smul_apply, smul_eq_mul, RingHom.id_apply]
        rw [h2_eq (n := m + 1) ha (by omega) v h hb, h2_eq (n := m + 1) ha (by omega) v h hb]
        have : dot (m + 1) (c • x) (uvec p l m v h) = c * dot (m + 1) x (uvec p l m v h) := by
          unfold dot; rw [mul_sum]; exact sum_congr rfl fun l _ => by simp [mul_assoc]
        rw [this]; simp only [Pi.smul_apply, smul_eq_mul]; ring
    · simp [h2, ha]

/-- A linear map that preserves the scalar product of the first `m` components and can be undone. -/
structure Iso (m : ℕ) (Q : (ℕ → ℝ) →ₗ[ℝ] (ℕ → ℝ)) : Prop where
  dot : ∀ x y, dot m (Q x) (Q y) = dot m x y
  surj : ∀ y, ∃ x, Q x = y

theorem Iso.id (m : ℕ) : Iso m LinearMap.id := ⟨fun _ _ => rfl, fun y => ⟨y, rfl⟩⟩

theorem Iso.comp {m : ℕ} {Q R : (ℕ → ℝ) →ₗ[ℝ] (ℕ → ℝ)} (hQ : Iso m Q) (hR : Iso m R) : Iso m (Q ∘ₗ R) :=
  ⟨fun x y => by simp [hQ.dot, hR.dot], fun y => by
    obtain ⟨z, hz⟩ := hQ.surj y
    obtain ⟨x, hx⟩ := hR.surj z
    exact ⟨x, by simp [hx, hz]⟩⟩

theorem iso_lin (p l m n : ℕ) (hn : m < n) (v : ℕ → ℝ) (h0 : ℝ) :
    Iso n (lin p l m (h1 p l m v h0).1 (h1 p l m v h0).2) := by
  obtain ⟨c1, c2, -⟩ := C42_orthogonal p l m n hn v h0
  exact ⟨c1, fun y => ⟨h2 p l m (h1 p l m v h0).1 (h1 p l m v h0).2 y, c2 y⟩⟩

theorem lin_apply (p l m : ℕ) (v : ℕ → ℝ) (h : ℝ) (x : ℕ → ℝ) : lin p l m v h x = h2 p l m v h x := rfl

/-! ### The pivot search -/

theorem amax_mem (h : ℕ → ℝ) (j k : ℕ) : j ≤ amax h j k ∧ (0 < k → amax h j k < j + k) ∧ (k = 0 → amax h j k = j) := by
  induction k with
  | zero => simp [amax]
  | succ k ih =>
    obtain ⟨i1, i2, i3⟩ := ih
    simp only [amax]
    split_ifs with hh
    · exact ⟨by omega, fun _ => by omega, fun c => c.elim⟩
    · refine ⟨i1, fun _ => ?_, fun c => c.elim⟩
      rcases Nat.eq_zero_or_pos k with h0 | h0
      · have := i3 h0; omega
      · have := i2 h0; omega

theorem amax_ge (h : ℕ → ℝ) (j k : ℕ) (l : ℕ) (h1 : j ≤ l) (h2 : l < j + k) : h l ≤ h (amax h j k) := by
  induction k with
  | zero => omega
  | succ k ih =>
    simp only [amax]
    split_ifs with hh
    · rcases Nat.lt_succ_iff_lt_or_eq.mp (show l < (j + k).succ by omega) with c | c
      · exact (ih c).trans hh.le
      · rw [c]
    · rcases Nat.lt_succ_iff_lt_or_eq.mp (show l < (j + k).succ by omega) with c | c
      · exact ih c
      · rw [c]; exact not_lt.mp hh

/-! ### The loop over the columns -/

/-- The upper triangle of the first `j` columns, the whole of the others. -/
def tri (j : ℕ) (a : ℕ → ℕ → ℝ) (i l : ℕ) : ℝ := if l < j ∧ l < i then 0 else a i l

/-- The permutation recorded by the first `j` interchanges. -/
def sig (p : ℕ → ℕ) : ℕ → Equiv.Perm ℕ
  | 0 => 1
  | j + 1 => sig p j * Equiv.swap j (p j)

theorem sig_congr (p q : ℕ → ℕ) (j : ℕ) (h : ∀ i < j, p i = q i) : sig p j = sig q j := by
  induction j with
  | zero => rfl
  | succ j ih => rw [sig, sig, ih fun i hi => h i (by omega), h j (by omega)]

theorem unperm_sig (p : ℕ → ℕ) (j : ℕ) (x : ℕ → ℝ) (l : ℕ) : unperm p j x (sig p j l) = x l := by
  induction j generalizing x l with
  | zero => rfl
  | succ j ih =>
    rw [unperm, sig, Equiv.Perm.mul_apply, ih]
    have : ∀ i, (if i = j then x (p j) else if i = p j then x j else x i) = x (Equiv.swap j (p j) i) := by
      intro i; rw [Equiv.swap_apply_def]; split_ifs <;> rfl
    rw [this, Equiv.swap_apply_self]

/-- What holds after `j` passes. -/
structure Inv (m n : ℕ) (A : ℕ → ℕ → ℝ) (b : ℕ → ℝ) (j : ℕ) (s : St) (Q : (ℕ → ℝ) →ₗ[ℝ] (ℕ → ℝ)) : Prop where
  iso : Iso m Q
  perm : ∀ l, sig s.p j l < n ↔ l < n
  cols : ∀ l < n, ∀ i < m, tri j s.a i l = Q (fun i => A i (sig s.p j l)) i
  rhs : s.b = Q b
  nrm : 0 < j → ∀ l, j ≤ l → l < n → s.h l = ∑ i ∈ Ico (j - 1) m, s.a i l ^ 2
  diag : ∀ i < j, ∀ l, i ≤ l → l < n → ∑ r ∈ Ico i m, tri j s.a r l ^ 2 ≤ s.a i i ^ 2

theorem norms_eq {m n : ℕ} {A : ℕ → ℕ → ℝ} {b : ℕ → ℝ} {j : ℕ} {s : St} {Q : (ℕ → ℝ) →ₗ[ℝ] (ℕ → ℝ)}
    (I : Inv m n A b j s Q) (hj : j < n) (hm : j < m) :
    (∀ l, j ≤ l → l < n → norms m n j s l = ∑ i ∈ Ico j m, s.a i l ^ 2) ∧
    j ≤ lam m n j s ∧ lam m n j s < n ∧ ∀ l, j ≤ l → l < n → norms m n j s l ≤ norms m n j s (lam m n j s) := by
  have hd : 0 < j → ∀ l, j ≤ l → l < n → down n j s l = ∑ i ∈ Ico j m, s.a i l ^ 2 := by
    intro h0 l h1 h2
    rw [down, if_pos ⟨h0, h1, h2⟩, I.nrm h0 l h1 h2, ← Finset.sum_Ioo_add_eq_sum_Ico (by omega)]
    have : Ioo (j - 1) m = Ico j m := by ext x; simp; omega
    rw [this]; ring
  have hN : ∀ l, j ≤ l → l < n → norms m n j s l = ∑ i ∈ Ico j m, s.a i l ^ 2 := by
    intro l h1 h2
    unfold norms
    split_ifs with h
    · rfl
    · have h0 : 0 < j := by
        rcases Nat.eq_zero_or_pos j with h0 | h0
        · exact absurd ⟨Or.inl h0, h1, h2⟩ h
        · exact h0
      exact hd h0 l h1 h2
  have hl : ∃ g : ℕ → ℝ, (∀ l, j ≤ l → l < n → g l = norms m n j s l) ∧ lam m n j s = amax g j (n - j) := by
    unfold lam
    split_ifs with h
    · exact ⟨norms m n j s, fun _ _ _ => rfl, rfl⟩
    · have h0 : 0 < j := by
        rcases Nat.eq_zero_or_pos j with h0 | h0
        · exact absurd (Or.inl h0) h
        · exact h0
      refine ⟨down n j s, fun l h1 h2 => ?_, ?_⟩
      · rw [hN l h1 h2, hd h0 l h1 h2]
      · rw [lam0, if_pos h0]
  obtain ⟨g, hg, he⟩ := hl
  obtain ⟨m1, m2, -⟩ := amax_mem g j (n - j)
  have m2' := m2 (by omega)
  refine ⟨hN, by rw [he]; exact m1, by rw [he]; omega, fun l h1 h2 => ?_⟩
  rw [he, ← hg l h1 h2, ← hg _ m1 (by omega)]
  exact amax_ge g j (n - j) l h1 (by omega)

/-- The scalar product of the part from `j` on is kept by a reflection that does not touch the part before. -/
theorem tail_norm {m j : ℕ} (hj : j ≤ m) (x y : ℕ → ℝ) (hd : dot m y y = dot m x x) (hs : ∀ i < j, y i = x i) :
    ∑ i ∈ Ico j m, y i ^ 2 = ∑ i ∈ Ico j m, x i ^ 2 := by
  unfold dot at hd
  rw [← sum_range_add_sum_Ico _ hj, ← sum_range_add_sum_Ico _ hj] at hd
  have : ∑ i ∈ range j, y i * y i = ∑ i ∈ range j, x i * x i :=
    sum_congr rfl fun i hi => by rw [hs i (mem_range.mp hi)]
  rw [this] at hd
  simpa [sq] using hd

theorem inv_step {m n : ℕ} {A : ℕ → ℕ → ℝ} {b : ℕ → ℝ} {j : ℕ} {s : St} {Q : (ℕ → ℝ) →ₗ[ℝ] (ℕ → ℝ)}
    (I : Inv m n A b j s Q) (hj : j < n) (hm : j < m) : ∃ Q', Inv m n A b (j + 1) (step m n j s) Q' := by
  obtain ⟨hN, k1, k2, kmax⟩ := norms_eq I hj hm
  set k := lam m n j s with hk
  set a := swapCol j k s.a with ha
  set h := Function.update (norms m n j s) k (norms m n j s j) with hh
  set q := h1 j (j + 1) (m - 1) (fun i => a i j) (h j) with hq
  have hiso : Iso m (lin j (j + 1) (m - 1) q.1 q.2) := iso_lin j (j + 1) (m - 1) m (by omega) _ _
  have hout : ∀ x i, i < j → h2 j (j + 1) (m - 1) q.1 q.2 x i = x i :=
    fun x i hi => h2_outside _ _ _ _ _ _ _ (by omega) (fun c => by have := c.1; omega)
  have hsa : (step m n j s).a = fun i l => if l = j then q.1 i
      else if j < l ∧ l < n then h2 j (j + 1) (m - 1) q.1 q.2 (fun i => a i l) i else a i l := rfl
  have hsp : sig (step m n j s).p (j + 1) = sig s.p j * Equiv.swap j k := by
    rw [sig]
    change sig (Function.update s.p j k) j * Equiv.swap j (Function.update s.p j k j) = _
    rw [Function.update_self, sig_congr _ s.p j fun i hi => Function.update_of_ne (by omega) _ _]
  have hacol : ∀ l i, a i l = s.a i (Equiv.swap j k l) := by
    intro l i
    rw [ha, swapCol, Equiv.swap_apply_def]; split_ifs <;> rfl
  have hsw : ∀ l, Equiv.swap j k l < n ↔ l < n := by
    intro l; rw [Equiv.swap_apply_def]; split_ifs <;> omega
  have hswj : ∀ l, Equiv.swap j k l < j ↔ l < j := by
    intro l; rw [Equiv.swap_apply_def]; split_ifs <;> omega
  have hfix : ∀ l, l < j → Equiv.swap j k l = l := by
    intro l hl; rw [Equiv.swap_apply_def]; split_ifs <;> omega
  -- the swapped matrix, triangular part
  have hcol0 : ∀ l < n, ∀ i < m, tri j a i l = Q (fun i => A i (sig s.p j (Equiv.swap j k l))) i := by
    intro l hl i hi
    rw [← I.cols _ ((hsw l).mpr hl) i hi, tri, tri]
    by_cases c : l < j
    · rw [hfix l c]; simp only [hacol, hfix l c]
    · rw [if_neg (by omega), if_neg (fun h => c ((hswj l).mp h.1)), hacol]
  -- column `j` after the reflection
  have hcj : ∀ i < m, (if j < i then 0 else q.1 i) = h2 j (j + 1) (m - 1) q.1 q.2 (fun i => a i j) i := by
    intro i hi
    by_cases hact : j + 1 ≤ m - 1
    · obtain ⟨z1, z2, -, -, -, z6⟩ := C42_zeroes j (j + 1) (m - 1) ⟨by omega, hact⟩ (fun i => a i j) (h j)
      split_ifs with c
      · exact (z1 i (by omega) (by omega)).symm
      · rcases Nat.lt_or_eq_of_le (not_lt.mp c) with c | c
        · rw [hout _ i c, hq, h1, if_pos ⟨by omega, hact⟩]
          change Function.update (fun i => a i j) j _ i = a i j
          rw [Function.update_of_ne (show i ≠ j by omega)]
        · rw [c]; exact z2.symm
    · rw [if_neg (by omega), h2, if_neg (by rintro ⟨-, c⟩; omega), hq, h1, if_neg (by rintro ⟨-, c⟩; omega)]
  -- all columns after the reflection
  have hnew : ∀ l < n, ∀ i < m, tri (j + 1) (step m n j s).a i l = h2 j (j + 1) (m - 1) q.1 q.2 (fun i => tri j a i l) i := by
    intro l hl i hi
    rw [hsa, tri]
    rcases lt_trichotomy l j with c | c | c
    · simp only [show l ≠ j by omega, if_false, show ¬ (j < l ∧ l < n) by omega]
      have hz : ∀ i, j ≤ i → tri j a i l = 0 := fun i hi => by rw [tri, if_pos ⟨c, by omega⟩]
      rw [h2_fix j (j + 1) (m - 1) _ _ _ (hz j le_rfl) fun i hi _ => hz i (by omega)]
      change _ = tri j a i l
      rw [tri]
      simp only [show l < j + 1 by omega, c, true_and]
    · subst c
      have : (fun i => tri l a i l) = fun i => a i l := by
        funext i; rw [tri, if_neg (by omega)]
      rw [this, ← hcj i hi]
      simp
    · simp only [show l ≠ j by omega, if_false, show j < l ∧ l < n from ⟨c, hl⟩, if_true, show ¬ (l < j + 1 ∧ l < i) by omega]
      have : (fun i => tri j a i l) = fun i => a i l := by
        funext i; rw [tri, if_neg (by omega)]
      rw [this]; rfl
  -- restriction to the first `m` components does not matter
  have hloc : ∀ x y : ℕ → ℝ, (∀ i < m, x i = y i) → ∀ i < m, h2 j (j + 1) (m - 1) q.1 q.2 x i = h2 j (j + 1) (m - 1) q.1 q.2 y i := by
    intro x y hxy i hi
    have e : ∑ i ∈ Icc (j + 1) (m - 1), x i * q.1 i = ∑ i ∈ Icc (j + 1) (m - 1), y i * q.1 i :=
      sum_congr rfl fun i hi => by rw [hxy i (by simp at hi; omega)]
    unfold h2
    simp only [e, hxy j hm, hxy i hi]
    split_ifs
    · exact hxy i hi
    · simp only [hxy i hi]
    · exact hxy i hi
  have htail : ∀ l < n, ∀ r ≤ j, ∑ i ∈ Ico r m, tri (j + 1) (step m n j s).a i l ^ 2 = ∑ i ∈ Ico r m, tri j a i l ^ 2 := by
    intro l hl r hr
    have : ∑ i ∈ Ico r m, tri (j + 1) (step m n j s).a i l ^ 2 =
        ∑ i ∈ Ico r m, h2 j (j + 1) (m - 1) q.1 q.2 (fun i => tri j a i l) i ^ 2 :=
      sum_congr rfl fun i hi => by rw [hnew l hl i (by simp at hi; omega)]
    rw [this]
    exact tail_norm (by omega) _ _ (hiso.dot _ _) fun i hi => hout _ i (by omega)
  have hdj : (step m n j s).a j j ^ 2 = ∑ i ∈ Ico j m, s.a i k ^ 2 := by
    have e := htail j hj j le_rfl
    have z : ∑ i ∈ Ico j m, tri (j + 1) (step m n j s).a i j ^ 2 = (step m n j s).a j j ^ 2 := by
      rw [sum_eq_single j]
      · rw [tri, if_neg (by omega)]
      · intro i hi hne
        rw [tri, if_pos ⟨by omega, by simp at hi; omega⟩]; norm_num
      · intro hn; exact absurd (by simp; omega) hn
    rw [← z, e]
    refine sum_congr rfl fun i _ => ?_
    rw [tri, if_neg (by omega), hacol, Equiv.swap_apply_left]
  refine ⟨(lin j (j + 1) (m - 1) q.1 q.2) ∘ₗ Q, hiso.comp I.iso, ?_, ?_, ?_, ?_, ?_⟩
  · intro l
    rw [hsp, Equiv.Perm.mul_apply, I.perm, hsw]
  · intro l hl i hi
    rw [hnew l hl i hi, hsp]
    exact hloc _ _ (fun i hi => hcol0 l hl i hi) i hi
  · change h2 j (j + 1) (m - 1) q.1 q.2 s.b = _
    rw [I.rhs]; rfl
  · intro _ l h1 h2'
    have e := htail l h2' j le_rfl
    have e1 : ∑ i ∈ Ico j m, tri (j + 1) (step m n j s).a i l ^ 2 = ∑ i ∈ Ico j m, (step m n j s).a i l ^ 2 :=
      sum_congr rfl fun i _ => by rw [tri, if_neg (by omega)]
    have e2 : ∑ i ∈ Ico j m, tri j a i l ^ 2 = ∑ i ∈ Ico j m, s.a i (Equiv.swap j k l) ^ 2 :=
      sum_congr rfl fun i _ => by rw [tri, if_neg (by omega), hacol]
    rw [Nat.add_sub_cancel, ← e1, e, e2]
    change Function.update h j q.2 l = _
    rw [Function.update_of_ne (by omega), hh]
    by_cases c : l = k
    · rw [c, Function.update_self, Equiv.swap_apply_right, hN j le_rfl hj]
    · rw [Function.update_of_ne c, hN l (by omega) h2', Equiv.swap_apply_of_ne_of_ne (by omega) c]
  · intro i hi l h1 h2'
    rw [htail l h2' i (by omega)]
    rcases Nat.lt_succ_iff_lt_or_eq.mp hi with c | c
    · have e : ∑ r ∈ Ico i m, tri j a r l ^ 2 = ∑ r ∈ Ico i m, tri j s.a r (Equiv.swap j k l) ^ 2 := by
        refine sum_congr rfl fun r _ => ?_
        by_cases d : l < j
        · simp only [tri, hacol, hfix l d]
        · rw [tri, tri, if_neg (by omega), if_neg (fun h => d ((hswj l).mp h.1)), hacol]
      have hii : (step m n j s).a i i = s.a i i := by
        rw [hsa]
        simp only [show i ≠ j by omega, if_false, show ¬ (j < i ∧ i < n) by omega]
        rw [hacol, hfix i c]
      rw [e, hii]
      refine I.diag i c _ ?_ ((hsw l).mpr h2')
      by_cases d : l < j
      · rw [hfix l d]; exact h1
      · have := (hswj l).not.mpr d; omega
    · subst c
      rw [hdj, ← hN k k1 k2]
      have e : ∑ r ∈ Ico i m, tri i a r l ^ 2 = ∑ r ∈ Ico i m, s.a r (Equiv.swap i k l) ^ 2 :=
        sum_congr rfl fun r _ => by rw [tri, if_neg (by omega), hacol]
      have hge : i ≤ Equiv.swap i k l := by have := (hswj l).not.mpr (by omega); omega
      rw [e, ← hN _ hge ((hsw l).mpr h2')]
      exact kmax _ hge ((hsw l).mpr h2')

theorem inv_steps (m n : ℕ) (A : ℕ → ℕ → ℝ) (b h0 : ℕ → ℝ) (p0 : ℕ → ℕ) (j : ℕ) (hj : j ≤ n) (hm : j ≤ m) :
    ∃ Q, Inv m n A b j (steps m n j ⟨A, b, h0, 0, p0⟩) Q := by
  induction j with
  | zero =>
    refine ⟨LinearMap.id, Iso.id m, fun l => Iff.rfl, fun l _ i _ => ?_, rfl, by omega, by omega⟩
    rw [tri, if_neg (by omega)]; rfl
  | succ j ih =>
    obtain ⟨Q, hQ⟩ := ih (by omega) (by omega)
    exact inv_step hQ (by omega) (by omega)

/-! ### Pseudorank -/

theorem diag_anti {m n : ℕ} {A : ℕ → ℕ → ℝ} {b : ℕ → ℝ} {s : St} {Q : (ℕ → ℝ) →ₗ[ℝ] (ℕ → ℝ)} (hmn : n ≤ m)
    (I : Inv m n A b n s Q) (i j : ℕ) (hij : i ≤ j) (hj : j < n) : |s.a j j| ≤ |s.a i i| := by
  have h := I.diag i (by omega) j hij hj
  have : s.a j j ^ 2 ≤ ∑ r ∈ Ico i m, tri n s.a r j ^ 2 := by
    have e : s.a j j ^ 2 = tri n s.a j j ^ 2 := by rw [tri, if_neg (by omega)]
    rw [e]
    exact single_le_sum (f := fun r => tri n s.a r j ^ 2) (fun _ _ => sq_nonneg _) (by simp; omega)
  exact sq_le_sq.mp (this.trans h)

/-- The diagonal entries counted by the pseudorank are the leading ones. -/
theorem rank_lead {m n : ℕ} {A : ℕ → ℕ → ℝ} {b : ℕ → ℝ} {s : St} {Q : (ℕ → ℝ) →ₗ[ℝ] (ℕ → ℝ)} (hmn : n ≤ m)
    (I : Inv m n A b n s Q) (tau : ℝ) (ht : 0 ≤ tau) :
    rank tau n s.a ≤ n ∧ ∀ i < n, (i < rank tau n s.a ↔ |s.a i i| > tau) := by
  rw [rank, if_neg (not_lt.mpr ht)]
  set S := (range n).filter fun i => |s.a i i| > tau with hS
  have hdown : ∀ i ∈ S, ∀ j ≤ i, j ∈ S := by
    intro i hi j hj
    rw [hS, mem_filter, mem_range] at hi ⊢
    exact ⟨by omega, lt_of_lt_of_le hi.2 (diag_anti hmn I j i hj hi.1)⟩
  have hle : S.card ≤ n := (card_filter_le _ _).trans (by simp)
  have hr : S = range S.card := by
    apply eq_of_subset_of_card_le
    · intro i hi
      rw [mem_range]
      have : range (i + 1) ⊆ S := fun j hj => hdown i hi j (by rw [mem_range] at hj; omega)
      have := card_le_card this
      rw [card_range] at this; omega
    · rw [card_range]
  refine ⟨hle, fun i hi => ?_⟩
  have : i ∈ S ↔ i < S.card := by
    constructor
    · intro h; rw [hr] at h; exact mem_range.mp h
    · intro h; rw [hr]; exact mem_range.mpr h
  rw [← this, hS, mem_filter, mem_range]
  exact ⟨fun h => h.2, fun h => ⟨hi, h⟩⟩

/-! ### Reflections of the rows -/

section
variable (k n : ℕ) (s : (ℕ → ℕ → ℝ) × (ℕ → ℝ))

theorem rowSteps_stable (t T : ℕ) (ht : t ≤ T) (hT : T ≤ k) (r : ℕ) (hr : k - t ≤ r) :
    (rowSteps k n T s).1 r = (rowSteps k n t s).1 r ∧ (rowSteps k n T s).2 r = (rowSteps k n t s).2 r := by
  induction T with
  | zero => have : t = 0 := by omega
            subst this; exact ⟨rfl, rfl⟩
  | succ T ih =>
    rcases Nat.eq_or_lt_of_le ht with h | h
    · subst h; exact ⟨rfl, rfl⟩
    · obtain ⟨i1, i2⟩ := ih (by omega) (by omega)
      rw [← i1, ← i2]
      simp only [rowSteps, rowStep]
      rw [if_neg (by omega), if_neg (by omega), Function.update_of_ne (by omega)]
      exact ⟨rfl, rfl⟩

/-- The reflections in the order in which the rows receive them. -/
noncomputable def kfwd (f : (ℕ → ℕ → ℝ) × (ℕ → ℝ)) : ℕ → (ℕ → ℝ) →ₗ[ℝ] (ℕ → ℝ)
  | 0 => LinearMap.id
  | t + 1 => lin (k - 1 - t) k (n - 1) (f.1 (k - 1 - t)) (f.2 (k - 1 - t)) ∘ₗ kfwd f t

theorem kfwd_kback (hn : 0 < n) (f : (ℕ → ℕ → ℝ) × (ℕ → ℝ)) (x y : ℕ → ℝ) (t : ℕ) (ht : t ≤ k) :
    dot n (kfwd k n f t x) (kback k n f (k - t) y) = dot n x (kback k n f k y) := by
  induction t with
  | zero => rfl
  | succ t ih =>
    rw [← ih (by omega), kfwd, LinearMap.comp_apply, lin_apply, dot_h2 (by omega)]
    rw [show k - t = k - (t + 1) + 1 by omega, kback, show k - 1 - t = k - (t + 1) by omega]

/-- The final arrays. -/
theorem row_final (t : ℕ) (ht : t < k) :
    (rowSteps k n k s).1 (k - 1 - t) = (h1 (k - 1 - t) k (n - 1) ((rowSteps k n t s).1 (k - 1 - t)) ((rowSteps k n t s).2 (k - 1 - t))).1 ∧
    (rowSteps k n k s).2 (k - 1 - t) = (h1 (k - 1 - t) k (n - 1) ((rowSteps k n t s).1 (k - 1 - t)) ((rowSteps k n t s).2 (k - 1 - t))).2 := by
  obtain ⟨e1, e2⟩ := rowSteps_stable k n s (t + 1) k (by omega) le_rfl (k - 1 - t) (by omega)
  rw [e1, e2]
  simp only [rowSteps, rowStep, if_true, Function.update_self, and_self]

theorem kfwd_iso (hn : 0 < n) (t : ℕ) (ht : t ≤ k) : Iso n (kfwd k n (rowSteps k n k s) t) := by
  induction t with
  | zero => exact Iso.id n
  | succ t ih =>
    rw [kfwd]
    obtain ⟨e1, e2⟩ := row_final k n s t (by omega)
    rw [e1, e2]
    exact (iso_lin _ _ _ _ (by omega) _ _).comp (ih (by omega))

/-- Row `r` as a vector: only the part on and above the diagonal; if the row has been reflected, only up to column `k`. -/
def rowVec (a : ℕ → ℕ → ℝ) (r : ℕ) (c l : ℕ) : ℝ := if l < r ∨ c ≤ l then 0 else a r l

theorem h2_trunc (p l m r : ℕ) (hr : r ≤ p) (v : ℕ → ℝ) (h : ℝ) (x y : ℕ → ℝ)
    (hxy : ∀ j ≤ m, x j = if j < r then 0 else y j) (i : ℕ) (hi : i ≤ m) :
    h2 p l m v h x i = if i < r then 0 else h2 p l m v h y i := by
  by_cases ha : Active p l m
  · by_cases hb : v p * h = 0
    · have : ∀ z, h2 p l m v h z = z := fun z => by rw [h2, if_pos ha]; simp only [hb, if_true]
      rw [this, this]; exact hxy i hi
    · have hu : ∀ j < r, uvec p l m v h j = 0 := by
        intro j hj
        have := ha.1
        rw [uvec, if_neg (by omega), if_neg (by omega)]
      have hd : dot (m + 1) x (uvec p l m v h) = dot (m + 1) y (uvec p l m v h) := by
        unfold dot
        refine sum_congr rfl fun j hj => ?_
        rw [mem_range] at hj
        rw [hxy j (by omega)]
        split_ifs with c
        · rw [hu j c]; ring
        · rfl
      rw [h2_eq (n := m + 1) ha (by omega) v h hb, h2_eq (n := m + 1) ha (by omega) v h hb, hd, hxy i hi]
      split_ifs with c
      · rw [hu i c]; ring
      · rfl
  · have : ∀ z, h2 p l m v h z = z := fun z => by rw [h2, if_neg ha]
    rw [this, this]; exact hxy i hi

theorem row_inv (hk : k < n) (t : ℕ) (ht : t ≤ k) (r : ℕ) (hr : r < k) (i : ℕ) (hi : i < n) :
    rowVec (rowSteps k n t s).1 r (if k - t ≤ r then k else n) i =
      kfwd k n (rowSteps k n k s) t (rowVec s.1 r n) i := by
  induction t generalizing i with
  | zero => rw [if_neg (by omega)]; rfl
  | succ t ih =>
    obtain ⟨e1, e2⟩ := row_final k n s t (by omega)
    rw [kfwd, LinearMap.comp_apply, lin_apply, e1, e2]
    set w := k - 1 - t with hw
    set q := h1 w k (n - 1) ((rowSteps k n t s).1 w) ((rowSteps k n t s).2 w) with hq
    have hloc : ∀ x y : ℕ → ℝ, (∀ i < n, x i = y i) → ∀ i < n, h2 w k (n - 1) q.1 q.2 x i = h2 w k (n - 1) q.1 q.2 y i := by
      intro x y hxy i hi
      have e : ∑ i ∈ Icc k (n - 1), x i * q.1 i = ∑ i ∈ Icc k (n - 1), y i * q.1 i :=
        sum_congr rfl fun i hi => by rw [hxy i (by simp at hi; omega)]
      unfold h2
      simp only [e, hxy w (by omega), hxy i hi]
      split_ifs
      · exact hxy i hi
      · simp only [hxy i hi]
      · exact hxy i hi
    rw [← hloc _ _ (fun i hi => ih (by omega) i hi) i hi]
    have hrow : (rowSteps k n (t + 1) s).1 r = if r = w then q.1 else if r < w then
        h2 w k (n - 1) q.1 q.2 ((rowSteps k n t s).1 r) else (rowSteps k n t s).1 r := rfl
    have hv : ∀ j, j ≤ n - 1 → (rowVec (rowSteps k n t s).1 r n) j = if j < r then 0 else (rowSteps k n t s).1 r j := by
      intro j hj; rw [rowVec]; split_ifs <;> first | rfl | omega
    rcases lt_trichotomy r w with c | c | c
    · rw [if_neg (show r ≠ w by omega), if_pos c] at hrow
      rw [if_neg (by omega), if_neg (by omega), h2_trunc w k (n - 1) r (by omega) q.1 q.2 _ _ hv i (by omega), rowVec, hrow]
      split_ifs <;> first | rfl | omega
    · rw [if_pos (by omega), if_neg (by omega), rowVec, hrow, if_pos c]
      have hact : Active w k (n - 1) := ⟨by omega, by omega⟩
      have e := h2_trunc w k (n - 1) r (by omega) q.1 q.2 _ _ hv i (by omega)
      rw [c] at e
      rw [c]
      obtain ⟨z1, z2, -, -, -, z6⟩ := C42_zeroes w k (n - 1) ⟨by omega, by omega⟩ ((rowSteps k n t s).1 w) ((rowSteps k n t s).2 w)
      rw [e]
      by_cases d : i < w
      · simp [d]
      · simp only [d, false_or, if_false]
        by_cases d2 : k ≤ i
        · rw [if_pos d2]; exact (z1 i d2 (by omega)).symm
        · rw [if_neg d2]
          by_cases d3 : i = w
          · rw [d3]; exact z2.symm
          · rw [h2_outside _ _ _ _ _ _ _ d3 (by omega), hq, h1, if_pos hact]
            change Function.update _ w _ i = _
            rw [Function.update_of_ne d3]
    · rw [if_neg (show r ≠ w by omega), if_neg (show ¬ r < w by omega)] at hrow
      rw [if_pos (by omega), if_pos (by omega), h2_fix]
      · rw [rowVec, rowVec, hrow]
      · rw [rowVec, if_pos (Or.inl c)]
      · intro i hi _
        rw [rowVec, if_pos (Or.inr hi)]

theorem row_diag (hk : k < n) (t : ℕ) (ht : t ≤ k) (r : ℕ) (hr : r < k - t) : (rowSteps k n t s).1 r r = s.1 r r := by
  induction t with
  | zero => rfl
  | succ t ih =>
    rw [← ih (by omega) (by omega)]
    simp only [rowSteps, rowStep]
    rw [if_neg (by omega), if_pos (by omega), h2_outside _ _ _ _ _ _ _ (by omega) (by omega)]

theorem row_diag_ne (hk : k < n) (r : ℕ) (hr : r < k) (h : s.1 r r ≠ 0) : (rowSteps k n k s).1 r r ≠ 0 := by
  obtain ⟨e1, -⟩ := row_final k n s (k - 1 - r) (by omega)
  rw [show k - 1 - (k - 1 - r) = r by omega] at e1
  rw [e1, h1, if_pos ⟨by omega, by omega⟩]
  change Function.update _ r _ r ≠ 0
  rw [Function.update_self]
  intro h0
  have hs := pivot_sq r k (n - 1) ((rowSteps k n (k - 1 - r) s).1 r)
  rw [h0, row_diag k n s hk (k - 1 - r) (by omega) r (by omega)] at hs
  have : 0 < s.1 r r ^ 2 := by positivity
  have : 0 ≤ ∑ i ∈ Icc k (n - 1), (rowSteps k n (k - 1 - r) s).1 r i ^ 2 := sum_nonneg fun _ _ => sq_nonneg _
  norm_num at hs
  linarith

end

/-! ### Back-substitution -/

theorem bsub_stable (a : ℕ → ℕ → ℝ) (k : ℕ) (b : ℕ → ℝ) (t T : ℕ) (ht : t ≤ T) (hT : T ≤ k) (i : ℕ) (hi : k - t ≤ i) :
    bsub a k b T i = bsub a k b t i := by
  induction T with
  | zero => have : t = 0 := by omega
            subst this; rfl
  | succ T ih =>
    rcases Nat.eq_or_lt_of_le ht with h | h
    · subst h; rfl
    · rw [bsub, Function.update_of_ne (by omega), ih (by omega) (by omega)]

theorem bsub_low (a : ℕ → ℕ → ℝ) (k : ℕ) (b : ℕ → ℝ) (t : ℕ) (ht : t ≤ k) (i : ℕ) (hi : i < k - t) :
    bsub a k b t i = b i := by
  induction t with
  | zero => rfl
  | succ t ih => rw [bsub, Function.update_of_ne (by omega), ih (by omega) (by omega)]

theorem bsub_spec (a : ℕ → ℕ → ℝ) (k : ℕ) (b : ℕ → ℝ) (i : ℕ) (hi : i < k) (ha : a i i ≠ 0) :
    ∑ j ∈ Ico i k, a i j * bsub a k b k j = b i := by
  rw [← sum_Ioo_add_eq_sum_Ico hi]
  have e : bsub a k b k i = (b i - ∑ j ∈ Ioo i k, a i j * bsub a k b k j) / a i i := by
    rw [bsub_stable a k b (k - 1 - i + 1) k (by omega) le_rfl i (by omega), bsub]
    simp only [show k - 1 - (k - 1 - i) = i by omega, Function.update_self]
    rw [bsub_low a k b _ (by omega) i (by omega)]
    congr 2
    refine sum_congr rfl fun j hj => ?_
    rw [mem_Ioo] at hj
    rw [bsub_stable a k b (k - 1 - i) k (by omega) le_rfl j (by omega)]
  rw [e]; field_simp; ring

theorem tri_null (a : ℕ → ℕ → ℝ) (k : ℕ) (y : ℕ → ℝ) (ha : ∀ i < k, a i i ≠ 0)
    (hy : ∀ r < k, ∑ j ∈ Ico r k, a r j * y j = 0) (t : ℕ) : ∀ i, k - t ≤ i → i < k → y i = 0 := by
  induction t with
  | zero => intro i h1 h2; omega
  | succ t ih =>
    intro i h1 h2
    have h := hy i h2
    rw [← sum_Ioo_add_eq_sum_Ico h2, sum_eq_zero (fun j hj => by
      rw [mem_Ioo] at hj; rw [ih j (by omega) hj.2, mul_zero]), zero_add] at h
    exact (mul_eq_zero.mp h).resolve_left (ha i h2)

/-- Sum over a row restricted to its triangle. -/
theorem sum_rowVec (a : ℕ → ℕ → ℝ) (n r c : ℕ) (hc : c ≤ n) (y : ℕ → ℝ) :
    ∑ l ∈ range n, rowVec a r c l * y l = ∑ l ∈ Ico r c, a r l * y l := by
  have : Ico r c = (range n).filter fun l => ¬ (l < r ∨ c ≤ l) := by ext l; simp; omega
  rw [this, sum_filter]
  refine sum_congr rfl fun l _ => ?_
  rw [rowVec]
  by_cases h : l < r ∨ c ≤ l
  · simp [h]
  · simp [h]

/-- The unpermuted solution of the triangular problem. -/
theorem core (n k : ℕ) (a : ℕ → ℕ → ℝ) (b g0 : ℕ → ℝ) (hk : k ≤ n) (hn : 0 < n) (hd : ∀ i < k, a i i ≠ 0) :
    let f := if k < n then rowSteps k n k (a, g0) else (a, g0)
    let z := fun i => if k ≤ i ∧ i < n then 0 else bsub f.1 k b k i
    let x := if k < n then kback k n f k z else z
    (∀ r < k, ∑ l ∈ range n, rowVec a r n l * x l = b r) ∧
    (∀ y : ℕ → ℝ, (∀ r < k, ∑ l ∈ range n, rowVec a r n l * y l = 0) → ∑ l ∈ range n, x l * y l = 0) ∧
    (k < n → ∃ v : ℕ → ℝ, (∃ l < n, v l ≠ 0) ∧ ∀ r < k, ∑ l ∈ range n, rowVec a r n l * v l = 0) ∧
    (k = n → ∀ v : ℕ → ℝ, (∀ r < k, ∑ l ∈ range n, rowVec a r n l * v l = 0) → ∀ l < n, v l = 0) := by
  intro f z x
  rcases Nat.eq_or_lt_of_le hk with h | h
  · subst h
    have hf : f = (a, g0) := if_neg (by omega)
    have hx : x = z := if_neg (by omega)
    rw [hx]
    have hz : z = bsub a k b k := by
      funext i; simp only [z, hf]; rw [if_neg (by omega)]
    rw [hz]
    refine ⟨fun r hr => ?_, fun y hy => ?_, by omega, fun _ v hv l hl => ?_⟩
    · rw [sum_rowVec a k r k le_rfl]; exact bsub_spec a k b r hr (hd r hr)
    · have := tri_null a k y hd (fun r hr => by rw [← sum_rowVec a k r k le_rfl]; exact hy r hr) k
      exact sum_eq_zero fun l hl => by rw [mem_range] at hl; rw [this l (by omega) hl, mul_zero]
    · exact tri_null a k v hd (fun r hr => by rw [← sum_rowVec a k r k le_rfl]; exact hv r hr) k l (by omega) hl
  · have hf : f = rowSteps k n k (a, g0) := if_pos h
    have hx : x = kback k n f k z := if_pos h
    have hd' : ∀ i < k, f.1 i i ≠ 0 := fun i hi => by rw [hf]; exact row_diag_ne k n (a, g0) h i hi (hd i hi)
    have hiso : Iso n (kfwd k n f k) := by rw [hf]; exact kfwd_iso k n (a, g0) hn k le_rfl
    have hrow : ∀ r < k, ∀ i < n, rowVec f.1 r k i = kfwd k n f k (rowVec a r n) i := by
      intro r hr i hi
      have := row_inv k n (a, g0) h k le_rfl r hr i hi
      rw [if_pos (by omega), ← hf] at this
      exact this
    have hdot : ∀ r < k, ∀ y : ℕ → ℝ, dot n (kfwd k n f k (rowVec a r n)) y = ∑ l ∈ Ico r k, f.1 r l * y l := by
      intro r hr y
      rw [← sum_rowVec f.1 n r k hk y]
      exact sum_congr rfl fun i hi => by rw [hrow r hr i (mem_range.mp hi)]
    have hback : ∀ u y, dot n (kfwd k n f k u) y = dot n u (kback k n f k y) := by
      intro u y
      have := kfwd_kback k n hn f u y k le_rfl
      rwa [Nat.sub_self] at this
    refine ⟨fun r hr => ?_, fun y hy => ?_, fun _ => ?_, by omega⟩
    · change dot n (rowVec a r n) x = _
      rw [hx, ← hback, hdot r hr, ← bsub_spec f.1 k b r hr (hd' r hr)]
      refine sum_congr rfl fun l hl => ?_
      rw [mem_Ico] at hl
      simp only [z]; rw [if_neg (by omega)]
    · have hzero := tri_null f.1 k (kfwd k n f k y) hd' (fun r hr => by
        rw [← hdot r hr, hiso.dot]; exact hy r hr) k
      change dot n x y = 0
      rw [hx, dot_comm, ← hback]
      refine sum_eq_zero fun l hl => ?_
      rw [mem_range] at hl
      by_cases c : l < k
      · rw [hzero l (by omega) c, zero_mul]
      · simp only [z]; rw [if_pos ⟨by omega, hl⟩, mul_zero]
    · obtain ⟨v, hv⟩ := hiso.surj fun l => if l = k then 1 else 0
      refine ⟨v, ?_, fun r hr => ?_⟩
      · by_contra hc
        push Not at hc
        have h1 : dot n v v = 0 := sum_eq_zero fun l hl => by rw [hc l (mem_range.mp hl)]; ring
        rw [← hiso.dot, hv, Reduced.dot_single n k h] at h1
        simp at h1
      · change dot n (rowVec a r n) v = 0
        rw [← hiso.dot, hdot r hr, hv]
        refine sum_eq_zero fun l hl => ?_
        rw [mem_Ico] at hl
        change f.1 r l * (if l = k then 1 else 0) = 0
        rw [if_neg (by omega), mul_zero]

/-! ### The theorems -/

/-- The solver returns the shortest least-squares solution of a system whose matrix differs from the given one by no more
than the tolerance in any column, and is the given one if the pseudorank is full; the residual norm is the one of that
system. -/
theorem C68_least_squares (m n : ℕ) (hn : 0 < n) (hmn : n ≤ m) (A : ℕ → ℕ → ℝ) (b : ℕ → ℝ) (tau : ℝ) (ht : 0 ≤ tau)
    (g0 h0 : ℕ → ℝ) (p0 : ℕ → ℕ) :
    let r := hfti m n A b tau g0 h0 p0
    let k := r.1
    let x := r.2.2
    k ≤ n ∧ ∃ B : ℕ → ℕ → ℝ,
      (∀ l < n, ∑ i ∈ range m, (A i l - B i l) ^ 2 ≤ tau ^ 2) ∧
      (k = n → (∀ i < m, ∀ l < n, B i l = A i l) ∧
        ∀ v : ℕ → ℝ, (∀ i < m, ∑ l ∈ range n, A i l * v l = 0) → ∀ l < n, v l = 0) ∧
      (k < n → ∃ v : ℕ → ℝ, (∃ l < n, v l ≠ 0) ∧ ∀ i < m, ∑ l ∈ range n, B i l * v l = 0) ∧
      (∀ y : ℕ → ℝ, ∑ i ∈ range m, (∑ l ∈ range n, B i l * x l - b i) ^ 2 ≤
        ∑ i ∈ range m, (∑ l ∈ range n, B i l * y l - b i) ^ 2) ∧
      (∀ y : ℕ → ℝ, ∑ i ∈ range m, (∑ l ∈ range n, B i l * y l - b i) ^ 2 ≤
          ∑ i ∈ range m, (∑ l ∈ range n, B i l * x l - b i) ^ 2 →
        (∃ l < n, y l ≠ x l) → ∑ l ∈ range n, x l ^ 2 < ∑ l ∈ range n, y l ^ 2) ∧
      r.2.1 = Real.sqrt (∑ i ∈ range m, (∑ l ∈ range n, B i l * x l - b i) ^ 2) := by
  intro r k x
  obtain ⟨Q, I⟩ := inv_steps m n A b h0 p0 n le_rfl hmn
  set s := steps m n n ⟨A, b, h0, 0, p0⟩ with hs
  have hmin : min m n = n := by omega
  have hk : k = rank tau n s.a := by simp only [k, r, hfti, hmin, ← hs]
  obtain ⟨hkn, hlead⟩ := rank_lead hmn I tau ht
  rw [← hk] at hkn hlead
  set σ := sig s.p n with hσ
  -- the solution in the permuted order
  obtain ⟨c1, c2, c3, c4⟩ := core n k s.a s.b g0 hkn hn fun i hi h => by
    have := (hlead i (by omega)).mp hi
    rw [h, abs_zero] at this; linarith
  have hxs : ∃ xs : ℕ → ℝ, (∀ l < n, x (σ l) = xs l) ∧ (∀ r < k, ∑ l ∈ range n, rowVec s.a r n l * xs l = s.b r) ∧
      (∀ y : ℕ → ℝ, (∀ r < k, ∑ l ∈ range n, rowVec s.a r n l * y l = 0) → ∑ l ∈ range n, xs l * y l = 0) := by
    by_cases h : k = 0
    · refine ⟨fun _ => 0, fun l hl => ?_, fun r hr => by omega, fun y _ => by simp⟩
      simp only [x, r, hfti, hmin, ← hs, ← hk, h, if_true]
      rw [if_pos ((I.perm l).mpr hl)]
    · refine ⟨_, fun l hl => ?_, c1, c2⟩
      simp only [x, r, hfti, hmin, ← hs, ← hk, h, if_false]
      rw [hσ, unperm_sig]
  obtain ⟨xs, hx, x1, x2⟩ := hxs
  -- the truncated matrix
  have hB : ∀ l, ∃ c : ℕ → ℝ, Q c = fun i => if i < k then tri n s.a i (σ.symm l) else 0 := fun l => I.iso.surj _
  choose c hc using hB
  refine ⟨hkn, fun i l => c l i, ?_⟩
  have hperm' : ∀ l, σ.symm l < n ↔ l < n := by
    intro l; rw [← I.perm (σ.symm l), ← hσ, Equiv.apply_symm_apply]
  have hcA : ∀ l < n, ∀ i < m, tri n s.a i (σ.symm l) = Q (fun i => A i l) i := by
    intro l hl i hi
    have := I.cols (σ.symm l) ((hperm' l).mpr hl) i hi
    rwa [← hσ, Equiv.apply_symm_apply] at this
  have hsum : ∀ F : ℕ → ℝ, ∑ l ∈ range n, F (σ l) = ∑ l ∈ range n, F l := by
    intro F
    exact sum_equiv σ (fun l => by simp only [mem_range]; exact (I.perm l).symm) fun _ _ => rfl
  -- images of combinations of the columns
  have hQB : ∀ y : ℕ → ℝ, ∀ i, Q (fun i => ∑ l ∈ range n, c l i * y l) i =
      if i < k then ∑ l ∈ range n, rowVec s.a i n l * y (σ l) else 0 := by
    intro y i
    have e : (fun i => ∑ l ∈ range n, c l i * y l) = ∑ l ∈ range n, y l • c l := by
      funext i; simp [Finset.sum_apply, mul_comm]
    rw [e, map_sum, Finset.sum_apply]
    simp only [map_smul, Pi.smul_apply, smul_eq_mul, hc]
    split_ifs with h
    · rw [← hsum]
      refine sum_congr rfl fun l hl => ?_
      rw [mem_range] at hl
      rw [Equiv.symm_apply_apply, mul_comm, tri, rowVec]
      congr 1
      by_cases d : l < i
      · simp [d, hl]
      · rw [if_neg (by omega), if_neg (by omega)]
    · simp
  have hres : ∀ y : ℕ → ℝ, ∑ i ∈ range m, (∑ l ∈ range n, c l i * y l - b i) ^ 2 =
      ∑ i ∈ range m, ((if i < k then ∑ l ∈ range n, rowVec s.a i n l * y (σ l) else 0) - s.b i) ^ 2 := by
    intro y
    have := I.iso.dot (fun i => ∑ l ∈ range n, c l i * y l - b i) (fun i => ∑ l ∈ range n, c l i * y l - b i)
    have e : Q (fun i => ∑ l ∈ range n, c l i * y l - b i) = fun i =>
        (if i < k then ∑ l ∈ range n, rowVec s.a i n l * y (σ l) else 0) - s.b i := by
      have : (fun i => ∑ l ∈ range n, c l i * y l - b i) = (fun i => ∑ l ∈ range n, c l i * y l) - b := rfl
      rw [this, map_sub, ← I.rhs]
      funext i
      rw [Pi.sub_apply, hQB]
    rw [e] at this
    unfold dot at this
    simp only [sq]
    exact this.symm
  have hxr : ∀ i < k, ∑ l ∈ range n, rowVec s.a i n l * x (σ l) = s.b i := by
    intro i hi
    rw [← x1 i hi]
    exact sum_congr rfl fun l hl => by rw [hx l (mem_range.mp hl)]
  have hkm : k ≤ m := by omega
  have hrx : ∑ i ∈ range m, (∑ l ∈ range n, c l i * x l - b i) ^ 2 = ∑ i ∈ Ico k m, s.b i ^ 2 := by
    rw [hres, ← sum_range_add_sum_Ico _ hkm, sum_eq_zero, zero_add]
    · refine sum_congr rfl fun i hi => ?_
      rw [mem_Ico] at hi
      rw [if_neg (by omega)]; ring
    · intro i hi
      rw [mem_range] at hi
      rw [if_pos hi, hxr i hi]; ring
  have hry : ∀ y : ℕ → ℝ, ∑ i ∈ range m, (∑ l ∈ range n, c l i * y l - b i) ^ 2 =
      ∑ i ∈ range k, (∑ l ∈ range n, rowVec s.a i n l * y (σ l) - s.b i) ^ 2 + ∑ i ∈ Ico k m, s.b i ^ 2 := by
    intro y
    rw [hres, ← sum_range_add_sum_Ico _ hkm]
    congr 1
    · exact sum_congr rfl fun i hi => by rw [if_pos (mem_range.mp hi)]
    · refine sum_congr rfl fun i hi => ?_
      rw [mem_Ico] at hi
      rw [if_neg (by omega)]; ring
  -- distance of the columns
  have hdist : ∀ l < n, ∑ i ∈ range m, (A i l - c l i) ^ 2 = ∑ i ∈ Ico k m, tri n s.a i (σ.symm l) ^ 2 := by
    intro l hl
    have := I.iso.dot (fun i => A i l - c l i) (fun i => A i l - c l i)
    have e : Q (fun i => A i l - c l i) = Q (fun i => A i l) - Q (c l) := by rw [← map_sub]; rfl
    rw [e, hc] at this
    simp only [sq]
    unfold dot at this
    rw [← this, ← sum_range_add_sum_Ico _ hkm, sum_eq_zero, zero_add]
    · refine sum_congr rfl fun i hi => ?_
      rw [mem_Ico] at hi
      simp only [Pi.sub_apply]
      rw [← hcA l hl i hi.2, if_neg (by omega), sub_zero]
    · intro i hi
      rw [mem_range] at hi
      simp only [Pi.sub_apply]
      rw [← hcA l hl i (by omega), if_pos hi, sub_self, zero_mul]
  have hdist0 : ∀ l < n, σ.symm l < k → ∑ i ∈ range m, (A i l - c l i) ^ 2 = 0 := by
    intro l hl h
    rw [hdist l hl]
    refine sum_eq_zero fun i hi => ?_
    rw [mem_Ico] at hi
    rw [tri, if_pos ⟨by omega, by omega⟩]; norm_num
  have hBA : k = n → ∀ i < m, ∀ l < n, c l i = A i l := by
    intro h i hi l hl
    have := hdist0 l hl (by rw [h]; exact (hperm' l).mpr hl)
    have := (sum_eq_zero_iff_of_nonneg fun i _ => sq_nonneg _).mp this i (mem_range.mpr hi)
    have := pow_eq_zero_iff (two_ne_zero) |>.mp this
    linarith
  refine ⟨fun l hl => ?_, fun h => ⟨hBA h, fun v hv l hl => ?_⟩, fun h => ?_, fun y => ?_, fun y hy hne => ?_, ?_⟩
  · by_cases h : σ.symm l < k
    · rw [hdist0 l hl h]; positivity
    · have hl' := (hperm' l).mpr hl
      rw [hdist l hl]
      refine (I.diag k (by omega) _ (by omega) hl').trans ?_
      have := (hlead k (by omega)).not.mp (lt_irrefl k)
      rw [← sq_abs]
      exact pow_le_pow_left₀ (abs_nonneg _) (not_lt.mp this) 2
  · have hz : dot m (Q fun i => ∑ l ∈ range n, c l i * v l) (Q fun i => ∑ l ∈ range n, c l i * v l) = 0 := by
      rw [I.iso.dot]
      refine sum_eq_zero fun i hi => ?_
      rw [mem_range] at hi
      have : ∑ l ∈ range n, c l i * v l = 0 := by
        rw [← hv i hi]
        exact sum_congr rfl fun l hl => by rw [hBA h i hi l (mem_range.mp hl)]
      simp only [this, mul_zero]
    have h0 := c4 h (fun l => v (σ l)) fun r hr => by
      have := (sum_eq_zero_iff_of_nonneg fun i _ => mul_self_nonneg _).mp hz r (mem_range.mpr (by omega))
      have := mul_self_eq_zero.mp this
      rw [hQB, if_pos hr] at this
      exact this
    have := h0 (σ.symm l) ((hperm' l).mpr hl)
    simpa using this
  · obtain ⟨v, ⟨l, hl, hv⟩, hv0⟩ := c3 h
    refine ⟨fun l => v (σ.symm l), ⟨σ l, (I.perm l).mpr hl, by simpa using hv⟩, fun i hi => ?_⟩
    have e : Q (fun i => ∑ l ∈ range n, c l i * v (σ.symm l)) = fun _ => 0 := by
      funext i
      rw [hQB]
      split_ifs with hi
      · simp only [Equiv.symm_apply_apply]; exact hv0 i hi
      · rfl
    have hd := I.iso.dot (fun i => ∑ l ∈ range n, c l i * v (σ.symm l)) (fun i => ∑ l ∈ range n, c l i * v (σ.symm l))
    rw [e] at hd
    simp only [dot, mul_zero, sum_const_zero] at hd
    have := (sum_eq_zero_iff_of_nonneg fun i _ => mul_self_nonneg _).mp hd.symm i (mem_range.mpr hi)
    exact mul_self_eq_zero.mp this
  · rw [hrx, hry]
    have : 0 ≤ ∑ i ∈ range k, (∑ l ∈ range n, rowVec s.a i n l * y (σ l) - s.b i) ^ 2 := sum_nonneg fun _ _ => sq_nonneg _
    linarith
  · rw [hrx, hry] at hy
    have hz : ∑ i ∈ range k, (∑ l ∈ range n, rowVec s.a i n l * y (σ l) - s.b i) ^ 2 = 0 :=
      le_antisymm (by linarith) (sum_nonneg fun _ _ => sq_nonneg _)
    have hyr : ∀ i < k, ∑ l ∈ range n, rowVec s.a i n l * y (σ l) = s.b i := by
      intro i hi
      have := (sum_eq_zero_iff_of_nonneg fun i _ => sq_nonneg _).mp hz i (mem_range.mpr hi)
      have := pow_eq_zero_iff (two_ne_zero) |>.mp this
      linarith
    have ho := x2 (fun l => y (σ l) - x (σ l)) fun r hr => by
      simp only [mul_sub, sum_sub_distrib]
      rw [hyr r hr, hxr r hr, sub_self]
    have ho' : ∑ l ∈ range n, x l * (y l - x l) = 0 := by
      rw [← hsum fun l => x l * (y l - x l), ← ho]
      exact sum_congr rfl fun l hl => by rw [hx l (mem_range.mp hl)]
    have e : ∑ l ∈ range n, y l ^ 2 = ∑ l ∈ range n, x l ^ 2 + ∑ l ∈ range n, (y l - x l) ^ 2
        + 2 * ∑ l ∈ range n, x l * (y l - x l) := by
      rw [mul_sum, ← sum_add_distrib, ← sum_add_distrib]
      exact sum_congr rfl fun l _ => by ring
    rw [e, ho']
    obtain ⟨l, hl, hne⟩ := hne
    have : 0 < ∑ l ∈ range n, (y l - x l) ^ 2 :=
      sum_pos' (fun _ _ => sq_nonneg _) ⟨l, mem_range.mpr hl, by
        have : y l - x l ≠ 0 := sub_ne_zero.mpr hne
        positivity⟩
    linarith
  · rw [hrx]
    simp only [r, hfti, hmin, ← hs, ← hk]
    rfl

/-- With as many equations as unknowns and full pseudorank the solution solves the system, and it is the only one. -/
theorem C68_solves (n : ℕ) (hn : 0 < n) (A : ℕ → ℕ → ℝ) (b : ℕ → ℝ) (tau : ℝ) (ht : 0 ≤ tau) (g0 h0 : ℕ → ℝ) (p0 : ℕ → ℕ)
    (hk : (hfti n n A b tau g0 h0 p0).1 = n) :
    (∀ i < n, ∑ l ∈ range n, A i l * (hfti n n A b tau g0 h0 p0).2.2 l = b i) ∧
    ∀ y : ℕ → ℝ, (∀ i < n, ∑ l ∈ range n, A i l * y l = b i) → ∀ l < n, y l = (hfti n n A b tau g0 h0 p0).2.2 l := by
  set r := hfti n n A b tau g0 h0 p0 with hr
  obtain ⟨-, B, -, h2, -, -, -, h6⟩ := C68_least_squares n n hn le_rfl A b tau ht g0 h0 p0
  rw [← hr] at h2 h6
  obtain ⟨hBA, hinj⟩ := h2 hk
  have hr0 : r.2.1 = 0 := by
    have : r.2.1 = rnorm r.1 n (steps n n (min n n) ⟨A, b, h0, 0, p0⟩).b := rfl
    rw [this, hk, rnorm, Ico_self, sum_empty, Real.sqrt_zero]
  rw [hr0] at h6
  have hz := (Real.sqrt_eq_zero (sum_nonneg fun i _ => sq_nonneg _)).mp h6.symm
  have hsol : ∀ i < n, ∑ l ∈ range n, A i l * r.2.2 l = b i := by
    intro i hi
    have := (sum_eq_zero_iff_of_nonneg fun i _ => sq_nonneg _).mp hz i (mem_range.mpr hi)
    have := pow_eq_zero_iff (two_ne_zero) |>.mp this
    rw [← sub_eq_zero, ← this]
    congr 1
    exact sum_congr rfl fun l hl => by rw [hBA i hi l (mem_range.mp hl)]
  refine ⟨hsol, fun y hy l hl => ?_⟩
  have := hinj (fun l => y l - r.2.2 l) (fun i hi => by
    simp only [mul_sub, sum_sub_distrib]
    rw [hy i hi, hsol i hi, sub_self]) l hl
  linarith

/-- The pseudorank is full unless the matrix is within the tolerance, column by column, of a singular one. -/
theorem C68_full_rank (m n : ℕ) (hn : 0 < n) (hmn : n ≤ m) (A : ℕ → ℕ → ℝ) (b : ℕ → ℝ) (tau : ℝ) (ht : 0 ≤ tau)
    (g0 h0 : ℕ → ℝ) (p0 : ℕ → ℕ)
    (hA : ∀ B : ℕ → ℕ → ℝ, (∀ l < n, ∑ i ∈ range m, (A i l - B i l) ^ 2 ≤ tau ^ 2) →
      ∀ v : ℕ → ℝ, (∀ i < m, ∑ l ∈ range n, B i l * v l = 0) → ∀ l < n, v l = 0) :
    (hfti m n A b tau g0 h0 p0).1 = n := by
  obtain ⟨h1, B, h2, -, h3, -⟩ := C68_least_squares m n hn hmn A b tau ht g0 h0 p0
  by_contra hne
  obtain ⟨v, ⟨l, hl, hv⟩, h⟩ := h3 (by omega)
  exact hv (hA B h2 v h l hl)

/-- The matrix (2, 1; 1, 2) has full pseudorank for a tolerance of 1/4. -/
example (b g0 h0 : ℕ → ℝ) (p0 : ℕ → ℕ) :
    (hfti 2 2 (fun i j => if i = j then 2 else 1) b (1 / 4) g0 h0 p0).1 = 2 := by
  refine C68_full_rank 2 2 (by norm_num) le_rfl _ b _ (by norm_num) g0 h0 p0 fun B hB v hv => ?_
  have b0 := hB 0 (by norm_num)
  have b1 := hB 1 (by norm_num)
  have v0 := hv 0 (by norm_num)
  have v1 := hv 1 (by norm_num)
  simp only [sum_range_succ, sum_range_zero, zero_add] at b0 b1 v0 v1
  norm_num at b0 b1
  have l : ∀ x y : ℝ, x ^ 2 + y ^ 2 ≤ 1 / 16 → |x| ≤ 1 / 4 ∧ |y| ≤ 1 / 4 := fun x y h =>
    ⟨abs_le_of_sq_le_sq (by nlinarith [sq_nonneg y]) (by norm_num) , abs_le_of_sq_le_sq (by nlinarith [sq_nonneg x]) (by norm_num)⟩
  obtain ⟨a1, a2⟩ := l _ _ b0
  obtain ⟨a3, a4⟩ := l _ _ b1
  rw [abs_le] at a1 a2 a3 a4
  have hdet : 0 < B 0 0 * B 1 1 - B 0 1 * B 1 0 := by nlinarith
  have e0 : (B 0 0 * B 1 1 - B 0 1 * B 1 0) * v 0 = 0 := by linear_combination B 1 1 * v0 - B 0 1 * v1
  have e1 : (B 0 0 * B 1 1 - B 0 1 * B 1 0) * v 1 = 0 := by linear_combination B 0 0 * v1 - B 1 0 * v0
  intro i hi
  have : i = 0 ∨ i = 1 := by omega
  rcases this with rfl | rfl
  · exact (mul_eq_zero.mp e0).resolve_left hdet.ne'
  · exact (mul_eq_zero.mp e1).resolve_left hdet.ne'

/-! ### The call in the minimisation -/

/-- silmin.c 950-953: the scale factor, the largest entry of the projected system (at least the smallest normal number).
`A` and `b` are the projected matrix and right-hand side with their indices counted from `conRows`. -/
noncomputable def scale (N : ℕ) (A : ℕ → ℕ → ℝ) (b : ℕ → ℝ) : ℝ :=
  (List.range N).foldl (fun s i =>
    (List.range N).foldl (fun s j => if |A i j| > s then |A i j| else s) (if |b i| > s then |b i| else s)) (2 ^ (-1022 : ℤ))

theorem foldl_ge (f : ℝ → ℕ → ℝ) (hf : ∀ s i, s ≤ f s i) (l : List ℕ) (s : ℝ) : s ≤ l.foldl f s := by
  induction l generalizing s with
  | nil => exact le_rfl
  | cons a l ih => exact (hf s a).trans (ih _)

theorem scale_pos (N : ℕ) (A : ℕ → ℕ → ℝ) (b : ℕ → ℝ) : 0 < scale N A b := by
  refine lt_of_lt_of_le (zpow_pos (by norm_num) _ : (0 : ℝ) < 2 ^ (-1022 : ℤ)) (foldl_ge _ (fun s i => ?_) _ _)
  refine le_trans ?_ (foldl_ge _ (fun s j => ?_) _ _) <;>
  · split_ifs with h
    · exact h.le
    · exact le_rfl

/-- silmin.c 939, 954-965: the scaled system handed to `hfti`, with tolerance `10*DBL_EPSILON`. -/
noncomputable def quad (N : ℕ) (A : ℕ → ℕ → ℝ) (b g0 h0 : ℕ → ℝ) (p0 : ℕ → ℕ) : ℕ × ℝ × (ℕ → ℝ) :=
  hfti N N (fun i j => A i j / scale N A b) (fun i => b i / scale N A b) (10 * 2 ^ (-52 : ℤ)) g0 h0 p0

/-- silmin.c 932-1082 with gradient_hessian.c 1394-1416: unless rank deficiency is reported, the vector assembled from
the constraints and the solution of the projected system meets the constraints and makes the quadratic model stationary
along them. -/
theorem C68_newton_step (rows cols : ℕ) (hrc : rows < cols) (C E : ℕ → ℕ → ℝ) (b d h0 g0 h0' : ℕ → ℝ) (p0 : ℕ → ℕ)
    (hind : ∀ a : ℕ → ℝ, (∀ j < cols, ∑ i ∈ range rows, a i * C i j = 0) → ∀ i < rows, a i = 0) :
    let F := decomp rows cols rows (C, h0)
    let r := quad (cols - rows) (fun i j => Reduced.hat F rows cols E (rows + i) (rows + j))
      (fun i => Reduced.rhs F rows cols E b (fwd F.1 d rows) (rows + i)) g0 h0' p0
    let x := solve rows cols C d (fun j => r.2.2 (j - rows)) h0
    r.1 = cols - rows →
    (∀ i < rows, ∑ j ∈ range cols, C i j * x j = d i) ∧
    ∀ e : ℕ → ℝ, (∀ i < rows, ∑ j ∈ range cols, C i j * e j = 0) →
      ∑ k ∈ range cols, e k * (∑ j ∈ range cols, E k j * x j - b k) = 0 := by
  intro F r x hr
  refine ⟨C48_constraints_met rows cols hrc.le C d _ h0 hind, fun e he => ?_⟩
  refine Reduced.C67_stationary rows cols hrc.le C E b d h0 _ hind ?_ e he
  intro i h1 h2
  have hs := (C68_solves (cols - rows) (by omega) _ _ _ (by positivity) g0 h0' p0 hr).1 (i - rows) (by omega)
  have hp := scale_pos (cols - rows) (fun i j => Reduced.hat F rows cols E (rows + i) (rows + j))
      (fun i => Reduced.rhs F rows cols E b (fwd F.1 d rows) (rows + i))
  simp only [div_mul_eq_mul_div] at hs
  rw [← sum_div, div_left_inj' hp.ne', show rows + (i - rows) = i by omega] at hs
  rw [← hs, sum_Ico_eq_sum_range]
  refine sum_congr rfl fun j _ => ?_
  simp only [Nat.add_sub_cancel_left]
  rfl

end Magma.Num.Hfti
