import Verif.Num.PackedLU
import Mathlib.Tactic.LinearCombination
import Mathlib.Tactic.Positivity

/-!
Zero rows in the solver of /repo/sources/melts_linalg.c: what it returns when ordering parameters are missing.
-/

namespace Verif.Num.PackedLU

open Finset
open scoped Matrix

noncomputable section

lemma inner_null {N j : ℕ} (k i : ℕ) (s : Pack) (h : ∀ a, i ≤ a → a < i + k → isnull N (s.A a) = true) :
    inner N j k i s = ({ s with n2 := s.n2 - k }, none) := by
  induction k generalizing i s with
  | zero => simp [inner]
  | succ k ih =>
    rw [inner, if_pos (h i le_rfl (by omega)),
      ih (i + 1) { s with n2 := s.n2 - 1 } fun a h1 h2 => h a (by omega) (by omega)]
    simp only [Prod.mk.injEq, and_true]
    congr 1
    push_cast; ring

/-- Only zero rows left: the matrix stays, and the count goes on falling. -/
lemma outer_null {N : ℕ} (k j : ℕ) (s : Pack) (h : ∀ a, j ≤ a → a < N → isnull N (s.A a) = true) :
    ∃ m : ℤ, m ≤ s.n2 ∧ (0 < k → j < N → m ≤ s.n2 - ((N - j : ℕ) : ℤ)) ∧ (1 < k → j + 1 < N →
      m ≤ s.n2 - ((N - j : ℕ) : ℤ) - ((N - (j + 1) : ℕ) : ℤ)) ∧ outer N k j s = { s with n2 := m } := by
  induction k generalizing j s with
  | zero => exact ⟨s.n2, le_rfl, by omega, by omega, rfl⟩
  | succ k ih =>
    unfold outer
    split_ifs with h1 h2
    · rw [inner_null (N - (j + 1)) (j + 1) { s with n2 := s.n2 - 1 } fun a ha hb => h a (by omega) (by omega)]
      obtain ⟨m, hm1, hm2, hm3, hm4⟩ := ih (j + 1) { s with n2 := s.n2 - 1 - (N - (j + 1) : ℕ) } fun a ha hb => h a (by omega) hb
      simp only at hm1 hm2 hm3
      refine ⟨m, by omega, by omega, ?_, hm4⟩
      intro hk hj
      have := hm2 (by omega) hj
      omega
    · exact absurd (h j le_rfl h1) h2
    · exact ⟨s.n2, le_rfl, by omega, by omega, rfl⟩

lemma rowsOf_le_one {N : ℕ} {C : ℕ → ℕ → ℝ} (h : ∀ i, 0 < i → i < N → isnull N (C i) = true) : rowsOf N C ≤ 1 := by
  unfold rowsOf
  refine card_le_one.mpr fun a ha b hb => ?_
  have z : ∀ a, a ∈ (range N).filter (fun i => isnull N (C i) = false) → a = 0 := by
    intro a ha
    obtain ⟨h1, h2⟩ := mem_filter.mp ha
    by_contra hc
    rw [h a (Nat.pos_of_ne_zero hc) (mem_range.mp h1)] at h2
    cases h2
  rw [z a ha, z b hb]

/-- C77. Without any ordering parameter nothing is changed: the zero matrix of any size gives the zero vector. -/
theorem C77_zero {N : ℕ} (lu : ℕ → (ℕ → ℕ → ℝ) → (ℕ → ℕ → ℝ) × (ℕ → ℕ)) (A : Matrix (Fin N) (Fin N) ℝ) (hA : A = 0)
    (b : Fin N → ℝ) (hlu : Factors N (arr A) (lu N (arr A)).1 (lu N (arr A)).2) (i : Fin N) :
    solve lu N (arr A) (vec b) i = 0 := by
  have hz : ∀ i j, arr A i j = 0 := by intro i j; simp [arr, hA]
  have hn : ∀ a, isnull N (arr A a) = true := fun a => (isnull_iff _ _).mpr fun j _ => hz a j
  obtain ⟨m, h1, h2, h3, h4⟩ := outer_null N 0 ⟨arr A, id, N⟩ fun a _ _ => hn a
  have hN := i.pos
  simp only at h1 h2 h3
  have key : ∀ C : ℕ → ℕ → ℝ, ∀ p, C 0 0 = 0 → (∀ i, 0 < i → i < N → isnull N (C i) = true) → svx N C p (vec b) i = 0 := by
    intro C p h0 hC
    simp only [svx, if_pos (rowsOf_le_one hC), h0, mul_zero, ite_self]
  unfold solve
  have hd : decomp lu N (arr A) = (fun i j => if arr A 0 0 ≠ 0 ∧ i = 0 ∧ j = 0 then
      1 / arr A 0 0 else if i = 0 ∧ j = 0 then 0 else arr A i j, id) ∨
      decomp lu N (arr A) = lu N (arr A) := by
    rcases Nat.lt_or_ge N 2 with hN2 | hN2
    · left
      obtain rfl : N = 1 := by omega
      have hm : m = 0 := by
        have : outer 1 1 0 ⟨arr A, id, 1⟩ = ⟨arr A, id, 0⟩ := by
          simp [outer, inner, hn]
        simp only [Nat.cast_one] at h4
        rw [this] at h4
        injection h4 with _ _ h
        exact h.symm
      simp only [decomp, h4, hm]
      simp
    · right
      have := h3 (by omega) (by omega)
      simp only [decomp, h4]
      rw [if_neg (by omega), if_neg (by omega)]
  rcases hd with hd | hd <;> rw [hd]
  · refine key _ _ ?_ ?_
    · simp [hz]
    · intro a ha _; rw [isnull_iff]; intro j _; simp [hz]
  · obtain ⟨hC, -⟩ := hlu.upper fun i _ j _ => hz i j
    refine key _ _ ?_ ?_
    · rw [hC 0 hN 0 hN, hz]
    · intro a _ ha; rw [isnull_iff]; intro j hj; rw [hC a ha j hj, hz]

/-- C77. One ordering parameter left, of at most three: the single equation is solved, and the others are zero. -/
theorem C77_lone {N : ℕ} (hN : N ≤ 3) (lu : ℕ → (ℕ → ℕ → ℝ) → (ℕ → ℕ → ℝ) × (ℕ → ℕ)) (i : Fin N) (a : ℝ) (ha : a ≠ 0)
    (b : Fin N → ℝ) (k : Fin N) :
    solve lu N (arr fun k l => if k = i ∧ l = i then a else 0) (vec b) k = if k = i then b i / a else 0 := by
  set M : ℕ → ℕ → ℝ := arr fun k l : Fin N => if k = i ∧ l = i then a else 0 with hM
  have hMi : ∀ k l, M k l = if k = i ∧ l = i then a else 0 := by
    intro k l
    by_cases h : k < N ∧ l < N
    · simp [hM, arr, h, Fin.ext_iff]
    · have : ¬(k = i ∧ l = i) := by rintro ⟨rfl, rfl⟩; exact h ⟨i.2, i.2⟩
      simp [hM, arr, h, this]
  have hn : ∀ k, isnull N (M k) = !decide (k = (i : ℕ)) := by
    intro k
    by_cases h : k = i
    · simp only [h, decide_true, Bool.not_true]
      exact (isnull_false _ _).mpr ⟨i, i.2, by rw [hMi]; simpa using ha⟩
    · simp only [h, decide_false, Bool.not_false]
      exact (isnull_iff _ _).mpr fun j _ => by rw [hMi]; simp [h]
  clear_value M
  clear hM
  -- what is packed
  have hout : ∃ m : ℤ, (m = 0 ∨ m = 1) ∧ outer N N 0 ⟨M, id, N⟩ =
      ⟨fun r => M (Equiv.swap 0 (i : ℕ) r), fun r => Equiv.swap 0 (i : ℕ) r, m⟩ := by
    obtain ⟨i, hi⟩ := i
    simp only at hn ⊢
    interval_cases N
    · omega
    · obtain rfl : i = 0 := by omega
      exact ⟨1, by simp, by simp [outer, hn]; rfl⟩
    · interval_cases i
      · exact ⟨1, by simp, by simp [outer, inner, hn]; rfl⟩
      · exact ⟨1, by simp, by simp [outer, inner, hn]⟩
    · interval_cases i
      · exact ⟨0, by simp, by simp [outer, inner, hn]; rfl⟩
      · exact ⟨1, by simp, by simp [outer, inner, hn, Equiv.swap_apply_of_ne_of_ne]⟩
      · exact ⟨1, by simp, by simp [outer, inner, hn]⟩
  obtain ⟨m, hm, hout⟩ := hout
  have hi0 : M (Equiv.swap 0 (i : ℕ) 0) (Equiv.swap 0 (i : ℕ) 0) = a := by rw [hMi]; simp
  have hd : decomp lu N M = (fun r j => if a ≠ 0 ∧ r = 0 ∧ j = 0 then 1 / a else
      if r = 0 ∧ j = Equiv.swap 0 (i : ℕ) 0 then 0 else M (Equiv.swap 0 (i : ℕ) r) j, fun r => Equiv.swap 0 (i : ℕ) r) := by
    simp only [decomp, hout]
    rw [if_pos (by omega), hi0]
  have hrow : ∀ r, 0 < r → r < N → isnull N ((decomp lu N M).1 r) = true := by
    intro r h0 _
    rw [hd, isnull_iff]
    intro j _
    have hr : Equiv.swap 0 (i : ℕ) r ≠ i := by
      intro h
      have := congrArg (Equiv.swap 0 (i : ℕ)) h
      simp at this; omega
    have : r ≠ 0 := by omega
    simp [this, hMi, hr]
  unfold solve
  simp only [svx, if_pos (rowsOf_le_one hrow)]
  rw [hd]
  have hb : vec b i = b i := by simp [vec]
  simp only [Equiv.swap_apply_left, ha, ne_eq, not_false_eq_true, true_and, and_self, if_true, hb, Fin.ext_iff]
  rw [mul_one_div]

/-- C77. Of four or more ordering parameters only the first is left: the equation `a x = b` is answered with `x = a b`
(the zero rows are counted twice, and the matrix is taken to be complete). -/
theorem C77_lone_many {N : ℕ} (hN : 4 ≤ N) (lu : ℕ → (ℕ → ℕ → ℝ) → (ℕ → ℕ → ℝ) × (ℕ → ℕ)) (a : ℝ) (ha : a ≠ 0) (b : Fin N → ℝ)
    (hlu : Factors N (arr fun k l : Fin N => if (k : ℕ) = 0 ∧ (l : ℕ) = 0 then a else 0)
      (lu N (arr fun k l : Fin N => if (k : ℕ) = 0 ∧ (l : ℕ) = 0 then a else 0)).1
      (lu N (arr fun k l : Fin N => if (k : ℕ) = 0 ∧ (l : ℕ) = 0 then a else 0)).2) :
    solve lu N (arr fun k l : Fin N => if (k : ℕ) = 0 ∧ (l : ℕ) = 0 then a else 0) (vec b) 0 = a * vec b 0 := by
  set M : ℕ → ℕ → ℝ := arr fun k l : Fin N => if (k : ℕ) = 0 ∧ (l : ℕ) = 0 then a else 0 with hM
  have hMi : ∀ k l, M k l = if k = 0 ∧ l = 0 then a else 0 := by
    intro k l
    by_cases h : k < N ∧ l < N
    · simp [hM, arr, h]
    · have : ¬(k = 0 ∧ l = 0) := by omega
      simp [hM, arr, h, this]
  have h0 : isnull N (M 0) = false := (isnull_false _ _).mpr ⟨0, by omega, by rw [hMi]; simpa using ha⟩
  have hn : ∀ k, 1 ≤ k → k < N → isnull N (M k) = true := fun k hk _ => (isnull_iff _ _).mpr fun j _ => by
    rw [hMi, if_neg (by omega)]
  obtain ⟨n, rfl⟩ : ∃ n, N = n + 1 := ⟨N - 1, by omega⟩
  obtain ⟨m, -, -, h3, h4⟩ := outer_null n 1 ⟨M, id, (n + 1 : ℕ)⟩ hn
  simp only at h3
  have h3 := h3 (by omega) (by omega)
  have hout : outer (n + 1) (n + 1) 0 ⟨M, id, (n + 1 : ℕ)⟩ = ⟨M, id, m⟩ := by
    rw [outer, if_pos (by omega)]
    simp only [h0, Bool.false_eq_true, if_false, zero_add]
    exact h4
  have hd : decomp lu (n + 1) M = lu (n + 1) M := by
    simp only [decomp, hout]
    rw [if_neg (by omega), if_neg (by omega)]
  obtain ⟨hC, hp⟩ := hlu.upper fun i _ j hj => by rw [hMi, if_neg (by omega)]
  have hrow : ∀ r, 0 < r → r < n + 1 → isnull (n + 1) ((lu (n + 1) M).1 r) = true := by
    intro r hr hrn
    rw [isnull_iff]
    intro j hj
    rw [hC r hrn j hj, hMi, if_neg (by omega)]
  unfold solve
  simp only [svx, hd, if_pos (rowsOf_le_one hrow), hp 0 (by omega), if_true]
  rw [hC 0 (by omega) 0 (by omega), hMi]
  simp [mul_comm]

lemma forward_zero (LU : ℕ → ℕ → ℝ) (y : ℕ → ℝ) : forward LU y 0 = y 0 := by rw [forward]; simp

lemma forward_one (LU : ℕ → ℕ → ℝ) (y : ℕ → ℝ) : forward LU y 1 = y 1 - LU 1 0 * y 0 := by rw [forward]; simp [forward_zero]

lemma backward_zero (n : ℕ) (LU : ℕ → ℕ → ℝ) (y : ℕ → ℝ) : backward n LU y 0 = y (n - 1) / LU (n - 1) (n - 1) := by
  rw [backward]; simp

lemma backward_one (n : ℕ) (LU : ℕ → ℕ → ℝ) (y : ℕ → ℝ) : backward n LU y 1 =
    (y (n - 1 - 1) - LU (n - 1 - 1) (n - 1) * (y (n - 1) / LU (n - 1) (n - 1))) / LU (n - 1 - 1) (n - 1 - 1) := by
  rw [backward]; simp [backward_zero]

/-- C77. Two uncoupled ordering parameters left of four: the equation `a x = b` of the first is answered with `x = a b`. -/
theorem C77_two_of_four (lu : ℕ → (ℕ → ℕ → ℝ) → (ℕ → ℕ → ℝ) × (ℕ → ℕ)) (a c : ℝ) (ha : a ≠ 0) (hc : c ≠ 0) (b : Fin 4 → ℝ) :
    solve lu 4 (arr (Matrix.diagonal ![a, c, 0, 0])) (vec b) 0 = a * b 0 := by
  set M : ℕ → ℕ → ℝ := arr (Matrix.diagonal ![a, c, 0, 0]) with hM
  have hMi : ∀ k l, M k l = if k = l then (if k = 0 then a else if k = 1 then c else 0) else 0 := by
    intro k l
    by_cases h : k < 4 ∧ l < 4
    · rw [hM, arr_lt _ h.1 h.2, Matrix.diagonal_apply]
      simp only [Fin.mk.injEq]
      split_ifs with h1 h2 h3
      · subst h2; rfl
      · subst h3; rfl
      · have hk : k = 2 ∨ k = 3 := by omega
        rcases hk with rfl | rfl <;> rfl
      · rfl
    · have : M k l = 0 := by simp [hM, arr, h]
      rw [this]
      split_ifs <;> first | rfl | omega
  have h0 : isnull 4 (M 0) = false := (isnull_false _ _).mpr ⟨0, by omega, by rw [hMi]; simpa using ha⟩
  have h1 : isnull 4 (M 1) = false := (isnull_false _ _).mpr ⟨1, by omega, by rw [hMi]; simpa using hc⟩
  have h2 : isnull 4 (M 2) = true := (isnull_iff _ _).mpr fun j _ => by rw [hMi]; simp
  have h3 : isnull 4 (M 3) = true := (isnull_iff _ _).mpr fun j _ => by rw [hMi]; simp
  have hout : outer 4 4 0 ⟨M, id, (4 : ℕ)⟩ = ⟨M, id, 1⟩ := by simp [outer, inner, h0, h1, h2, h3]
  have hd : decomp lu 4 M = (fun i j => if i = 0 ∧ j = 0 then 1 / a else M i j, id) := by
    simp only [decomp, hout]
    have e : M 0 0 = a := by rw [hMi]; simp
    simp only [id, e, ha, ne_eq, not_false_eq_true, true_and]
    simp only [zero_le_one, le_refl, and_self, if_true, Prod.mk.injEq, and_true]
    funext i j
    split_ifs <;> rfl
  have hrows : rowsOf 4 (decomp lu 4 M).1 = 2 := by
    rw [hd]
    have : (range 4).filter (fun i => isnull 4 (fun j => if i = 0 ∧ j = 0 then 1 / a else M i j) = false) = {0, 1} := by
      ext i
      simp only [mem_filter, mem_range, mem_insert, mem_singleton]
      constructor
      · rintro ⟨h, hh⟩
        by_contra hne
        have : ∀ j < 4, (if i = 0 ∧ j = 0 then 1 / a else M i j) = 0 := by
          intro j _; rw [if_neg (by omega), hMi]; split_ifs <;> first | rfl | omega
        rw [(isnull_iff 4 _).mpr this] at hh; cases hh
      · rintro (rfl | rfl)
        · exact ⟨by omega, (isnull_false _ _).mpr ⟨0, by omega, by simpa using ha⟩⟩
        · exact ⟨by omega, (isnull_false _ _).mpr ⟨1, by omega, by simp [hMi, hc]⟩⟩
    rw [rowsOf, this]; rfl
  unfold solve
  simp only [svx, hrows]
  rw [hd]
  rw [if_neg (by omega), if_pos (by omega)]
  simp only [unpermute, triangular]
  simp [sum_range_succ, backward_one, forward_zero, forward_one, hMi, vec]
  field_simp

end

end Verif.Num.PackedLU
