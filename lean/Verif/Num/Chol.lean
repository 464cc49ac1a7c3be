import Mathlib.Analysis.Real.Sqrt
import Mathlib.Tactic.IntervalCases
import Mathlib.Algebra.BigOperators.Intervals
import Mathlib.Tactic.Ring
import Mathlib.Tactic.Linarith
import Mathlib.Tactic.FieldSimp
import Mathlib.Tactic.Positivity

/-!
Cholesky factorisation in compact storage and back-substitution, `Choldcmp` and `Cholback`
(/repo/sources/nash.c 412-466), used by the least-squares minimiser `modmrt`.

Arrays are functions on indices; indices are zero based, so the element the code calls `a[m-1]` with
`m = i*(i-1)/2 + j` is `a (p (i-1) (j-1))`. Simplification: `double` is the real numbers, accumulation loops
(`s -= ...`) are sums. The code's `(d == 0.0) ? 0.0 : x/d` is Lean's `x / d`.
-/

namespace Magma.Num.Chol

open Finset

/-- Position of row `i`, column `j ≤ i` in compact storage, nash.c 419, 422. -/
def p (i j : ℕ) : ℕ := i * (i + 1) / 2 + j

/-- Array assignment. -/
def upd (a : ℕ → ℝ) (k : ℕ) (v : ℝ) : ℕ → ℝ := fun m => if m = k then v else a m

/-- Loop over the rows `j, ..., n-1` of a column. -/
def rows (n j : ℕ) (f : (ℕ → ℝ) → ℕ → ℕ → ℝ) (a : ℕ → ℝ) : ℕ → ℝ := (List.range' j (n - j)).foldl f a

/-- nash.c 421-425. -/
noncomputable def colSub (j : ℕ) (a : ℕ → ℝ) (i : ℕ) : ℕ → ℝ :=
  upd a (p i j) (a (p i j) - ∑ k ∈ range j, a (p i (j - 1 - k)) * a (p j (j - 1 - k)))

/-- nash.c 432-435; `s` is the square root taken before the loop. -/
noncomputable def colDiv (j : ℕ) (s : ℝ) (a : ℕ → ℝ) (i : ℕ) : ℕ → ℝ :=
  upd a (p i j) (a (p i j) / s)

/-- One pass of the outer loop, nash.c 419-435; the second component is `singmat`. -/
noncomputable def column (n : ℕ) (st : (ℕ → ℝ) × Bool) (j : ℕ) : (ℕ → ℝ) × Bool :=
  let a := if j > 0 then rows n j (colSub j) st.1 else st.1
  let sing := st.2 || decide (a (p j j) ≤ 0)
  let a := if a (p j j) ≤ 0 then upd a (p j j) 0 else a
  (rows n j (colDiv j (Real.sqrt (a (p j j)))) a, sing)

/-- `Choldcmp`, nash.c 412-437. -/
noncomputable def choldcmp (n : ℕ) (a : ℕ → ℝ) : (ℕ → ℝ) × Bool := (List.range n).foldl (column n) (a, false)

/-- Forward substitution, nash.c 448-456 (row 0 is the first statement, with an empty inner loop). -/
noncomputable def forward (a : ℕ → ℝ) (n : ℕ) (x : ℕ → ℝ) : ℕ → ℝ :=
  (List.range n).foldl (fun x i => upd x i ((x i - ∑ j ∈ range i, a (p i j) * x j) / a (p i i))) x

/-- Backward substitution from row `i` down, nash.c 460-464 (`i` here is the code's `i-1`). -/
noncomputable def back (a : ℕ → ℝ) : ℕ → (ℕ → ℝ) → ℕ → ℝ
  | 0, x => x
  | i + 1, x =>
    let x1 := fun j => if j < i + 1 then x j - x (i + 1) * a (p (i + 1) j) else x j
    back a i (upd x1 i (x1 i / a (p i i)))

/-- `Cholback`, nash.c 444-466, for `n ≥ 1`. -/
noncomputable def cholback (n : ℕ) (a x : ℕ → ℝ) : ℕ → ℝ :=
  let y := forward a n x
  back a (n - 1) (upd y (n - 1) (y (n - 1) / a (p (n - 1) (n - 1))))

/-! ### Specification -/

/-- The symmetric matrix held in compact storage. -/
def sym (a : ℕ → ℝ) (i j : ℕ) : ℝ := if j ≤ i then a (p i j) else a (p j i)

/-- The lower triangular matrix held in compact storage. -/
def low (a : ℕ → ℝ) (i j : ℕ) : ℝ := if j ≤ i then a (p i j) else 0

/-- Positive definiteness of the leading `n` by `n` block. -/
def PosDef (n : ℕ) (A : ℕ → ℕ → ℝ) : Prop :=
  ∀ z : ℕ → ℝ, (∃ i < n, z i ≠ 0) → 0 < ∑ i ∈ range n, ∑ j ∈ range n, z i * A i j * z j

/-! ### Storage -/

theorem tri_succ (i : ℕ) : (i + 1) * (i + 1 + 1) / 2 = i * (i + 1) / 2 + (i + 1) := by
  have h : (i + 1) * (i + 1 + 1) = i * (i + 1) + 2 * (i + 1) := by ring
  rw [h]; omega

theorem tri_lt {i i' : ℕ} (h : i < i') : i * (i + 1) / 2 + i < i' * (i' + 1) / 2 := by
  induction h with
  | refl => rw [Nat.succ_eq_add_one, tri_succ]; omega
  | step _ ih => rw [Nat.succ_eq_add_one, tri_succ]; omega

/-- Different elements of the triangle have different positions. -/
theorem p_inj {i j i' j' : ℕ} (hj : j ≤ i) (hj' : j' ≤ i') (h : p i j = p i' j') : i = i' ∧ j = j' := by
  unfold p at h
  rcases lt_trichotomy i i' with hl | hl | hl
  · have := tri_lt hl; omega
  · subst hl; exact ⟨rfl, by omega⟩
  · have := tri_lt hl; omega

theorem upd_same (a : ℕ → ℝ) (k : ℕ) (v : ℝ) : upd a k v k = v := by simp [upd]

theorem upd_ne (a : ℕ → ℝ) {k m : ℕ} (h : m ≠ k) (v : ℝ) : upd a k v m = a m := by simp [upd, h]

/-! ### The column loops -/

/-- Effect of a column loop whose body writes row `i` of column `j` from entries of other columns and the entry
itself. -/
theorem rows_spec {n j : ℕ} {f : (ℕ → ℝ) → ℕ → ℕ → ℝ} {v : (ℕ → ℝ) → ℕ → ℝ}
    (hf : ∀ a i, f a i = upd a (p i j) (v a i))
    (hv : ∀ a a' i, j ≤ i → a' (p i j) = a (p i j) → (∀ i' j', j' ≤ i' → j' < j → a' (p i' j') = a (p i' j')) →
      v a' i = v a i) (a : ℕ → ℝ) :
    (∀ i, j ≤ i → i < n → rows n j f a (p i j) = v a i) ∧
    (∀ i j', j' ≤ i → (j' ≠ j ∨ n ≤ i) → rows n j f a (p i j') = a (p i j')) := by
  have key : ∀ m s (a' : ℕ → ℝ), j ≤ s →
      (∀ i j', j' ≤ i → (j' ≠ j ∨ s ≤ i) → a' (p i j') = a (p i j')) →
      (∀ i, j ≤ i → i < s → a' (p i j) = v a i) →
      (∀ i, j ≤ i → i < s + m → (List.range' s m).foldl f a' (p i j) = v a i) ∧
      (∀ i j', j' ≤ i → (j' ≠ j ∨ s + m ≤ i) → (List.range' s m).foldl f a' (p i j') = a (p i j')) := by
    intro m
    induction m with
    | zero => intro s a' _ h1 h2; exact ⟨fun i hi hs => h2 i hi (by omega), fun i j' hj hi => h1 i j' hj (by omega)⟩
    | succ m ih =>
      intro s a' hs h1 h2
      rw [List.range'_succ, List.foldl_cons]
      have := ih (s + 1) (f a' s) (by omega) ?_ ?_
      · refine ⟨fun i hi hs => this.1 i hi (by omega), fun i j' hj hi => this.2 i j' hj (by omega)⟩
      · intro i j' hj hi
        rw [hf, upd_ne]
        · exact h1 i j' hj (by omega)
        · intro e
          have := p_inj hj hs e
          omega
      · intro i hi hs'
        rw [hf]
        by_cases e : i = s
        · subst e
          rw [upd_same]
          exact hv a a' i hi (h1 i j hi (Or.inr (le_refl _))) fun i' j' hj' hl => h1 i' j' hj' (Or.inl (by omega))
        · rw [upd_ne]
          · exact h2 i hi (by omega)
          · intro e'
            exact e (p_inj hi hs e').1
  have := key (n - j) j a (le_refl _) (fun _ _ _ _ => rfl) (fun i h1 h2 => by omega)
  unfold rows
  refine ⟨fun i hi hn => this.1 i hi (by omega), fun i j' hj hi => ?_⟩
  by_cases hjn : j ≤ n
  · exact this.2 i j' hj (by omega)
  · have : n - j = 0 := by omega
    rw [this]; rfl

theorem sub_spec (n j : ℕ) (a : ℕ → ℝ) :
    (∀ i, j ≤ i → i < n → rows n j (colSub j) a (p i j) = a (p i j) - ∑ k ∈ range j, a (p i k) * a (p j k)) ∧
    (∀ i j', j' ≤ i → (j' ≠ j ∨ n ≤ i) → rows n j (colSub j) a (p i j') = a (p i j')) := by
  refine rows_spec (v := fun a i => a (p i j) - ∑ k ∈ range j, a (p i k) * a (p j k)) ?_ ?_ a
  · intro a i
    unfold colSub
    congr 2
    rw [← sum_range_reflect (fun k => a (p i k) * a (p j k)) j]
  · intro a a' i hi h1 h2
    rw [h1]
    congr 1
    refine sum_congr rfl fun k hk => ?_
    have hk := mem_range.mp hk
    rw [h2 i k (by omega) hk, h2 j k (by omega) hk]

theorem div_spec (n j : ℕ) (s : ℝ) (a : ℕ → ℝ) :
    (∀ i, j ≤ i → i < n → rows n j (colDiv j s) a (p i j) = a (p i j) / s) ∧
    (∀ i j', j' ≤ i → (j' ≠ j ∨ n ≤ i) → rows n j (colDiv j s) a (p i j') = a (p i j')) := by
  refine rows_spec (v := fun a i => a (p i j) / s) (fun a i => rfl) ?_ a
  intro a a' i hi h1 _
  simp only [h1]

/-- The pivot of column `j` in the state `a`. -/
noncomputable def pivot (a : ℕ → ℝ) (j : ℕ) : ℝ := a (p j j) - ∑ k ∈ range j, a (p j k) * a (p j k)

/-- Effect of one column when its pivot is positive. -/
theorem column_spec (n j : ℕ) (hj : j < n) (st : (ℕ → ℝ) × Bool) :
    ((column n st j).2 = (st.2 || decide (pivot st.1 j ≤ 0))) ∧
    (0 < pivot st.1 j →
      (column n st j).1 (p j j) = Real.sqrt (pivot st.1 j) ∧
      (∀ i, j < i → i < n → (column n st j).1 (p i j) =
        (st.1 (p i j) - ∑ k ∈ range j, st.1 (p i k) * st.1 (p j k)) / Real.sqrt (pivot st.1 j)) ∧
      (∀ i j', j' ≤ i → j' ≠ j → (column n st j).1 (p i j') = st.1 (p i j'))) := by
  obtain ⟨a, sing⟩ := st
  have ha : ∃ a1, (if j > 0 then rows n j (colSub j) a else a) = a1 ∧
      (∀ i, j ≤ i → i < n → a1 (p i j) = a (p i j) - ∑ k ∈ range j, a (p i k) * a (p j k)) ∧
      (∀ i j', j' ≤ i → j' ≠ j → a1 (p i j') = a (p i j')) := by
    refine ⟨_, rfl, ?_⟩
    by_cases h : j > 0
    · rw [if_pos h]
      exact ⟨(sub_spec n j a).1, fun i j' h1 h2 => (sub_spec n j a).2 i j' h1 (Or.inl h2)⟩
    · rw [if_neg h]
      have : j = 0 := by omega
      subst this
      exact ⟨fun i _ _ => by simp, fun _ _ _ _ => rfl⟩
  obtain ⟨a1, e1, h1, h2⟩ := ha
  have hp : a1 (p j j) = pivot a j := h1 j (le_refl _) hj
  unfold column
  simp only [e1, hp]
  refine ⟨trivial, fun hpos => ?_⟩
  rw [if_neg (not_le.mpr hpos)]
  have hs := div_spec n j (Real.sqrt (a1 (p j j))) a1
  have hsq : Real.sqrt (a1 (p j j)) = Real.sqrt (pivot a j) := by rw [hp]
  refine ⟨?_, ?_, ?_⟩
  · rw [hs.1 j (le_refl _) hj, hp, Real.div_sqrt]
  · intro i hi hn
    rw [hs.1 i hi.le hn, h1 i hi.le hn, hsq]
  · intro i j' hj' hne
    rw [hs.2 i j' hj' (Or.inl hne), h2 i j' hj' hne]

/-- Invariant after the columns below `J`, when no singularity was reported. -/
structure Inv (n : ℕ) (a0 a : ℕ → ℝ) (J : ℕ) : Prop where
  rest : ∀ i j, j ≤ i → J ≤ j → a (p i j) = a0 (p i j)
  fact : ∀ i j, j ≤ i → j < J → i < n → ∑ k ∈ range (j + 1), a (p i k) * a (p j k) = a0 (p i j)
  diag : ∀ j < J, 0 < a (p j j)

theorem choldcmp_succ (n J : ℕ) (a : ℕ → ℝ) :
    (List.range (J + 1)).foldl (column n) (a, false) = column n ((List.range J).foldl (column n) (a, false)) J := by
  rw [List.range_succ, List.foldl_append]; rfl

theorem inv_holds (n : ℕ) (a0 : ℕ → ℝ) (J : ℕ) (hJ : J ≤ n)
    (hs : ((List.range J).foldl (column n) (a0, false)).2 = false) :
    Inv n a0 ((List.range J).foldl (column n) (a0, false)).1 J := by
  induction J with
  | zero => exact ⟨fun _ _ _ _ => rfl, fun _ _ _ h _ => absurd h (Nat.not_lt_zero _), fun _ h => absurd h (Nat.not_lt_zero _)⟩
  | succ J ih =>
    rw [choldcmp_succ] at hs ⊢
    generalize hst : (List.range J).foldl (column n) (a0, false) = st at hs ih ⊢
    have hc := column_spec n J (by omega) st
    rw [hc.1] at hs
    have hs1 : st.2 = false := by
      cases h : st.2
      · rfl
      · rw [h] at hs; simp at hs
    have hp : 0 < pivot st.1 J := by
      rw [hs1] at hs
      simpa using hs
    obtain ⟨c1, c2, c3⟩ := hc.2 hp
    have hI := ih (by omega) hs1
    have hsq : 0 < Real.sqrt (pivot st.1 J) := Real.sqrt_pos.mpr hp
    generalize column n st J = st' at c1 c2 c3
    refine ⟨?_, ?_, ?_⟩
    · intro i j hj hJj
      rw [c3 i j hj (by omega)]
      exact hI.rest i j hj (by omega)
    · intro i j hj hjJ hi
      by_cases e : j = J
      · subst e
        rw [sum_range_succ]
        have e1 : ∑ k ∈ range j, st'.1 (p i k) * st'.1 (p j k) = ∑ k ∈ range j, st.1 (p i k) * st.1 (p j k) := by
          refine sum_congr rfl fun k hk => ?_
          have hk := mem_range.mp hk
          rw [c3 i k (by omega) (by omega), c3 j k (by omega) (by omega)]
        rw [e1]
        by_cases e2 : i = j
        · subst e2
          rw [c1, Real.mul_self_sqrt hp.le]
          unfold pivot
          rw [hI.rest i i (le_refl _) (le_refl _)]
          ring
        · rw [c2 i (by omega) hi, c1, div_mul_cancel₀ _ hsq.ne', hI.rest i j hj (le_refl _)]
          ring
      · have hl : j < J := by omega
        rw [← hI.fact i j hj hl hi]
        refine sum_congr rfl fun k hk => ?_
        have hk := mem_range.mp hk
        rw [c3 i k (by omega) (by omega), c3 j k (by omega) (by omega)]
    · intro j hjJ
      by_cases e : j = J
      · subst e; rw [c1]; exact hsq
      · rw [c3 j j (le_refl _) e]; exact hI.diag j (by omega)

/-- **C41.** When the factorisation reports no singularity the triangle it leaves, `L`, satisfies `L Lᵀ = A`, and
its diagonal is positive. -/
theorem C41_factorisation (n : ℕ) (a : ℕ → ℝ) (h : (choldcmp n a).2 = false) :
    (∀ i < n, ∀ j < n, ∑ k ∈ range n, low (choldcmp n a).1 i k * low (choldcmp n a).1 j k = sym a i j) ∧
    ∀ j < n, 0 < low (choldcmp n a).1 j j := by
  have hI := inv_holds n a n (le_refl _) h
  change Inv n a (choldcmp n a).1 n at hI
  generalize (choldcmp n a).1 = l at hI
  have key : ∀ i j, j ≤ i → i < n → ∑ k ∈ range n, low l i k * low l j k = a (p i j) := by
    intro i j hj hi
    rw [← hI.fact i j hj (by omega) hi]
    have hsub : range (j + 1) ⊆ range n := by intro k; simp only [mem_range]; omega
    rw [← sum_subset hsub]
    · refine sum_congr rfl fun k hk => ?_
      have hk := mem_range.mp hk
      unfold low
      rw [if_pos (by omega), if_pos (by omega)]
    · intro k _ hk
      have : ¬ k ≤ j := by simp only [mem_range] at hk; omega
      unfold low
      rw [if_neg this, mul_zero]
  refine ⟨fun i hi j hj => ?_, fun j hj => by unfold low; rw [if_pos (le_refl _)]; exact hI.diag j hj⟩
  unfold sym
  split_ifs with h1
  · exact key i j h1 hi
  · rw [← key j i (by omega) hj]
    exact sum_congr rfl fun k _ => mul_comm _ _

/-! ### Back-substitution -/

theorem forward_spec (a : ℕ → ℝ) (n : ℕ) (hd : ∀ i < n, a (p i i) ≠ 0) (x : ℕ → ℝ) :
    ∀ i < n, ∑ j ∈ range (i + 1), a (p i j) * forward a n x j = x i := by
  have key : ∀ m ≤ n, (∀ i < m, ∑ j ∈ range (i + 1), a (p i j) * forward a m x j = x i) ∧
      ∀ i, m ≤ i → forward a m x i = x i := by
    intro m
    induction m with
    | zero => intro _; exact ⟨fun i h => absurd h (Nat.not_lt_zero _), fun i _ => rfl⟩
    | succ m ih =>
      intro hm
      obtain ⟨h1, h2⟩ := ih (by omega)
      have e : forward a (m + 1) x =
          upd (forward a m x) m ((forward a m x m - ∑ j ∈ range m, a (p m j) * forward a m x j) / a (p m m)) := by
        unfold forward
        rw [List.range_succ, List.foldl_append]; rfl
      rw [e]
      constructor
      · intro i hi
        by_cases hi' : i = m
        · subst hi'
          rw [sum_range_succ, upd_same, mul_div_cancel₀ _ (hd i (by omega)), h2 i (le_refl _)]
          have : ∑ j ∈ range i, a (p i j) * upd (forward a i x) i
              ((x i - ∑ j ∈ range i, a (p i j) * forward a i x j) / a (p i i)) j =
              ∑ j ∈ range i, a (p i j) * forward a i x j :=
            sum_congr rfl fun j hj => by rw [upd_ne _ (by have := mem_range.mp hj; omega)]
          rw [this]; ring
        · rw [← h1 i (by omega)]
          exact sum_congr rfl fun j hj => by rw [upd_ne _ (by have := mem_range.mp hj; omega)]
      · intro i hi
        rw [upd_ne _ (by omega), h2 i (by omega)]
  exact (key n (le_refl _)).1

theorem back_spec (a y : ℕ → ℝ) (n : ℕ) (hd : ∀ i < n, a (p i i) ≠ 0) (i : ℕ) (x : ℕ → ℝ) (hi : i < n)
    (h1 : ∀ j, i ≤ j → j < n → ∑ m ∈ Ico j n, a (p m j) * x m = y j)
    (h2 : ∀ j < i, x j = y j - ∑ m ∈ Ico (i + 1) n, a (p m j) * x m) :
    ∀ j < n, ∑ m ∈ Ico j n, a (p m j) * back a i x m = y j := by
  induction i generalizing x with
  | zero => intro j hj; exact h1 j (Nat.zero_le _) hj
  | succ i ih =>
    unfold back
    simp only
    set x1 : ℕ → ℝ := fun j => if j < i + 1 then x j - x (i + 1) * a (p (i + 1) j) else x j with hx1
    set x2 := upd x1 i (x1 i / a (p i i)) with hx2
    have hge : ∀ m, i + 1 ≤ m → x2 m = x m := by
      intro m hm
      rw [hx2, upd_ne _ (by omega), hx1]
      simp only
      rw [if_neg (by omega)]
    have hIco : ∀ j, j < i + 1 → x j - x (i + 1) * a (p (i + 1) j) = y j - ∑ m ∈ Ico (i + 1) n, a (p m j) * x m := by
      intro j hj
      rw [h2 j hj, ← sum_Ioo_add_eq_sum_Ico hi]
      have : Ioo (i + 1) n = Ico (i + 1 + 1) n := by ext; simp only [mem_Ioo, mem_Ico]; omega
      rw [this]; ring
    refine ih x2 (by omega) ?_ ?_
    · intro j hij hj
      by_cases e : j = i
      · subst e
        rw [← sum_Ioo_add_eq_sum_Ico hj]
        have : Ioo j n = Ico (j + 1) n := by ext; simp only [mem_Ioo, mem_Ico]; omega
        rw [this]
        have e2 : ∑ m ∈ Ico (j + 1) n, a (p m j) * x2 m = ∑ m ∈ Ico (j + 1) n, a (p m j) * x m :=
          sum_congr rfl fun m hm => by rw [hge m (mem_Ico.mp hm).1]
        rw [e2]
        have e3 : a (p j j) * x2 j = y j - ∑ m ∈ Ico (j + 1) n, a (p m j) * x m := by
          rw [hx2, upd_same, mul_div_cancel₀ _ (hd j hj), hx1]
          simp only
          rw [if_pos (by omega), hIco j (by omega)]
        rw [e3]; ring
      · rw [← h1 j (by omega) hj]
        exact sum_congr rfl fun m hm => by rw [hge m (by have := (mem_Ico.mp hm).1; omega)]
    · intro j hj
      rw [hx2, upd_ne _ (by omega), hx1]
      simp only
      rw [if_pos (by omega), hIco j (by omega)]
      congr 1
      refine sum_congr rfl fun m hm => ?_
      have := hge m (mem_Ico.mp hm).1
      rw [hx2, hx1] at this
      rw [this]

theorem cholback_spec (a x : ℕ → ℝ) (n : ℕ) (hn : 0 < n) (hd : ∀ i < n, a (p i i) ≠ 0) :
    ∀ i < n, ∑ k ∈ range n, (∑ m ∈ range n, low a m k * cholback n a x m) * low a i k = x i := by
  have hy := forward_spec a n hd x
  generalize hfy : forward a n x = y at hy
  have hb : ∀ j < n, ∑ m ∈ Ico j n, a (p m j) * cholback n a x m = y j := by
    unfold cholback
    simp only [hfy]
    refine back_spec a y n hd (n - 1) _ (by omega) ?_ ?_
    · intro j h1 h2
      have : j = n - 1 := by omega
      subst this
      have : Ico (n - 1) n = {n - 1} := by ext; simp only [mem_Ico, mem_singleton]; omega
      rw [this, sum_singleton, upd_same, mul_div_cancel₀ _ (hd _ h2)]
    · intro j hj
      rw [upd_ne _ (by omega)]
      have : Ico (n - 1 + 1) n = ∅ := by ext; simp only [mem_Ico, notMem_empty, iff_false]; omega
      rw [this, sum_empty, sub_zero]
  have hb' : ∀ k < n, ∑ m ∈ range n, low a m k * cholback n a x m = y k := by
    intro k hk
    rw [← hb k hk]
    have hsub : Ico k n ⊆ range n := by intro m; simp only [mem_Ico, mem_range]; omega
    rw [← sum_subset hsub]
    · refine sum_congr rfl fun m hm => ?_
      unfold low
      rw [if_pos (mem_Ico.mp hm).1]
    · intro m h1 h2
      have h1 := mem_range.mp h1
      have : ¬ k ≤ m := by simp only [mem_Ico] at h2; omega
      unfold low
      rw [if_neg this, zero_mul]
  intro i hi
  rw [← hy i hi]
  have hsub : range (i + 1) ⊆ range n := by intro m; simp only [mem_range]; omega
  rw [← sum_subset hsub]
  · refine sum_congr rfl fun k hk => ?_
    have hk := mem_range.mp hk
    rw [hb' k (by omega)]
    unfold low
    rw [if_pos (by omega)]; ring
  · intro k h1 h2
    have : ¬ k ≤ i := by simp only [mem_range] at h2; omega
    unfold low
    rw [if_neg this, mul_zero]

/-- **C41.** Factorisation and back-substitution solve the linear system held in compact storage. -/
theorem C41_solves (n : ℕ) (hn : 0 < n) (a b : ℕ → ℝ) (h : (choldcmp n a).2 = false) :
    ∀ i < n, ∑ j ∈ range n, sym a i j * cholback n (choldcmp n a).1 b j = b i := by
  obtain ⟨h1, h2⟩ := C41_factorisation n a h
  intro i hi
  have hs := cholback_spec (choldcmp n a).1 b n hn (fun i hi => by
    have := h2 i hi; unfold low at this; rw [if_pos (le_refl _)] at this; exact this.ne') i hi
  rw [← hs]
  have e : ∀ j ∈ range n, sym a i j * cholback n (choldcmp n a).1 b j =
      ∑ k ∈ range n, low (choldcmp n a).1 i k * low (choldcmp n a).1 j k * cholback n (choldcmp n a).1 b j := by
    intro j hj
    rw [← h1 i hi j (mem_range.mp hj), sum_mul]
  rw [sum_congr rfl e, sum_comm]
  refine sum_congr rfl fun k _ => ?_
  rw [sum_mul]
  exact sum_congr rfl fun j _ => by ring

/-- **C41.** A positive definite matrix is never reported singular. -/
theorem C41_positive_definite (n : ℕ) (a : ℕ → ℝ) (hA : PosDef n (sym a)) : (choldcmp n a).2 = false := by
  have key : ∀ J ≤ n, ((List.range J).foldl (column n) (a, false)).2 = false := by
    intro J
    induction J with
    | zero => intro _; rfl
    | succ J ih =>
      intro hJ
      have hs := ih (by omega)
      have hI := inv_holds n a J (by omega) hs
      rw [choldcmp_succ]
      generalize (List.range J).foldl (column n) (a, false) = st at hs hI ⊢
      rw [(column_spec n J (by omega) st).1, hs]
      simp only [Bool.false_or, decide_eq_false_iff_not, not_le]
      generalize st.1 = l at hI
      -- a vector annihilated by the transposed leading block, bordered by one
      obtain ⟨w, hw⟩ : ∃ w : ℕ → ℝ, ∀ k < J, ∑ m ∈ Ico k J, l (p m k) * w m = - l (p J k) := by
        rcases Nat.eq_zero_or_pos J with h0 | h0
        · exact ⟨0, fun k hk => by omega⟩
        · refine ⟨back l (J - 1) (upd (fun k => - l (p J k)) (J - 1) (- l (p J (J - 1)) / l (p (J - 1) (J - 1)))), ?_⟩
          refine back_spec l (fun k => - l (p J k)) J (fun i hi => (hI.diag i hi).ne') (J - 1) _ (by omega) ?_ ?_
          · intro j h1 h2
            have : j = J - 1 := by omega
            subst this
            have : Ico (J - 1) J = {J - 1} := by ext; simp only [mem_Ico, mem_singleton]; omega
            rw [this, sum_singleton, upd_same, mul_div_cancel₀ _ (hI.diag _ h2).ne']
          · intro j hj
            rw [upd_ne _ (by omega)]
            have : Ico (J - 1 + 1) J = ∅ := by ext; simp only [mem_Ico, notMem_empty, iff_false]; omega
            rw [this, sum_empty, sub_zero]
      set z : ℕ → ℝ := fun i => if i < J then w i else if i = J then 1 else 0 with hz
      have hpos := hA z ⟨J, by omega, by simp [hz]⟩
      -- the matrix on the leading block, through the factor
      have hfac : ∀ i j, i ≤ J → j ≤ J → sym a i j =
          ∑ k ∈ range J, low l i k * low l j k + if i = J ∧ j = J then pivot l J else 0 := by
        have h1 : ∀ i j, j ≤ i → i ≤ J → a (p i j) =
            ∑ k ∈ range J, low l i k * low l j k + if i = J ∧ j = J then pivot l J else 0 := by
          intro i j hj hi
          by_cases e : j < J
          · rw [if_neg (by omega), add_zero, ← hI.fact i j hj e (by omega)]
            have hsub : range (j + 1) ⊆ range J := by intro k; simp only [mem_range]; omega
            rw [← sum_subset hsub]
            · refine sum_congr rfl fun k hk => ?_
              have hk := mem_range.mp hk
              unfold low
              rw [if_pos (by omega), if_pos (by omega)]
            · intro k _ hk
              have : ¬ k ≤ j := by simp only [mem_range] at hk; omega
              unfold low
              rw [if_neg this, mul_zero]
          · have e1 : j = J := by omega
            have e2 : i = J := by omega
            subst e1
            subst e2
            rw [if_pos ⟨rfl, rfl⟩]
            unfold pivot
            rw [hI.rest i i (le_refl _) (le_refl _)]
            have : ∑ k ∈ range i, low l i k * low l i k = ∑ k ∈ range i, l (p i k) * l (p i k) :=
              sum_congr rfl fun k hk => by
                have hk := mem_range.mp hk
                unfold low
                rw [if_pos (by omega)]
            rw [this]; ring
        intro i j hi hj
        unfold sym
        by_cases h : j ≤ i
        · rw [if_pos h]; exact h1 i j h hi
        · rw [if_neg h, h1 j i (by omega) hj]
          congr 1
          · exact sum_congr rfl fun k _ => mul_comm _ _
          · simp only [and_comm]
      have hzero : ∀ k < J, ∑ i ∈ range (J + 1), low l i k * z i = 0 := by
        intro k hk
        rw [sum_range_succ]
        have e1 : ∑ i ∈ range J, low l i k * z i = ∑ m ∈ Ico k J, l (p m k) * w m := by
          have hsub : Ico k J ⊆ range J := by intro m; simp only [mem_Ico, mem_range]; omega
          rw [← sum_subset hsub]
          · refine sum_congr rfl fun m hm => ?_
            have hm := mem_Ico.mp hm
            simp only [low, hz]
            rw [if_pos hm.1, if_pos hm.2]
          · intro m h1 h2
            have h1 := mem_range.mp h1
            have : ¬ k ≤ m := by simp only [mem_Ico] at h2; omega
            unfold low
            rw [if_neg this, zero_mul]
        rw [e1, hw k hk]
        simp only [low, hz]
        rw [if_pos (by omega), if_neg (lt_irrefl _)]
        simp
      have hsum : ∑ i ∈ range n, ∑ j ∈ range n, z i * sym a i j * z j = pivot l J := by
        have hsub : range (J + 1) ⊆ range n := by intro k; simp only [mem_range]; omega
        have hz0 : ∀ i, ¬ i < J + 1 → z i = 0 := by
          intro i hi
          simp only [hz]
          rw [if_neg (by omega), if_neg (by omega)]
        rw [← sum_subset hsub (fun i _ hi => by
          simp only [mem_range] at hi
          rw [hz0 i hi]; simp)]
        have e1 : ∀ i ∈ range (J + 1), ∑ j ∈ range n, z i * sym a i j * z j =
            ∑ j ∈ range (J + 1), z i * (∑ k ∈ range J, low l i k * low l j k +
              if i = J ∧ j = J then pivot l J else 0) * z j := by
          intro i hi
          have hi := mem_range.mp hi
          rw [← sum_subset hsub (fun j _ hj => by
            simp only [mem_range] at hj
            rw [hz0 j hj]; simp)]
          refine sum_congr rfl fun j hj => ?_
          rw [hfac i j (by omega) (by have := mem_range.mp hj; omega)]
        rw [sum_congr rfl e1]
        have e2 : ∀ i ∈ range (J + 1), ∑ j ∈ range (J + 1), z i * (∑ k ∈ range J, low l i k * low l j k +
              if i = J ∧ j = J then pivot l J else 0) * z j =
            ∑ k ∈ range J, (low l i k * z i) * (∑ j ∈ range (J + 1), low l j k * z j) +
              if i = J then pivot l J else 0 := by
          intro i hi
          have e3 : ∀ j ∈ range (J + 1), z i * (∑ k ∈ range J, low l i k * low l j k +
              if i = J ∧ j = J then pivot l J else 0) * z j =
              ∑ k ∈ range J, (low l i k * z i) * (low l j k * z j) +
                if j = J then (if i = J then pivot l J else 0) else 0 := by
            intro j _
            rw [mul_add, add_mul, mul_sum, sum_mul]
            congr 1
            · exact sum_congr rfl fun k _ => by ring
            · have hzJ : z J = 1 := by simp [hz]
              by_cases h1 : i = J
              · by_cases h2 : j = J
                · subst h1; rw [h2, hzJ]; simp
                · simp [h2]
              · simp [h1]
          rw [sum_congr rfl e3, sum_add_distrib, sum_comm]
          congr 1
          · exact sum_congr rfl fun k _ => by rw [mul_sum]
          · rw [sum_ite_eq' (range (J + 1)) J]
            rw [if_pos (by simp)]
        rw [sum_congr rfl e2, sum_add_distrib]
        have e4 : ∑ i ∈ range (J + 1), ∑ k ∈ range J, (low l i k * z i) * (∑ j ∈ range (J + 1), low l j k * z j) = 0 :=
          sum_eq_zero fun i _ => sum_eq_zero fun k hk => by rw [hzero k (mem_range.mp hk), mul_zero]
        rw [e4, zero_add, sum_ite_eq' (range (J + 1)) J, if_pos (by simp)]
      rw [hsum] at hpos
      exact hpos
  exact key n (le_refl _)

/-- The identity of order two is positive definite, so the theorems apply to it. -/
example : PosDef 2 (sym fun k => if k = 1 then 0 else 1) := by
  intro z hz
  simp only [sum_range_succ, sum_range_zero, zero_add, sym, p]
  norm_num
  obtain ⟨i, hi, h⟩ := hz
  have h0 := mul_self_nonneg (z 0)
  have h1 := mul_self_nonneg (z 1)
  interval_cases i
  · have := mul_self_pos.mpr h; linarith
  · have := mul_self_pos.mpr h; linarith

end Magma.Num.Chol
