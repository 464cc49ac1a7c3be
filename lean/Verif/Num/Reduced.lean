import Verif.Num.Constraint

/-!
Model of the projected quadratic problem of the minimisation, /repo/sources/gradient_hessian.c 1255-1282 (Lagrange
multipliers) and 1394-1416 (projection), together with the decomposition of the constraints and the reassembly of the
solution of `Num.Constraint`.

Simplifications as in `Num.Householder`: real numbers; a matrix is a function of two indices.
-/

namespace Magma.Num.Reduced

open Finset Magma.Num.Householder Magma.Num.Constraint

/-- gradient_hessian.c 1398: the reflections of the constraint matrix applied to every column of `E`. -/
noncomputable def tilde (F : (ℕ → ℕ → ℝ) × (ℕ → ℝ)) (rows cols : ℕ) (E : ℕ → ℕ → ℝ) (i j : ℕ) : ℝ :=
  chain F.1 F.2 cols rows (fun k => E k j) i

/-- gradient_hessian.c 1404: the reflections applied to rows `conRows` to `conCols - 1`. -/
noncomputable def hat (F : (ℕ → ℕ → ℝ) × (ℕ → ℝ)) (rows cols : ℕ) (E : ℕ → ℕ → ℝ) (i : ℕ) : ℕ → ℝ :=
  if rows ≤ i ∧ i < cols then chain F.1 F.2 cols rows (tilde F rows cols E i) else tilde F rows cols E i

/-- gradient_hessian.c 1410, 1416: the right-hand side; `y` is the part of the solution fixed by the constraints. -/
noncomputable def rhs (F : (ℕ → ℕ → ℝ) × (ℕ → ℝ)) (rows cols : ℕ) (E : ℕ → ℕ → ℝ) (b y : ℕ → ℝ) (i : ℕ) : ℝ :=
  chain F.1 F.2 cols rows b i - if rows ≤ i ∧ i < cols then ∑ j ∈ range rows, hat F rows cols E i j * y j else 0

/-- The free part `z` solves the system handed to the quadratic solver, rows and columns `conRows` to `conCols - 1` of
the matrix and right-hand side that getProjGradientAndHessian returns (silmin.c 952-965). -/
def Solves (rows cols : ℕ) (C E : ℕ → ℕ → ℝ) (b d h0 z : ℕ → ℝ) : Prop :=
  let F := decomp rows cols rows (C, h0)
  ∀ i, rows ≤ i → i < cols →
    ∑ j ∈ Ico rows cols, hat F rows cols E i j * z j = rhs F rows cols E b (fwd F.1 d rows) i

/-- gradient_hessian.c 1264-1271: back-substitution for the Lagrange multipliers, the last `k` of them. The entries to
the right of the diagonal of the decomposed constraint matrix are read (`cMatrix[i][j]` with `j > i`). -/
noncomputable def lagrange (F : (ℕ → ℕ → ℝ) × (ℕ → ℝ)) (rows cols : ℕ) (g : ℕ → ℝ) : ℕ → ℕ → ℝ
  | 0 => fun _ => 0
  | k + 1 =>
    let i := rows - 1 - k
    Function.update (lagrange F rows cols g k) i
      ((chain F.1 F.2 cols rows g i - ∑ j ∈ Ioo i rows, F.1 i j * lagrange F rows cols g k j) / F.1 i i)

/-! ### The reflections are inverse to each other -/

section
variable (rows cols : ℕ) (s : (ℕ → ℕ → ℝ) × (ℕ → ℝ))

theorem invol (hc : 0 < cols) (k : ℕ) (hk : k < rows) (x : ℕ → ℝ) :
    let F := decomp rows cols rows s
    h2 k (k + 1) (cols - 1) (F.1 k) (F.2 k) (h2 k (k + 1) (cols - 1) (F.1 k) (F.2 k) x) = x := by
  intro F
  have hst := decomp_stable rows cols s k rows hk
  have hstep := decomp_step rows cols s k
  have ho := (C42_orthogonal k (k + 1) (cols - 1) cols (by omega) ((decomp rows cols k s).1 k)
    ((decomp rows cols k s).2 k)).2.1
  rw [hstep, ← hst.1, ← hst.2] at ho
  exact ho x

theorem chain_back (hc : 0 < cols) (k : ℕ) (hk : k ≤ rows) (x : ℕ → ℝ) :
    let F := decomp rows cols rows s
    chain F.1 F.2 cols k (back F.1 F.2 cols k x) = x := by
  intro F
  induction k generalizing x with
  | zero => rfl
  | succ k ih =>
    rw [back, chain, ih (by omega)]
    exact invol rows cols s hc k (by omega) x

theorem back_chain (hc : 0 < cols) (k : ℕ) (hk : k ≤ rows) (x : ℕ → ℝ) :
    let F := decomp rows cols rows s
    back F.1 F.2 cols k (chain F.1 F.2 cols k x) = x := by
  intro F
  induction k generalizing x with
  | zero => rfl
  | succ k ih =>
    rw [chain, back, invol rows cols s hc k (by omega) (chain F.1 F.2 cols k x), ih (by omega)]

theorem dot_chain (hc : 0 < cols) (x y : ℕ → ℝ) :
    let F := decomp rows cols rows s
    dot cols (chain F.1 F.2 cols rows x) (chain F.1 F.2 cols rows y) = dot cols x y := by
  intro F
  rw [← dot_back F.1 F.2 cols hc rows x, back_chain rows cols s hc rows le_rfl]

end

theorem dot_single (n i : ℕ) (hi : i < n) (x : ℕ → ℝ) : dot n x (fun k => if k = i then 1 else 0) = x i := by
  unfold dot
  rw [sum_eq_single i]
  · simp
  · intro b _ hb; simp [hb]
  · intro h; exact absurd (mem_range.mpr hi) h

/-- The chain of reflections is linear. -/
theorem chain_sum (C : ℕ → ℕ → ℝ) (h : ℕ → ℝ) (cols : ℕ) (hc : 0 < cols) (k : ℕ) (n : ℕ) (a : ℕ → ℝ)
    (X : ℕ → ℕ → ℝ) (i : ℕ) (hi : i < cols) :
    chain C h cols k (fun l => ∑ j ∈ range n, a j * X j l) i = ∑ j ∈ range n, a j * chain C h cols k (X j) i := by
  rw [← dot_single cols i hi (chain C h cols k _), chain_linear C h cols hc, dot_sum]
  refine sum_congr rfl fun j _ => ?_
  rw [← chain_linear C h cols hc, dot_single cols i hi]

theorem chain_sub (C : ℕ → ℕ → ℝ) (h : ℕ → ℝ) (cols : ℕ) (hc : 0 < cols) (k : ℕ) (x y : ℕ → ℝ) (i : ℕ)
    (hi : i < cols) : chain C h cols k (fun l => x l - y l) i = chain C h cols k x i - chain C h cols k y i := by
  rw [← dot_single cols i hi (chain C h cols k _), chain_linear C h cols hc]
  have : dot cols (fun l => x l - y l) (back C h cols k fun k => if k = i then 1 else 0) =
      dot cols x (back C h cols k fun k => if k = i then 1 else 0)
        - dot cols y (back C h cols k fun k => if k = i then 1 else 0) := by
    unfold dot; rw [← sum_sub_distrib]; exact sum_congr rfl fun l _ => by ring
  rw [this, ← chain_linear C h cols hc, ← chain_linear C h cols hc, dot_single cols i hi, dot_single cols i hi]

/-- In the transformed coordinates a vector that meets homogeneous constraints has no constrained part. -/
theorem chain_null (rows cols : ℕ) (hrc : rows ≤ cols) (C : ℕ → ℕ → ℝ) (h0 : ℕ → ℝ) (hind : Indep rows cols C)
    (hc : 0 < cols) (e : ℕ → ℝ) (he : ∀ i < rows, ∑ j ∈ range cols, C i j * e j = 0) (i : ℕ) (hi : i < rows) :
    chain (decomp rows cols rows (C, h0)).1 (decomp rows cols rows (C, h0)).2 cols rows e i = 0 := by
  induction i using Nat.strong_induction_on with
  | _ i ih =>
    obtain ⟨r1, r2⟩ := chain_row rows cols (C, h0) i hi hrc
    have hd := dot_chain rows cols (C, h0) hc (C i) e
    simp only at hd r1 r2
    have h1 : dot cols (C i) e = 0 := he i hi
    rw [h1, dot, sum_eq_single i] at hd
    · rw [r1 i le_rfl] at hd
      exact (mul_eq_zero.mp hd).resolve_left (indep_diag rows cols hrc C h0 hind i hi)
    · intro j hj hne
      rw [mem_range] at hj
      rcases lt_or_gt_of_ne hne with h | h
      · rw [ih j h (by omega), mul_zero]
      · rw [r2 j h hj, zero_mul]
    · intro h; exact absurd (mem_range.mpr (by omega)) h

/-! ### The reduced system is the Newton step -/

/-- The gradient of the quadratic model at `x`. -/
def resid (cols : ℕ) (E : ℕ → ℕ → ℝ) (b x : ℕ → ℝ) (k : ℕ) : ℝ := ∑ j ∈ range cols, E k j * x j - b k

/-- **C67.** If the free part solves the reduced system, the gradient of the quadratic model `½ x·E x - b·x` at the
vector reassembled from it vanishes along every direction the constraints leave free. -/
theorem C67_stationary (rows cols : ℕ) (hrc : rows ≤ cols) (C E : ℕ → ℕ → ℝ) (b d h0 z : ℕ → ℝ)
    (hind : ∀ a : ℕ → ℝ, (∀ j < cols, ∑ i ∈ range rows, a i * C i j = 0) → ∀ i < rows, a i = 0)
    (hz : Solves rows cols C E b d h0 z) (e : ℕ → ℝ) (he : ∀ i < rows, ∑ j ∈ range cols, C i j * e j = 0) :
    ∑ k ∈ range cols, e k * (∑ j ∈ range cols, E k j * solve rows cols C d z h0 j - b k) = 0 := by
  rcases Nat.eq_zero_or_pos cols with h | hc
  · subst h; simp
  set F := decomp rows cols rows (C, h0) with hF
  set x := solve rows cols C d z h0 with hx
  change dot cols e (resid cols E b x) = 0
  rw [← dot_chain rows cols (C, h0) hc, dot]
  refine sum_eq_zero fun i hi => ?_
  rw [mem_range] at hi
  by_cases hir : i < rows
  · rw [chain_null rows cols hrc C h0 hind hc e he i hir, zero_mul]
  · have hir := Nat.le_of_not_lt hir
    have hcx : chain F.1 F.2 cols rows x = fun i => if i < rows then fwd F.1 d rows i else z i :=
      chain_back rows cols (C, h0) hc rows le_rfl _
    have e1 : chain F.1 F.2 cols rows (resid cols E b x) i = dot cols (tilde F rows cols E i) x
        - chain F.1 F.2 cols rows b i := by
      have := chain_sub F.1 F.2 cols hc rows (fun k => ∑ j ∈ range cols, x j * E k j) b i hi
      rw [chain_sum F.1 F.2 cols hc rows cols x (fun j k => E k j) i hi] at this
      rw [show resid cols E b x = fun l => (∑ j ∈ range cols, x j * E l j) - b l from by
        funext l; unfold resid; congr 1; exact sum_congr rfl fun j _ => mul_comm _ _, this]
      congr 1
      unfold dot
      exact sum_congr rfl fun j _ => mul_comm _ _
    have e2 : dot cols (tilde F rows cols E i) x =
        ∑ j ∈ range rows, hat F rows cols E i j * fwd F.1 d rows j + ∑ j ∈ Ico rows cols, hat F rows cols E i j * z j := by
      rw [← dot_chain rows cols (C, h0) hc, ← hF, hcx]
      have hh : hat F rows cols E i = chain F.1 F.2 cols rows (tilde F rows cols E i) := by
        unfold hat; rw [if_pos ⟨hir, hi⟩]
      rw [← hh, dot, ← sum_range_add_sum_Ico _ hrc]
      congr 1
      · refine sum_congr rfl fun j hj => ?_
        rw [if_pos (mem_range.mp hj)]
      · refine sum_congr rfl fun j hj => ?_
        rw [if_neg (by have := (mem_Ico.mp hj).1; omega)]
    have e3 := hz i hir hi
    simp only [← hF] at e3
    rw [e1, e2, e3, rhs, if_pos ⟨hir, hi⟩]
    ring

/-- The energy of the quadratic model. -/
noncomputable def model (cols : ℕ) (E : ℕ → ℕ → ℝ) (b x : ℕ → ℝ) : ℝ :=
  (1 / 2) * ∑ k ∈ range cols, ∑ j ∈ range cols, x k * E k j * x j - ∑ k ∈ range cols, b k * x k

theorem model_step (cols : ℕ) (E : ℕ → ℕ → ℝ) (hE : ∀ i j, i < cols → j < cols → E i j = E j i) (b x e : ℕ → ℝ) :
    model cols E b (fun k => x k + e k) = model cols E b x + dot cols e (resid cols E b x)
      + (1 / 2) * ∑ k ∈ range cols, ∑ j ∈ range cols, e k * E k j * e j := by
  have hs : ∑ k ∈ range cols, ∑ j ∈ range cols, x k * E k j * e j = ∑ k ∈ range cols, ∑ j ∈ range cols, e k * E k j * x j := by
    rw [sum_comm]
    refine sum_congr rfl fun k hk => sum_congr rfl fun j hj => ?_
    rw [hE j k (mem_range.mp hj) (mem_range.mp hk)]; ring
  have e1 : ∑ k ∈ range cols, ∑ j ∈ range cols, (x k + e k) * E k j * (x j + e j) =
      ∑ k ∈ range cols, ∑ j ∈ range cols, x k * E k j * x j + ∑ k ∈ range cols, ∑ j ∈ range cols, x k * E k j * e j
      + ∑ k ∈ range cols, ∑ j ∈ range cols, e k * E k j * x j + ∑ k ∈ range cols, ∑ j ∈ range cols, e k * E k j * e j := by
    simp only [← sum_add_distrib]
    exact sum_congr rfl fun k _ => sum_congr rfl fun j _ => by ring
  have e2 : dot cols e (resid cols E b x) = ∑ k ∈ range cols, ∑ j ∈ range cols, e k * E k j * x j
      - ∑ k ∈ range cols, b k * e k := by
    unfold dot resid
    rw [← sum_sub_distrib]
    refine sum_congr rfl fun k _ => ?_
    rw [mul_sub, mul_sum]
    congr 1
    · exact sum_congr rfl fun j _ => by ring
    · ring
  have e3 : ∑ k ∈ range cols, b k * (x k + e k) = ∑ k ∈ range cols, b k * x k + ∑ k ∈ range cols, b k * e k := by
    rw [← sum_add_distrib]; exact sum_congr rfl fun k _ => by ring
  unfold model
  rw [e1, e2, e3, hs]
  ring

/-- **C67.** If moreover the matrix is symmetric and not negative along the free directions, the reassembled vector
minimises the quadratic model among all vectors that meet the constraints; if it is positive there, it is the only
minimiser. -/
theorem C67_minimiser (rows cols : ℕ) (hrc : rows ≤ cols) (C E : ℕ → ℕ → ℝ) (b d h0 z : ℕ → ℝ)
    (hind : ∀ a : ℕ → ℝ, (∀ j < cols, ∑ i ∈ range rows, a i * C i j = 0) → ∀ i < rows, a i = 0)
    (hz : Solves rows cols C E b d h0 z) (hE : ∀ i j, i < cols → j < cols → E i j = E j i)
    (x' : ℕ → ℝ) (hx' : ∀ i < rows, ∑ j ∈ range cols, C i j * x' j = d i) :
    ((∀ e : ℕ → ℝ, (∀ i < rows, ∑ j ∈ range cols, C i j * e j = 0) →
        0 ≤ ∑ k ∈ range cols, ∑ j ∈ range cols, e k * E k j * e j) →
      model cols E b (solve rows cols C d z h0) ≤ model cols E b x') ∧
    ((∀ e : ℕ → ℝ, (∀ i < rows, ∑ j ∈ range cols, C i j * e j = 0) → (∃ j < cols, e j ≠ 0) →
        0 < ∑ k ∈ range cols, ∑ j ∈ range cols, e k * E k j * e j) → (∃ j < cols, x' j ≠ solve rows cols C d z h0 j) →
      model cols E b (solve rows cols C d z h0) < model cols E b x') := by
  set x := solve rows cols C d z h0 with hx
  have hcx := C48_constraints_met rows cols hrc C d z h0 hind
  have he : ∀ i < rows, ∑ j ∈ range cols, C i j * (x' j - x j) = 0 := fun i hi => by
    simp only [mul_sub, sum_sub_distrib]
    rw [hx' i hi, hcx i hi, sub_self]
  have h1 := C67_stationary rows cols hrc C E b d h0 z hind hz (fun j => x' j - x j) he
  have h2 := model_step cols E hE b x fun j => x' j - x j
  have h3 : (fun k => x k + (x' k - x k)) = x' := by funext k; ring
  rw [h3] at h2
  change dot cols (fun j => x' j - x j) (resid cols E b x) = 0 at h1
  rw [h1] at h2
  refine ⟨fun hp => ?_, fun hp hne => ?_⟩
  · have := hp _ he
    linarith
  · obtain ⟨j, hj, hne⟩ := hne
    have := hp _ he ⟨j, hj, sub_ne_zero.mpr hne⟩
    linarith

/-! ### Lagrange multipliers -/

theorem lagrange_stable (F : (ℕ → ℕ → ℝ) × (ℕ → ℝ)) (rows cols : ℕ) (g : ℕ → ℝ) (k : ℕ) (hk : 1 ≤ k) (hr : k ≤ rows) :
    lagrange F rows cols g k (rows - 1) = chain F.1 F.2 cols rows g (rows - 1) / F.1 (rows - 1) (rows - 1) := by
  induction k with
  | zero => omega
  | succ k ih =>
    rw [lagrange]
    rcases Nat.eq_zero_or_pos k with h | h
    · subst h
      simp [lagrange]
    · rw [Function.update_of_ne (by omega)]
      exact ih h (by omega)

/-- The multiplier of the last constraint is the last of those that leave the smallest gradient unbalanced: for any
multipliers `μ` that make `g - Cᵀ μ` orthogonal to every constraint, and there are some, the last one is the value
computed. -/
theorem C67_last_multiplier (rows cols : ℕ) (hr : 0 < rows) (hrc : rows ≤ cols) (C : ℕ → ℕ → ℝ) (g h0 : ℕ → ℝ)
    (hind : ∀ a : ℕ → ℝ, (∀ j < cols, ∑ i ∈ range rows, a i * C i j = 0) → ∀ i < rows, a i = 0) :
    (∃ μ : ℕ → ℝ, ∀ i < rows, ∑ j ∈ range cols, C i j * (g j - ∑ k ∈ range rows, μ k * C k j) = 0) ∧
    ∀ μ : ℕ → ℝ, (∀ i < rows, ∑ j ∈ range cols, C i j * (g j - ∑ k ∈ range rows, μ k * C k j) = 0) →
      lagrange (decomp rows cols rows (C, h0)) rows cols g rows (rows - 1) = μ (rows - 1) := by
  have hc : 0 < cols := by omega
  set F := decomp rows cols rows (C, h0) with hF
  have hdiag := fun i hi => indep_diag rows cols hrc C h0 hind i hi
  -- transformed combination of rows
  have hcomb : ∀ (μ : ℕ → ℝ) (i : ℕ), i < rows →
      chain F.1 F.2 cols rows (fun j => ∑ k ∈ range rows, μ k * C k j) i = ∑ l ∈ Ico i rows, μ l * F.1 l i := by
    intro μ i hi
    rw [chain_sum F.1 F.2 cols hc rows rows μ C i (by omega), range_eq_Ico,
      ← sum_Ico_consecutive _ (Nat.zero_le i) (Nat.le_of_lt hi)]
    have : ∑ j ∈ Ico 0 i, μ j * chain F.1 F.2 cols rows (C j) i = 0 := sum_eq_zero fun j hj => by
      have hj := (mem_Ico.mp hj).2
      rw [(chain_row rows cols (C, h0) j (by omega) hrc).2 i hj (by omega), mul_zero]
    rw [this, zero_add]
    refine sum_congr rfl fun j hj => ?_
    have hj := mem_Ico.mp hj
    rw [(chain_row rows cols (C, h0) j hj.2 hrc).1 i hj.1]
  constructor
  · obtain ⟨μ, hμ⟩ := tri_solve F.1 rows hdiag (chain F.1 F.2 cols rows g)
    refine ⟨μ, fun i hi => ?_⟩
    change dot cols (C i) (fun j => g j - ∑ k ∈ range rows, μ k * C k j) = 0
    rw [← dot_chain rows cols (C, h0) hc, dot]
    refine sum_eq_zero fun j hj => ?_
    rw [mem_range] at hj
    by_cases h : j ≤ i
    · rw [chain_sub F.1 F.2 cols hc rows _ _ j hj, hcomb μ j (by omega), hμ j (by omega), sub_self, mul_zero]
    · rw [(chain_row rows cols (C, h0) i hi hrc).2 j (by omega) hj, zero_mul]
  · intro μ hμ
    have h := chain_null rows cols hrc C h0 hind hc _ hμ (rows - 1) (by omega)
    rw [chain_sub F.1 F.2 cols hc rows _ _ (rows - 1) (by omega), hcomb μ (rows - 1) (by omega)] at h
    have hs : ∑ l ∈ Ico (rows - 1) rows, μ l * F.1 l (rows - 1) = μ (rows - 1) * F.1 (rows - 1) (rows - 1) := by
      have : Ico (rows - 1) rows = {rows - 1} := by ext a; simp; omega
      rw [this, sum_singleton]
    rw [hs, sub_eq_zero] at h
    rw [lagrange_stable F rows cols g rows hr le_rfl, h]
    exact mul_div_cancel_right₀ _ (hdiag (rows - 1) (by omega))

/-- Two constraints: (3, 4, 0) and (1, 0, 3/5). -/
noncomputable def exC (i j : ℕ) : ℝ :=
  if i = 0 then (if j = 0 then 3 else if j = 1 then 4 else 0) else (if j = 0 then 1 else if j = 1 then 0 else 3 / 5)

theorem exC_indep : Indep 2 3 exC := by
  intro a h
  have h1 := h 1 (by norm_num)
  have h2 := h 2 (by norm_num)
  simp only [sum_range_succ, sum_range_zero, exC] at h1 h2
  norm_num at h1 h2
  intro i hi
  have : i = 0 ∨ i = 1 := by omega
  rcases this with rfl | rfl
  · exact h1
  · exact h2

theorem exC_first (h0 : ℕ → ℝ) : (decomp 2 3 1 (exC, h0)).1 0 = Function.update (exC 0) 0 (-5) ∧
    (decomp 2 3 1 (exC, h0)).2 0 = 8 ∧ (decomp 2 3 1 (exC, h0)).1 1 0 = -(3 / 5) ∧
    (decomp 2 3 1 (exC, h0)).1 1 1 = -(4 / 5) ∧ (decomp 2 3 1 (exC, h0)).1 1 2 = 3 / 5 := by
  have hq : pivot 0 1 2 (exC 0) = -5 := by
    unfold pivot
    have : (Icc 1 2 : Finset ℕ) = {1, 2} := by decide
    rw [this]
    have e : exC 0 0 ^ 2 + ∑ i ∈ ({1, 2} : Finset ℕ), exC 0 i ^ 2 = 5 ^ 2 := by
      rw [sum_pair (by norm_num)]; norm_num [exC]
    simp only [e, Real.sqrt_sq (by norm_num : (0 : ℝ) ≤ 5)]
    rw [if_pos (by norm_num [exC])]; norm_num
  have hh : h1 0 (0 + 1) (3 - 1) (exC 0) (h0 0) = (Function.update (exC 0) 0 (-5), 8) := by
    unfold h1
    rw [if_pos ⟨by norm_num, by norm_num⟩, show (0 + 1 : ℕ) = 1 from rfl, show (3 - 1 : ℕ) = 2 from rfl, hq]
    norm_num [exC]
  simp only [decomp, stepC, hh]
  have hI : (Icc 1 2 : Finset ℕ) = {1, 2} := by decide
  have hs : (exC 1 0 * 8 + ∑ i ∈ Icc (0 + 1) (3 - 1), exC 1 i * Function.update (exC 0) 0 (-5) i) / (-5 * 8) = -(1 / 5) := by
    rw [show Icc (0 + 1) (3 - 1) = ({1, 2} : Finset ℕ) from hI, sum_pair (by norm_num)]
    norm_num [exC, Function.update]
  have hb : Function.update (exC 0) 0 (-5) 0 * (8 : ℝ) ≠ 0 := by norm_num [Function.update]
  refine ⟨by simp, by simp, ?_, ?_, ?_⟩ <;>
  · simp only [show (1 : ℕ) ≠ 0 from one_ne_zero, if_false, show (0 : ℕ) < 1 ∧ (1 : ℕ) < 2 from ⟨by norm_num, by norm_num⟩,
      if_true, h2]
    rw [if_pos ⟨by norm_num, by norm_num⟩, if_neg hb]
    simp only [show Function.update (exC 0) 0 (-5) 0 = (-5 : ℝ) from by simp, hs]
    norm_num [exC, Function.update]
    rw [if_pos (⟨by norm_num, by norm_num⟩ : Active 0 1 2)]
    norm_num

/-- The decomposed example: the lower triangle is (-5; -3/5, 1), but to the right of the first diagonal entry there is 4,
a component of the reflection. -/
theorem exC_decomp (h0 : ℕ → ℝ) : (decomp 2 3 2 (exC, h0)).1 0 0 = -5 ∧ (decomp 2 3 2 (exC, h0)).1 0 1 = 4 ∧
    (decomp 2 3 2 (exC, h0)).1 1 0 = -(3 / 5) ∧ (decomp 2 3 2 (exC, h0)).1 1 1 = 1 := by
  obtain ⟨a1, a2, a3, a4, a5⟩ := exC_first h0
  have hr0 : (decomp 2 3 2 (exC, h0)).1 0 = Function.update (exC 0) 0 (-5) := by
    rw [(decomp_stable 2 3 (exC, h0) 0 2 (by norm_num)).1]; exact a1
  have hq : pivot 1 2 2 ((decomp 2 3 1 (exC, h0)).1 1) = 1 := by
    unfold pivot
    have e : (decomp 2 3 1 (exC, h0)).1 1 1 ^ 2 + ∑ i ∈ Icc 2 2, (decomp 2 3 1 (exC, h0)).1 1 i ^ 2 = 1 ^ 2 := by
      rw [show (Icc 2 2 : Finset ℕ) = {2} from by decide, sum_singleton, a4, a5]; norm_num
    simp only [e, Real.sqrt_sq (by norm_num : (0 : ℝ) ≤ 1)]
    rw [if_neg (by rw [a4]; norm_num)]
  have hr1 : (decomp 2 3 2 (exC, h0)).1 1 = Function.update ((decomp 2 3 1 (exC, h0)).1 1) 1 1 := by
    have := decomp_step 2 3 (exC, h0) 1
    have h := congrArg Prod.fst this
    simp only at h
    rw [← h]
    unfold h1
    rw [if_pos ⟨by norm_num, by norm_num⟩, show (1 + 1 : ℕ) = 2 from rfl, show (3 - 1 : ℕ) = 2 from rfl, hq]
  refine ⟨?_, ?_, ?_, ?_⟩
  · rw [hr0]; simp
  · rw [hr0]; norm_num [exC, Function.update]
  · rw [hr1]; simp [Function.update, a3]
  · rw [hr1]; simp

/-- With two constraints the first multiplier is not the one that balances the gradient, because the back-substitution
reads the reflection instead of the triangle: for a gradient equal to the second constraint the multipliers are 0 and 1,
but the first is computed as 23/25. -/
theorem C67_other_multipliers (h0 : ℕ → ℝ) :
    (∀ j < 3, exC 1 j - ∑ k ∈ range 2, (if k = 0 then (0 : ℝ) else 1) * exC k j = 0) ∧
    lagrange (decomp 2 3 2 (exC, h0)) 2 3 (exC 1) 2 0 = 23 / 25 ∧
    lagrange (decomp 2 3 2 (exC, h0)) 2 3 (exC 1) 2 1 = 1 := by
  obtain ⟨d1, d2, d3, d4⟩ := exC_decomp h0
  have c0 := (chain_row 2 3 (exC, h0) 1 (by norm_num) (by norm_num)).1 0 (by norm_num)
  have c1 := (chain_row 2 3 (exC, h0) 1 (by norm_num) (by norm_num)).1 1 (by norm_num)
  simp only at c0 c1
  rw [d3] at c0
  rw [d4] at c1
  have l1 : lagrange (decomp 2 3 2 (exC, h0)) 2 3 (exC 1) 1 1 = 1 := by
    have := lagrange_stable (decomp 2 3 2 (exC, h0)) 2 3 (exC 1) 1 le_rfl (by norm_num)
    simp only [show 2 - 1 = 1 from rfl] at this
    rw [this, c1, d4]; norm_num
  refine ⟨fun j _ => by simp [sum_range_succ], ?_, ?_⟩
  · rw [lagrange]
    simp only [show 2 - 1 - 1 = 0 from rfl, Function.update_self]
    rw [show (Ioo 0 2 : Finset ℕ) = {1} from by decide, sum_singleton, l1, c0, d1, d2]; norm_num
  · rw [lagrange, Function.update_of_ne (by norm_num)]
    exact l1

/-- A quadratic with a minimum on a constraint: free part 0 for the identity matrix and no linear term. -/
example (h0 : ℕ → ℝ) : Solves 1 2 (fun _ j => if j = 0 then 1 else 0) (fun i j => if i = j then 1 else 0) (fun _ => 0) (fun _ => 0) h0
    (fun _ => 0) := by
  intro i h1 h2
  set F := decomp 1 2 1 ((fun _ j => if j = 0 then (1 : ℝ) else 0 : ℕ → ℕ → ℝ), h0)
  have : i = 1 := by omega
  subst this
  have hz : ∀ k, chain F.1 F.2 2 k (fun _ => 0) = fun _ => 0 := by
    intro k
    induction k with
    | zero => rfl
    | succ k ih => rw [chain, ih]; exact h2_fix _ _ _ _ _ _ rfl fun _ _ _ => rfl
  have hf : fwd F.1 (fun _ => 0) 1 = fun _ => 0 := by
    funext k; simp only [fwd, Function.update_apply]; split_ifs <;> simp
  simp [rhs, hz, hf]

end Magma.Num.Reduced
