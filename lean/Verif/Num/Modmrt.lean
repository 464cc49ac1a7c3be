import Verif.Num.Chol

/-!
Modified Marquardt minimiser of a sum of squares, `modmrt` (/repo/sources/nash.c 297-401), used to estimate the
composition of saturated phases (est_saturation_state.c 281, 565, 617).

Vectors are functions on indices, of which the first `n` (parameters) or `m` (residuals) are used. Simplifications:
`double` is the real numbers; allocation and `igrad` are left out; `DBL_MAX` as the first value of `*Fmin` is left out
(it is overwritten before use). The `while` loop gets a budget of passes; `C53_terminates` shows that `maxIter + 2`
passes always suffice.
-/

namespace Magma.Num.Modmrt

open Finset Magma.Num.Chol

/-- The problem. `res b i = none` when the `i`-th residual sets `notcomp`. -/
structure Problem where
  n : ℕ
  m : ℕ
  res : (ℕ → ℝ) → ℕ → Option ℝ
  jac : (ℕ → ℝ) → ℕ → ℕ → ℝ
  reltest : ℝ
  maxIter : ℕ

/-- Local variables that live across passes of the `while` loop, nash.c 312-315. -/
structure St where
  b : ℕ → ℝ
  x : ℕ → ℝ
  fmin : ℝ
  lambda : ℝ
  c : ℕ → ℝ
  v : ℕ → ℝ
  res : ℕ → ℝ
  calcmat : Bool
  ifn : ℕ
  count : ℕ

/-- Residual evaluation, nash.c 333-340 and 374-379: all residuals, or `none` if one is not computable. -/
noncomputable def eval (P : Problem) (b : ℕ → ℝ) : Option (ℕ → ℝ) :=
  if ∀ i < P.m, (P.res b i).isSome then some fun i => (P.res b i).getD 0 else none

/-- `p += SQUARE(res[i])`, nash.c 339, 377. -/
def ssq (P : Problem) (r : ℕ → ℝ) : ℝ := ∑ i ∈ range P.m, r i ^ 2

/-- Inverse of the storage map: the row and column of a position in compact storage. -/
def row (k : ℕ) : ℕ := Nat.findGreatest (fun i => p i 0 ≤ k) k

/-- nash.c 353: `a[q+k-1] += X[j-1]*X[k-1]` summed over the residuals, as an array in compact storage. -/
noncomputable def normal (P : Problem) (b : ℕ → ℝ) : ℕ → ℝ := fun k =>
  ∑ i ∈ range P.m, P.jac b i (row k) * P.jac b i (k - p (row k) 0)

/-- nash.c 351: `v[j-1] = v[j-1] + X[j-1]*res[i]`. -/
noncomputable def rhs (P : Problem) (b r : ℕ → ℝ) : ℕ → ℝ := fun j => ∑ i ∈ range P.m, P.jac b i j * r i

/-- nash.c 359-364: the damped matrix (`PHI` is 1). -/
noncomputable def damp (c : ℕ → ℝ) (lambda : ℝ) : ℕ → ℝ := fun k =>
  if k = p (row k) (row k) then c k * (1 + lambda) + 1 * lambda else c k

/-- `DBL_EPSILON`. -/
noncomputable def eps : ℝ := 1 / 2 ^ 52

/-- nash.c 344-358. -/
noncomputable def prepare (P : Problem) (s : St) : St :=
  if s.calcmat then { s with c := normal P s.b, v := rhs P s.b s.res, x := s.b } else s

/-- nash.c 392-394. -/
noncomputable def reject (s : St) : St :=
  { s with lambda := if s.lambda * 10 < eps ^ 2 then eps else s.lambda * 10, calcmat := false }

/-- Convergence count, nash.c 369-372. -/
noncomputable def close (P : Problem) (b x : ℕ → ℝ) : ℕ := ((range P.n).filter fun i => |b i - x i| ≤ P.reltest).card

inductive Out where
  | more (s : St)
  | exceeded (s : St)

/-- The correction, nash.c 359-368; `none` if `singmat`. -/
noncomputable def delta (P : Problem) (s : St) : Option (ℕ → ℝ) :=
  let f := choldcmp P.n (damp s.c s.lambda)
  if f.2 then none else some (cholback P.n f.1 fun j => -s.v j)

/-- Body of the `while` loop, nash.c 344-396. -/
noncomputable def body (P : Problem) (s0 : St) : Out :=
  let s := prepare P s0
  match delta P s with
  | none => .more (reject s)
  | some d =>
    let b := fun i => s.x i + d i
    let cnt := close P b s.x
    let s := { s with b := b, count := cnt }
    if cnt < P.n then
      let ifn := s.ifn + 1
      if ifn > P.maxIter then .exceeded { s with ifn := ifn }
      else
        match eval P b with
        | none => .more (reject { s with ifn := ifn })
        | some r =>
          let s := { s with ifn := ifn, res := r }
          if ssq P r < s.fmin then .more { s with lambda := s.lambda * (4 / 10), fmin := ssq P r, calcmat := true }
          else .more (reject s)
    else .more s

inductive Mode where
  | success
  | badInitial
  | itersExceeded

/-- The `while` loop, nash.c 343-397, with a budget of passes. -/
noncomputable def loop (P : Problem) : ℕ → St → Option (Mode × St)
  | 0, _ => none
  | k + 1, s =>
    if s.count < P.n then
      match body P s with
      | .more s' => loop P k s'
      | .exceeded s' => some (.itersExceeded, s')
    else some (.success, s)

/-- State before the loop, nash.c 317-341. -/
noncomputable def start (P : Problem) (b r : ℕ → ℝ) : St :=
  { b := b, x := b, fmin := ssq P r, lambda := 1 / 10000, c := 0, v := 0, res := r, calcmat := true, ifn := 1,
    count := 0 }

/-- `modmrt`, nash.c 297-401, for `n > 0`; `none` in the outcome: nothing computed. -/
noncomputable def modmrt (P : Problem) (k : ℕ) (b : ℕ → ℝ) : Option (Mode × Option St) :=
  match eval P b with
  | none => some (.badInitial, none)
  | some r => (loop P k (start P b r)).map fun o => (o.1, some o.2)

/-! ### Specification -/

/-- States at the head of the `while` loop. -/
inductive Reach (P : Problem) (b : ℕ → ℝ) : St → Prop
  | start {r} (h : eval P b = some r) : Reach P b (start P b r)
  | step {s s'} (h : Reach P b s) (hc : s.count < P.n) (hb : body P s = .more s') : Reach P b s'

/-- The damped normal matrix at a point: `JᵀJ + λ (diag JᵀJ + 1)`. -/
noncomputable def marquardt (P : Problem) (x : ℕ → ℝ) (lambda : ℝ) (i j : ℕ) : ℝ :=
  ∑ q ∈ range P.m, P.jac x q i * P.jac x q j +
    if i = j then lambda * (∑ q ∈ range P.m, P.jac x q i ^ 2 + 1) else 0

/-! ### Storage -/

theorem p_mono {i i' : ℕ} (h : i ≤ i') : p i 0 ≤ p i' 0 := by
  rcases Nat.eq_or_lt_of_le h with h | h
  · rw [h]
  · have := tri_lt h
    unfold p; omega

theorem le_p (i : ℕ) : i ≤ p i 0 := by
  induction i with
  | zero => exact Nat.zero_le _
  | succ i ih => unfold p at *; rw [tri_succ]; omega

theorem row_p {i j : ℕ} (h : j ≤ i) : row (p i j) = i := by
  have h0 : p i 0 ≤ p i j := by unfold p; omega
  have hle : i ≤ p i j := le_trans (le_p i) h0
  refine le_antisymm ?_ (Nat.le_findGreatest hle h0)
  by_contra hlt
  have hlt : i < row (p i j) := not_le.mp hlt
  have hg : p (row (p i j)) 0 ≤ p i j :=
    Nat.findGreatest_spec (P := fun i' => p i' 0 ≤ p i j) hle h0
  have := tri_lt hlt
  unfold p at hg this
  omega

theorem normal_p (P : Problem) (b : ℕ → ℝ) {i j : ℕ} (h : j ≤ i) :
    normal P b (p i j) = ∑ q ∈ range P.m, P.jac b q i * P.jac b q j := by
  unfold normal
  rw [row_p h]
  have : p i j - p i 0 = j := by unfold p; omega
  rw [this]

theorem damp_p (c : ℕ → ℝ) (l : ℝ) {i j : ℕ} (h : j ≤ i) :
    damp c l (p i j) = if i = j then c (p i j) * (1 + l) + l else c (p i j) := by
  unfold damp
  rw [row_p h]
  by_cases e : i = j
  · subst e; rw [if_pos rfl, if_pos rfl, one_mul]
  · have : p i j ≠ p i i := fun e' => e (p_inj h (le_refl _) e').2.symm
    rw [if_neg this, if_neg e]

theorem sym_damp (P : Problem) (b : ℕ → ℝ) (l : ℝ) (i j : ℕ) :
    sym (damp (normal P b) l) i j = marquardt P b l i j := by
  unfold sym marquardt
  split_ifs with h1 h2 h2
  · subst h2
    rw [damp_p _ _ h1, if_pos rfl, normal_p P b h1]
    have : ∀ q, P.jac b q i ^ 2 = P.jac b q i * P.jac b q i := fun q => sq _
    simp only [this]; ring
  · rw [damp_p _ _ h1, if_neg h2, normal_p P b h1, add_zero]
  · exact absurd (h2 ▸ le_refl _) h1
  · rw [damp_p _ _ (by omega), if_neg (fun h => h2 h.symm), normal_p P b (by omega), add_zero]
    exact sum_congr rfl fun q _ => mul_comm _ _

theorem quad_marquardt (P : Problem) (x z : ℕ → ℝ) (l : ℝ) :
    ∑ i ∈ range P.n, ∑ j ∈ range P.n, z i * marquardt P x l i j * z j =
      ∑ q ∈ range P.m, (∑ i ∈ range P.n, P.jac x q i * z i) ^ 2 +
        l * ∑ i ∈ range P.n, (∑ q ∈ range P.m, P.jac x q i ^ 2 + 1) * z i ^ 2 := by
  have e1 : ∀ i ∈ range P.n, ∑ j ∈ range P.n, z i * marquardt P x l i j * z j =
      ∑ q ∈ range P.m, (P.jac x q i * z i) * (∑ j ∈ range P.n, P.jac x q j * z j) +
        l * ((∑ q ∈ range P.m, P.jac x q i ^ 2 + 1) * z i ^ 2) := by
    intro i hi
    have e2 : ∀ j ∈ range P.n, z i * marquardt P x l i j * z j =
        ∑ q ∈ range P.m, (P.jac x q i * z i) * (P.jac x q j * z j) +
          if i = j then l * ((∑ q ∈ range P.m, P.jac x q i ^ 2 + 1) * z i ^ 2) else 0 := by
      intro j _
      unfold marquardt
      rw [mul_add, add_mul, mul_sum, sum_mul]
      congr 1
      · exact sum_congr rfl fun q _ => by ring
      · split_ifs with h
        · subst h; ring
        · ring
    rw [sum_congr rfl e2, sum_add_distrib, sum_comm, sum_ite_eq, if_pos hi]
    congr 1
    exact sum_congr rfl fun q _ => by rw [mul_sum]
  rw [sum_congr rfl e1, sum_add_distrib, sum_comm, ← mul_sum]
  congr 1
  exact sum_congr rfl fun q _ => by rw [← sum_mul, sq]

theorem posDef_marquardt (P : Problem) (x : ℕ → ℝ) {l : ℝ} (hl : 0 < l) : PosDef P.n (marquardt P x l) := by
  intro z ⟨i, hi, hz⟩
  rw [quad_marquardt]
  have h1 : 0 ≤ ∑ q ∈ range P.m, (∑ i ∈ range P.n, P.jac x q i * z i) ^ 2 := sum_nonneg fun _ _ => sq_nonneg _
  have h2 : ∀ i ∈ range P.n, 0 ≤ (∑ q ∈ range P.m, P.jac x q i ^ 2 + 1) * z i ^ 2 := fun i _ => by
    have : 0 ≤ ∑ q ∈ range P.m, P.jac x q i ^ 2 := sum_nonneg fun _ _ => sq_nonneg _
    positivity
  have h3 : 0 < (∑ q ∈ range P.m, P.jac x q i ^ 2 + 1) * z i ^ 2 := by
    have : 0 ≤ ∑ q ∈ range P.m, P.jac x q i ^ 2 := sum_nonneg fun _ _ => sq_nonneg _
    positivity
  have h4 := single_le_sum h2 (mem_range.mpr hi)
  have := mul_pos hl (lt_of_lt_of_le h3 h4)
  linarith

/-! ### Invariant -/

/-- What holds at the head of the loop. -/
structure Inv (P : Problem) (s : St) : Prop where
  lambda_pos : 0 < s.lambda
  /-- the point the next correction starts from, with its residuals -/
  base : ∃ x r, eval P x = some r ∧ s.fmin = ssq P r ∧
    (s.calcmat = true → s.b = x ∧ s.res = r) ∧
    (s.calcmat = false → s.x = x ∧ s.c = normal P x ∧ s.v = rhs P x r)

/-- After `prepare` the matrix, right-hand side and base point belong together. -/
theorem prepare_spec {P : Problem} {s : St} (h : Inv P s) :
    ∃ r, eval P (prepare P s).x = some r ∧ (prepare P s).fmin = ssq P r ∧
      (prepare P s).c = normal P (prepare P s).x ∧ (prepare P s).v = rhs P (prepare P s).x r ∧
      (prepare P s).lambda = s.lambda ∧ (prepare P s).fmin = s.fmin ∧ (prepare P s).ifn = s.ifn ∧
      (prepare P s).count = s.count := by
  obtain ⟨x, r, h1, h2, h3, h4⟩ := h.base
  unfold prepare
  cases hc : s.calcmat
  · obtain ⟨h5, h6, h7⟩ := h4 hc
    simp only [Bool.false_eq_true, if_false]
    exact ⟨r, h5 ▸ h1, h2, h5 ▸ h6, h5 ▸ h7, trivial, trivial, trivial, trivial⟩
  · obtain ⟨h5, h6⟩ := h3 hc
    simp only [if_true]
    exact ⟨r, h5 ▸ h1, h2, trivial, by rw [h6], trivial, trivial, trivial, trivial⟩

theorem delta_spec {P : Problem} {s : St} (hn : 0 < P.n) {x r : ℕ → ℝ} (hl : 0 < s.lambda)
    (hc : s.c = normal P x) (hv : s.v = rhs P x r) :
    ∃ d, delta P s = some d ∧
      ∀ i < P.n, ∑ j ∈ range P.n, marquardt P x s.lambda i j * d j = - rhs P x r i := by
  have hs : sym (damp s.c s.lambda) = marquardt P x s.lambda := by
    funext i j; rw [hc, sym_damp]
  have hns : (choldcmp P.n (damp s.c s.lambda)).2 = false :=
    C41_positive_definite _ _ (by rw [hs]; exact posDef_marquardt P x hl)
  unfold delta
  simp only [hns, Bool.false_eq_true, if_false]
  refine ⟨_, rfl, fun i hi => ?_⟩
  have := C41_solves P.n hn (damp s.c s.lambda) (fun j => -s.v j) hns i hi
  rw [hs] at this
  rw [this, hv]

theorem reject_lambda_pos {s : St} (h : 0 < s.lambda) : 0 < (reject s).lambda := by
  unfold reject
  simp only
  split_ifs
  · unfold eps; positivity
  · positivity

/-- The correction used in a pass. -/
theorem body_delta {P : Problem} {s : St} (hn : 0 < P.n) (h : Inv P s) :
    ∃ d r, eval P (prepare P s).x = some r ∧ (prepare P s).fmin = ssq P r ∧ delta P (prepare P s) = some d ∧
      (∀ i < P.n, ∑ j ∈ range P.n, marquardt P (prepare P s).x s.lambda i j * d j = - rhs P (prepare P s).x r i) := by
  obtain ⟨r, h1, h2, h3, h4, h5, _, _, _⟩ := prepare_spec h
  obtain ⟨d, h6, h7⟩ := delta_spec hn (x := (prepare P s).x) (r := r) (by rw [h5]; exact h.lambda_pos) h3 h4
  rw [h5] at h7
  exact ⟨d, r, h1, h2, h6, h7⟩

theorem body_inv {P : Problem} {s s' : St} (hn : 0 < P.n) (h : Inv P s) (hb : body P s = .more s') :
    (s'.count < P.n → Inv P s') ∧ s'.fmin ≤ s.fmin ∧ (s'.count < P.n → s'.ifn = s.ifn + 1 ∧ s'.ifn ≤ P.maxIter) := by
  obtain ⟨r, h1, h2, h3, h4, h5, h6, h7, _⟩ := prepare_spec h
  obtain ⟨d, h8, _⟩ := delta_spec hn (x := (prepare P s).x) (r := r) (by rw [h5]; exact h.lambda_pos) h3 h4
  have hlp : 0 < (prepare P s).lambda := by rw [h5]; exact h.lambda_pos
  unfold body at hb
  simp only [h8] at hb
  split_ifs at hb with hc hi
  · simp only [gt_iff_lt, not_lt] at hi
    split at hb
    · injection hb with hb
      subst hb
      refine ⟨fun _ => ⟨reject_lambda_pos hlp, (prepare P s).x, r, h1, h2, fun h => by simp [reject] at h,
        fun _ => ⟨rfl, h3, h4⟩⟩, by simp only [reject]; exact h6.le, fun _ => ⟨by simp only [reject]; rw [h7], hi⟩⟩
    · rename_i r' hr'
      split_ifs at hb with ha
      · injection hb with hb
        subst hb
        refine ⟨fun _ => ⟨?_, _, r', hr', rfl, fun _ => ⟨rfl, rfl⟩, fun h => by simp at h⟩, ?_,
          fun _ => ⟨by simp only; rw [h7], hi⟩⟩
        · simp only; positivity
        · simp only at ha ⊢; linarith
      · injection hb with hb
        subst hb
        refine ⟨fun _ => ⟨reject_lambda_pos hlp, (prepare P s).x, r, h1, h2, fun h => by simp [reject] at h,
          fun _ => ⟨rfl, h3, h4⟩⟩, by simp only [reject]; exact h6.le,
          fun _ => ⟨by simp only [reject]; rw [h7], hi⟩⟩
  · injection hb with hb
    subst hb
    exact ⟨fun h => absurd h hc, h6.le, fun h => absurd h hc⟩

theorem start_inv {P : Problem} {b r : ℕ → ℝ} (h : eval P b = some r) : Inv P (start P b r) :=
  ⟨by unfold start; norm_num, b, r, h, rfl, fun _ => ⟨rfl, rfl⟩, fun h => by simp [start] at h⟩

theorem reach_inv {P : Problem} {b : ℕ → ℝ} {s : St} (hn : 0 < P.n) (h : Reach P b s) (hc : s.count < P.n) :
    Inv P s := by
  induction h with
  | start h => exact start_inv h
  | step h hc' hb ih => exact (body_inv hn (ih hc') hb).1 hc

/-- The point a pass leaves in `Bvec`. -/
theorem body_trial {P : Problem} {s : St} (hn : 0 < P.n) (h : Inv P s) :
    ∃ x r d : ℕ → ℝ, eval P x = some r ∧ ssq P r = s.fmin ∧
      (∀ i < P.n, ∑ j ∈ range P.n, marquardt P x s.lambda i j * d j = - ∑ q ∈ range P.m, P.jac x q i * r q) ∧
      ((∃ s', body P s = .more s' ∧ (∀ i, s'.b i = x i + d i) ∧ s'.count = close P s'.b x ∧
          ((s'.fmin = s.fmin ∧ (s'.count < P.n → s'.lambda = s.lambda * 10 ∨ s.lambda * 10 < eps ^ 2)) ∨
            (s'.count < P.n ∧ ∃ r', eval P s'.b = some r' ∧ s'.fmin = ssq P r' ∧ s'.fmin < s.fmin))) ∨
        (∃ s', body P s = .exceeded s' ∧ (∀ i, s'.b i = x i + d i) ∧ s'.fmin = s.fmin ∧ P.maxIter < s'.ifn)) := by
  obtain ⟨r, h1, h2, h3, h4, h5, h6, h7, _⟩ := prepare_spec h
  obtain ⟨d, h8, h9⟩ := delta_spec hn (x := (prepare P s).x) (r := r) (by rw [h5]; exact h.lambda_pos) h3 h4
  rw [h5] at h9
  refine ⟨(prepare P s).x, r, d, h1, by rw [← h2, h6], h9, ?_⟩
  unfold body
  simp only [h8]
  split_ifs with hc hi
  · exact Or.inr ⟨_, rfl, fun _ => rfl, h6, by simpa using hi⟩
  · refine Or.inl ?_
    cases he : eval P fun i => (prepare P s).x i + d i with
    | none =>
      refine ⟨_, rfl, fun _ => rfl, rfl, Or.inl ⟨h6, fun _ => ?_⟩⟩
      simp only [reject]
      by_cases hl : (prepare P s).lambda * 10 < eps ^ 2
      · exact Or.inr (h5 ▸ hl)
      · rw [if_neg hl, h5]; exact Or.inl rfl
    | some r' =>
      simp only
      by_cases ha : ssq P r' < (prepare P s).fmin
      · simp only [ha, if_true]
        exact ⟨_, rfl, fun _ => rfl, rfl, Or.inr ⟨hc, r', he, rfl, h6 ▸ ha⟩⟩
      · simp only [ha, if_false]
        refine ⟨_, rfl, fun _ => rfl, rfl, Or.inl ⟨h6, fun _ => ?_⟩⟩
        simp only [reject]
        by_cases hl : (prepare P s).lambda * 10 < eps ^ 2
        · exact Or.inr (h5 ▸ hl)
        · rw [if_neg hl, h5]; exact Or.inl rfl
  · exact Or.inl ⟨_, rfl, fun _ => rfl, rfl, Or.inl ⟨h6, fun h => absurd h hc⟩⟩

/-! ### C53 -/

/-- The damped normal matrix is never found singular: every pass computes a correction. -/
theorem C53_never_singular {P : Problem} {b : ℕ → ℝ} {s : St} (hn : 0 < P.n) (h : Reach P b s) (hc : s.count < P.n) :
    delta P (prepare P s) ≠ none := by
  obtain ⟨d, _, _, _, hd, _⟩ := body_delta hn (reach_inv hn h hc)
  rw [hd]; exact Option.some_ne_none d

/-- The point left in `Bvec` by each pass is the best point so far plus the solution of the damped normal equations
there. -/
theorem C53_step {P : Problem} {b : ℕ → ℝ} {s : St} (hn : 0 < P.n) (h : Reach P b s) (hc : s.count < P.n) :
    ∃ x r d : ℕ → ℝ, eval P x = some r ∧ ssq P r = s.fmin ∧
      (∀ i < P.n, ∑ j ∈ range P.n, marquardt P x s.lambda i j * d j = - ∑ q ∈ range P.m, P.jac x q i * r q) ∧
      ∃ s', (body P s = .more s' ∨ body P s = .exceeded s') ∧ ∀ i, s'.b i = x i + d i := by
  obtain ⟨x, r, d, h1, h2, h3, h4⟩ := body_trial hn (reach_inv hn h hc)
  refine ⟨x, r, d, h1, h2, h3, ?_⟩
  rcases h4 with ⟨s', h5, h6, _⟩ | ⟨s', h5, h6, _⟩
  · exact ⟨s', Or.inl h5, h6⟩
  · exact ⟨s', Or.inr h5, h6⟩

/-- A correction that solves the damped normal equations points downhill, unless the gradient of the sum of squares is
zero. -/
theorem C53_descent_direction {P : Problem} {x r d : ℕ → ℝ} {l : ℝ} (hl : 0 < l)
    (h : ∀ i < P.n, ∑ j ∈ range P.n, marquardt P x l i j * d j = - ∑ q ∈ range P.m, P.jac x q i * r q)
    (hg : ∃ i < P.n, ∑ q ∈ range P.m, P.jac x q i * r q ≠ 0) :
    ∑ i ∈ range P.n, d i * ∑ q ∈ range P.m, P.jac x q i * r q < 0 := by
  have hd : ∃ i < P.n, d i ≠ 0 := by
    by_contra hno
    push Not at hno
    obtain ⟨i, hi, hne⟩ := hg
    apply hne
    have := h i hi
    rw [sum_eq_zero fun j hj => by rw [hno j (mem_range.mp hj), mul_zero]] at this
    linarith
  have h1 := posDef_marquardt P x hl d hd
  have h2 : ∑ i ∈ range P.n, ∑ j ∈ range P.n, d i * marquardt P x l i j * d j =
      - ∑ i ∈ range P.n, d i * ∑ q ∈ range P.m, P.jac x q i * r q := by
    rw [← sum_neg_distrib]
    refine sum_congr rfl fun i hi => ?_
    rw [← mul_neg, ← h i (mem_range.mp hi), mul_sum]
    exact sum_congr rfl fun j _ => by ring
  linarith

theorem reach_fmin {P : Problem} {b r : ℕ → ℝ} {s : St} (hn : 0 < P.n) (hr : eval P b = some r) (h : Reach P b s) :
    s.fmin ≤ ssq P r := by
  induction h with
  | start h => rw [hr] at h; injection h with h; rw [h]; exact le_refl _
  | step h hc hb ih => exact le_trans (body_inv hn (reach_inv hn h hc) hb).2.1 ih

theorem loop_reach {P : Problem} {b : ℕ → ℝ} {o : Mode × St} : ∀ {k : ℕ} {s : St}, Reach P b s → loop P k s = some o →
    (o.1 = .success ∧ Reach P b o.2 ∧ P.n ≤ o.2.count) ∨
      (o.1 = .itersExceeded ∧ ∃ s1, Reach P b s1 ∧ s1.count < P.n ∧ body P s1 = .exceeded o.2)
  | 0, _, _, h => by simp [loop] at h
  | k + 1, s, hs, h => by
    unfold loop at h
    by_cases hc : s.count < P.n
    · simp only [hc, if_true] at h
      cases hb : body P s with
      | more s' =>
        rw [hb] at h
        exact loop_reach (Reach.step hs hc hb) h
      | exceeded s' =>
        rw [hb] at h
        simp only [Option.some.injEq] at h
        subst h
        exact Or.inr ⟨rfl, s, hs, hc, hb⟩
    · simp only [hc, if_false, Option.some.injEq] at h
      subst h
      exact Or.inl ⟨rfl, hs, not_lt.mp hc⟩

/-- The reported minimum never exceeds the sum of squares at the starting point, and it is the sum of squares at some
computable point. -/
theorem C53_descends {P : Problem} {b r : ℕ → ℝ} {k : ℕ} {mode : Mode} {s : St} (hn : 0 < P.n)
    (hr : eval P b = some r) (h : modmrt P k b = some (mode, some s)) :
    s.fmin ≤ ssq P r ∧ ∃ x r', eval P x = some r' ∧ s.fmin = ssq P r' := by
  unfold modmrt at h
  simp only [hr, Option.map_eq_some_iff] at h
  obtain ⟨⟨o1, o2⟩, ho, he⟩ := h
  injection he with he1 he2
  injection he2 with he2
  simp only at he1 he2
  subst he1 he2
  rcases loop_reach (Reach.start hr) ho with ⟨_, h2, h3⟩ | ⟨_, s1, h2, h3, h4⟩
  · cases h2 with
    | start h => simp [start] at h3; omega
    | @step s0 _ h0 hc hb =>
      have hi := reach_inv hn h0 hc
      refine ⟨le_trans (body_inv hn hi hb).2.1 (reach_fmin hn hr h0), ?_⟩
      obtain ⟨x, r', d, g1, g2, _, g4⟩ := body_trial hn hi
      rcases g4 with ⟨s', g5, _, _, g6⟩ | ⟨s', g5, _⟩
      · rw [hb] at g5; injection g5 with g5; subst g5
        rcases g6 with ⟨g6, _⟩ | ⟨_, r'', g6, g7, _⟩
        · exact ⟨x, r', g1, by rw [g2, g6]⟩
        · exact ⟨_, r'', g6, g7⟩
      · rw [hb] at g5; cases g5
  · have hi := reach_inv hn h2 h3
    obtain ⟨x, r', d, g1, g2, _, g4⟩ := body_trial hn hi
    rcases g4 with ⟨s', g5, _⟩ | ⟨s', g5, _, g6, _⟩
    · rw [h4] at g5; cases g5
    · rw [h4] at g5; injection g5 with g5; subst g5
      exact ⟨by rw [g6]; exact reach_fmin hn hr h2, x, r', g1, by rw [g2, g6]⟩

/-- On success the returned parameters differ from a point `x`, at which the reported minimum was measured, by no more
than `reltest` in every component, and the difference solves damped normal equations at `x`. The sum of squares at the
returned point itself has not been computed. -/
theorem C53_success {P : Problem} {b : ℕ → ℝ} {k : ℕ} {s : St} (hn : 0 < P.n)
    (h : modmrt P k b = some (.success, some s)) :
    ∃ (x r d : ℕ → ℝ) (l : ℝ), eval P x = some r ∧ s.fmin = ssq P r ∧ 0 < l ∧
      (∀ i < P.n, ∑ j ∈ range P.n, marquardt P x l i j * d j = - ∑ q ∈ range P.m, P.jac x q i * r q) ∧
      (∀ i, s.b i = x i + d i) ∧ ∀ i < P.n, |d i| ≤ P.reltest := by
  unfold modmrt at h
  cases hr : eval P b with
  | none => simp [hr] at h
  | some r =>
    simp only [hr, Option.map_eq_some_iff] at h
    obtain ⟨⟨o1, o2⟩, ho, he⟩ := h
    injection he with he1 he2
    injection he2 with he2
    simp only at he1 he2
    subst he1 he2
    rcases loop_reach (Reach.start hr) ho with ⟨_, h2, h3⟩ | ⟨h1, _⟩
    · cases h2 with
      | start h => simp [start] at h3; omega
      | @step s0 _ h0 hc hb =>
        have hi := reach_inv hn h0 hc
        obtain ⟨x, r', d, g1, g2, g3, g4⟩ := body_trial hn hi
        rcases g4 with ⟨s', g5, g6, g7, g8⟩ | ⟨s', g5, _⟩
        · rw [hb] at g5; injection g5 with g5; subst g5
          have hf : o2.fmin = ssq P r' := by
            rcases g8 with ⟨g8, _⟩ | ⟨g8, _⟩
            · rw [g8, g2]
            · exact absurd g8 (not_lt.mpr h3)
          refine ⟨x, r', d, s0.lambda, g1, hf, hi.lambda_pos, g3, g6, fun i hi' => ?_⟩
          have hcard : (range P.n).card ≤ ((range P.n).filter fun i => |o2.b i - x i| ≤ P.reltest).card := by
            rw [card_range]
            simp only at h3 g7
            rw [g7] at h3
            exact h3
          have := (filter_eq_self.mp (eq_of_subset_of_card_le (filter_subset _ _) hcard)) i (mem_range.mpr hi')
          have e : o2.b i - x i = d i := by rw [g6]; ring
          rwa [e] at this
        · rw [hb] at g5; cases g5
    · cases h1

theorem loop_ne_none {P : Problem} (hn : 0 < P.n) : ∀ {k : ℕ} {s : St}, (s.count < P.n → Inv P s) →
    (s.count < P.n → P.maxIter + 3 ≤ k + s.ifn ∧ 2 ≤ k) → 1 ≤ k → loop P k s ≠ none
  | 0, _, _, _, h => by omega
  | k + 1, s, hi, hk, _ => by
    unfold loop
    by_cases hc : s.count < P.n
    · simp only [hc, if_true]
      cases hb : body P s with
      | exceeded s' => simp
      | more s' =>
        simp only
        have h1 := body_inv hn (hi hc) hb
        have h2 := hk hc
        refine loop_ne_none hn h1.1 (fun hc' => ?_) (by omega)
        have := h1.2.2 hc'
        omega
    · simp [hc]

/-- `modmrt` terminates: `maxIter + 2` passes suffice, whatever the residuals and the Jacobian do. -/
theorem C53_terminates (P : Problem) (hn : 0 < P.n) (b : ℕ → ℝ) : modmrt P (P.maxIter + 2) b ≠ none := by
  unfold modmrt
  cases hr : eval P b with
  | none => simp
  | some r =>
    simp only [ne_eq, Option.map_eq_none_iff]
    exact loop_ne_none hn (fun _ => start_inv hr) (fun _ => by simp [start]) (by omega)

/-- A stationary point of the sum of squares is returned unchanged, as a success after one pass, with its sum of squares
as the reported minimum; in particular a point with zero residuals is. -/
theorem C53_stationary {P : Problem} {b r : ℕ → ℝ} (hn : 0 < P.n) (hrel : 0 ≤ P.reltest) (hr : eval P b = some r)
    (h0 : ∀ i < P.n, ∑ q ∈ range P.m, P.jac b q i * r q = 0) (k : ℕ) :
    ∃ s, modmrt P (k + 2) b = some (.success, some s) ∧ s.fmin = ssq P r ∧ ∀ i < P.n, s.b i = b i := by
  have hinv := start_inv hr
  have hpre : (prepare P (start P b r)).x = b := rfl
  obtain ⟨d, r', g1, g2, g3, g4⟩ := body_delta hn hinv
  rw [hpre, hr] at g1
  injection g1 with g1
  subst g1
  rw [hpre] at g4
  have hd : ∀ i < P.n, d i = 0 := by
    by_contra hne
    push Not at hne
    have := posDef_marquardt P b hinv.lambda_pos d hne
    have e : ∑ i ∈ range P.n, ∑ j ∈ range P.n, d i * marquardt P b (start P b r).lambda i j * d j = 0 := by
      refine sum_eq_zero fun i hi => ?_
      have := g4 i (mem_range.mp hi)
      rw [show rhs P b r i = 0 from h0 i (mem_range.mp hi), neg_zero] at this
      calc _ = d i * ∑ j ∈ range P.n, marquardt P b (start P b r).lambda i j * d j := by
            rw [mul_sum]; exact sum_congr rfl fun j _ => by ring
        _ = 0 := by rw [this, mul_zero]
    rw [e] at this
    exact lt_irrefl _ this
  have hcl : close P (fun i => b i + d i) b = P.n := by
    unfold close
    rw [filter_true_of_mem, card_range]
    intro i hi
    have := hd i (mem_range.mp hi)
    simpa [this] using hrel
  have hb : body P (start P b r) = .more { prepare P (start P b r) with b := fun i => b i + d i, count := P.n } := by
    unfold body
    simp only [g3, hpre, hcl, lt_irrefl, if_false]
  refine ⟨{ prepare P (start P b r) with b := fun i => b i + d i, count := P.n }, ?_, g2,
    fun i hi => by simp only; rw [hd i hi, add_zero]⟩
  unfold modmrt
  simp only [hr]
  unfold loop
  rw [if_pos (by simpa [start] using hn), hb]
  simp only
  unfold loop
  simp

/-! ### The hypotheses are met -/

/-- One parameter, one residual `b₀ - 1`. -/
noncomputable def ex : Problem where
  n := 1
  m := 1
  res := fun b _ => some (b 0 - 1)
  jac := fun _ _ _ => 1
  reltest := 1
  maxIter := 10

theorem ex_eval (b : ℕ → ℝ) : eval ex b = some fun _ => b 0 - 1 := by
  unfold eval ex; simp

example : Reach ex 0 (start ex 0 fun _ => -1) ∧ (start ex 0 fun _ => -1).count < ex.n :=
  ⟨Reach.start (by rw [ex_eval]; simp), by simp [start, ex]⟩

example : ∃ mode s, modmrt ex 12 0 = some (mode, some s) := by
  have h := C53_terminates ex (by simp [ex]) 0
  have e : ex.maxIter + 2 = 12 := rfl
  rw [e] at h
  cases hm : modmrt ex 12 0 with
  | none => exact absurd hm h
  | some o =>
    obtain ⟨mode, so⟩ := o
    unfold modmrt at hm
    simp only [ex_eval, Option.map_eq_some_iff] at hm
    obtain ⟨o, _, ho⟩ := hm
    injection ho with h1 h2
    exact ⟨mode, o.2, by rw [← h2]⟩

example : ∃ i < ex.n, ∑ q ∈ range ex.m, ex.jac 0 q i * (-1) ≠ 0 := ⟨0, by simp [ex], by simp [ex]⟩

/-- The zero of the residual is returned at once. -/
example : ∃ s, modmrt ex 12 (fun _ => 1) = some (.success, some s) ∧ s.fmin = 0 ∧ s.b 0 = 1 := by
  obtain ⟨s, h1, h2, h3⟩ := C53_stationary (P := ex) (b := fun _ => 1) (by simp [ex]) (by simp [ex]) (ex_eval _)
    (by intro i _; simp) 10
  exact ⟨s, h1, by rw [h2]; simp [ssq], h3 0 (by simp [ex])⟩

/-- A residual that cannot be computed at the start is reported. -/
example : modmrt { ex with res := fun _ _ => none } 3 0 = some (.badInitial, none) := by
  unfold modmrt eval ex; simp

end Magma.Num.Modmrt
