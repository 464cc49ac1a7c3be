import Verif.Thermo.Compo

/-!
Model of the composition conversions `con*` of the solution phases whose independent variables are written out
one by one (branches `inpMask == SECOND` and `inpMask == THIRD`). Each definition transcribes the assignments of
the cited lines; loops over the output index are unrolled, loops over `j`, `k`, `l` are arguments.

Simplification: `double` is the real numbers; decimal constants are rationals. In `olivine.c` 2695 values below
`DBL_EPSILON` are replaced by 0 afterwards; that line is modelled separately by `Olivine.snap`.
-/

namespace Magma.Thermo.Compo

open Finset Magma.Thermo.Extensive

noncomputable section

/-! ### Specification -/

/-- What a phase offers: moles to independent variables, with three orders of derivatives, and independent
variables to mole fractions, with the Jacobian. -/
structure Conversion (na nr : ℕ) where
  toR : (Fin na → ℝ) → Fin nr → ℝ
  dm : (Fin na → ℝ) → Fin nr → Fin na → ℝ
  d2m : (Fin na → ℝ) → Fin nr → Fin na → Fin na → ℝ
  d3m : (Fin na → ℝ) → Fin nr → Fin na → Fin na → Fin na → ℝ
  fromR : (Fin nr → ℝ) → Fin na → ℝ
  dr : Fin na → Fin nr → ℝ

/-- The conversions agree with each other and the derivatives offered are derivatives. -/
structure Conversion.Consistent {na nr : ℕ} (C : Conversion na nr) : Prop where
  /-- moles to variables to fractions is moles to fractions -/
  roundtrip : ∀ m, ∑ i, m i ≠ 0 → ∀ i, C.fromR (C.toR m) i = m i / ∑ i, m i
  /-- fractions taken as moles give the variables back -/
  inverse : ∀ r, C.toR (C.fromR r) = r
  /-- fractions sum to one -/
  sum_one : ∀ r, ∑ i, C.fromR r i = 1
  /-- only proportions matter -/
  scale : ∀ m, ∑ i, m i ≠ 0 → ∀ c, c ≠ 0 → C.toR (fun i => c * m i) = C.toR m
  first : ∀ m, ∑ i, m i ≠ 0 → ∀ i j, Partial (fun m => C.toR m i) m j (C.dm m i j)
  second : ∀ m, ∑ i, m i ≠ 0 → ∀ i j k, Partial (fun m => C.dm m i j) m k (C.d2m m i j k)
  third : ∀ m, ∑ i, m i ≠ 0 → ∀ i j k l, Partial (fun m => C.d2m m i j k) m l (C.d3m m i j k l)
  jacobian : ∀ r i j, Partial (fun r => C.fromR r i) r j (C.dr i j)

/-! ### Lemmas -/

/-- Indicator. -/
def ind (p : Prop) [Decidable p] : ℝ := if p then 1 else 0

theorem ite_ind (p : Prop) [Decidable p] (a b : ℝ) : (if p then a else b) = b + (a - b) * ind p := by
  unfold ind; split_ifs <;> ring

theorem sum_ind {na : ℕ} (m : Fin na → ℝ) (c : ℝ) (i : Fin na) : ∑ j, c * ind (j = i) * m j = c * m i := by
  simp [ind]

theorem lin_ind1 {na : ℕ} (m : Fin na → ℝ) (c : ℝ) (i : Fin na) : lin (fun j => c * ind (j = i)) m = c * m i := by
  simp [lin, sum_ind]

theorem lin_ind2 {na : ℕ} (m : Fin na → ℝ) (c d : ℝ) (i k : Fin na) :
    lin (fun j => c * ind (j = i) + d * ind (j = k)) m = c * m i + d * m k := by
  simp [lin, add_mul, sum_add_distrib, sum_ind]

theorem fin_sum_1 (f : Fin 1 → ℝ) : ∑ i, f i = f 0 := Fin.sum_univ_one f
theorem fin_sum_2 (f : Fin 2 → ℝ) : ∑ i, f i = f 0 + f 1 := Fin.sum_univ_two f
theorem fin_sum_3 (f : Fin 3 → ℝ) : ∑ i, f i = f 0 + f 1 + f 2 := Fin.sum_univ_three f
theorem fin_sum_4 (f : Fin 4 → ℝ) : ∑ i, f i = f 0 + f 1 + f 2 + f 3 := Fin.sum_univ_four f
theorem fin_sum_5 (f : Fin 5 → ℝ) : ∑ i, f i = f 0 + f 1 + f 2 + f 3 + f 4 := Fin.sum_univ_five f
theorem fin_sum_6 (f : Fin 6 → ℝ) : ∑ i, f i = f 0 + f 1 + f 2 + f 3 + f 4 + f 5 := Fin.sum_univ_six f
theorem fin_sum_7 (f : Fin 7 → ℝ) : ∑ i, f i = f 0 + f 1 + f 2 + f 3 + f 4 + f 5 + f 6 := Fin.sum_univ_seven f

theorem Conversion.consistent_of_linear {na nr : ℕ} (C : Conversion na nr) (A : Fin nr → Fin na → ℝ)
    (c : Fin nr → ℝ)
    (h0 : ∀ m, total m ≠ 0 → ∀ i, C.toR m i = q0 (A i) m + c i)
    (h1 : ∀ m, total m ≠ 0 → ∀ i j, C.dm m i j = q1 (A i) m j)
    (h2 : ∀ m, total m ≠ 0 → ∀ i j k, C.d2m m i j k = q2 (A i) m j k)
    (h3 : ∀ m, total m ≠ 0 → ∀ i j k l, C.d3m m i j k l = q3 (A i) m j k l)
    (hrt : ∀ m, total m ≠ 0 → ∀ i, C.fromR (C.toR m) i = m i / total m)
    (hsum : ∀ r, ∑ i, C.fromR r i = 1)
    (hinv : ∀ r, total (C.fromR r) ≠ 0 → C.toR (C.fromR r) = r)
    (hdr : ∀ r i, C.fromR r i = C.fromR (fun _ => 0) i + ∑ j, C.dr i j * r j) : C.Consistent where
  roundtrip := hrt
  inverse r := hinv r (by have := hsum r; change ∑ i, _ ≠ 0; rw [this]; norm_num)
  sum_one := hsum
  scale m hm k hk := by
    have hm' : total m ≠ 0 := hm
    have ht : total (fun i => k * m i) = k * total m := by simp [total, mul_sum]
    have hl : ∀ a : Fin na → ℝ, lin a (fun i => k * m i) = k * lin a m := by
      intro a; simp only [lin, mul_sum]; exact sum_congr rfl fun i _ => by ring
    funext i
    rw [h0 m hm, h0 _ (by rw [ht]; exact mul_ne_zero hk hm')]
    simp only [q0, ht, hl]
    rw [mul_div_mul_left _ _ hk]
  first m hm i j := by
    rw [h1 m hm]
    refine partial_congr hm (g := fun m => q0 (A i) m + c i) (fun m h => h0 m h i) ?_
    exact HasDerivAt.add_const (c i) (q0_partial (A i) m hm j)
  second m hm i j k := by
    rw [h2 m hm]
    exact partial_congr hm (fun m h => h1 m h i j) (q1_partial (A i) m hm j k)
  third m hm i j k l := by
    rw [h3 m hm]
    exact partial_congr hm (fun m h => h2 m h i j k) (q2_partial (A i) m hm j k l)
  jacobian r i j := by
    have e : (fun r => C.fromR r i) = fun r => C.fromR (fun _ => 0) i + lin (C.dr i) r := by
      funext r; exact hdr r i
    rw [e]
    exact (deriv_lin (C.dr i) r j).const_add _

/-! ### Olivine -/

/-- olivine.c 2585-2593. -/
def Olivine.toR (m : Fin 6 → ℝ) : Fin 5 → ℝ :=
  ![(if total m ≠ 0 then 2 * m 0 / total m - 1 else 0),
    (if total m ≠ 0 then 2 * m 1 / total m - 1 else 0),
    (if total m ≠ 0 then 2 * m 2 / total m - 1 else 0),
    (if total m ≠ 0 then 2 * m 3 / total m - 1 else 0),
    (if total m ≠ 0 then m 4 / total m else 0)]

/-- olivine.c 2601-2614. -/
def Olivine.dm (m : Fin 6 → ℝ) (j : Fin 6) : Fin 5 → ℝ :=
  if total m = 0 then fun _ => 0 else
  ![(if j = 0 then 2 * (1 - m 0 / total m) / total m else (-2) * m 0 / total m ^ 2),
    (if j = 1 then 2 * (1 - m 1 / total m) / total m else (-2) * m 1 / total m ^ 2),
    (if j = 2 then 2 * (1 - m 2 / total m) / total m else (-2) * m 2 / total m ^ 2),
    (if j = 3 then 2 * (1 - m 3 / total m) / total m else (-2) * m 3 / total m ^ 2),
    (if j = 4 then (1 - m 4 / total m) / total m else (-1) * m 4 / total m ^ 2)]

/-- olivine.c 2616-2647. -/
def Olivine.d2m (m : Fin 6 → ℝ) (j k : Fin 6) : Fin 5 → ℝ :=
  if total m = 0 then fun _ => 0 else
  ![4 * m 0 / total m ^ 3 - (if j = 0 then 2 / total m ^ 2 else 0) - (if k = 0 then 2 / total m ^ 2 else 0),
    4 * m 1 / total m ^ 3 - (if j = 1 then 2 / total m ^ 2 else 0) - (if k = 1 then 2 / total m ^ 2 else 0),
    4 * m 2 / total m ^ 3 - (if j = 2 then 2 / total m ^ 2 else 0) - (if k = 2 then 2 / total m ^ 2 else 0),
    4 * m 3 / total m ^ 3 - (if j = 3 then 2 / total m ^ 2 else 0) - (if k = 3 then 2 / total m ^ 2 else 0),
    2 * m 4 / total m ^ 3 - (if j = 4 then 1 / total m ^ 2 else 0) - (if k = 4 then 1 / total m ^ 2 else 0)]

/-- olivine.c 2649-2676. -/
def Olivine.d3m (m : Fin 6 → ℝ) (j k l : Fin 6) : Fin 5 → ℝ :=
  if total m = 0 then fun _ => 0 else
  ![(-12) * m 0 / total m ^ 4 + (if j = 0 then 4 / total m ^ 3 else 0) + (if k = 0 then 4 / total m ^ 3 else 0) + (if l = 0 then 4 / total m ^ 3 else 0),
    (-12) * m 1 / total m ^ 4 + (if j = 1 then 4 / total m ^ 3 else 0) + (if k = 1 then 4 / total m ^ 3 else 0) + (if l = 1 then 4 / total m ^ 3 else 0),
    (-12) * m 2 / total m ^ 4 + (if j = 2 then 4 / total m ^ 3 else 0) + (if k = 2 then 4 / total m ^ 3 else 0) + (if l = 2 then 4 / total m ^ 3 else 0),
    (-12) * m 3 / total m ^ 4 + (if j = 3 then 4 / total m ^ 3 else 0) + (if k = 3 then 4 / total m ^ 3 else 0) + (if l = 3 then 4 / total m ^ 3 else 0),
    ((-12) * m 4 / total m ^ 4 + (if j = 4 then 4 / total m ^ 3 else 0) + (if k = 4 then 4 / total m ^ 3 else 0) + (if l = 4 then 4 / total m ^ 3 else 0)) / 2]

/-- olivine.c 2684-2696 (without the replacement of values below `DBL_EPSILON` by 0). -/
def Olivine.fromR (r : Fin 5 → ℝ) : Fin 6 → ℝ :=
  ![(1 + r 0) / 2,
    (1 + r 1) / 2,
    (1 + r 2) / 2,
    (1 + r 3) / 2,
    r 4,
    -1 - (r 0 + r 1 + r 2 + r 3) / 2 - r 4]

/-- olivine.c 2698-2712. -/
def Olivine.dr : Fin 6 → Fin 5 → ℝ :=
  ![![(1/2), 0, 0, 0, 0],
    ![0, (1/2), 0, 0, 0],
    ![0, 0, (1/2), 0, 0],
    ![0, 0, 0, (1/2), 0],
    ![0, 0, 0, 0, 1],
    ![-(1/2), -(1/2), -(1/2), -(1/2), -1]]

/-- The conversions of olivine.c. -/
def Olivine.conv : Conversion 6 5 where
  toR := Olivine.toR
  dm m i j := Olivine.dm m j i
  d2m m i j k := Olivine.d2m m j k i
  d3m m i j k l := Olivine.d3m m j k l i
  fromR := Olivine.fromR
  dr := Olivine.dr

/-- Coefficients of the independent variables (used in the proof only). -/
def Olivine.rows : Fin 5 → Fin 6 → ℝ :=
  ![fun j => 2 * ind (j = 0),
    fun j => 2 * ind (j = 1),
    fun j => 2 * ind (j = 2),
    fun j => 2 * ind (j = 3),
    fun j => 1 * ind (j = 4)]

theorem Olivine.lin_rows (m : Fin 6 → ℝ) : ∀ i, lin (Olivine.rows i) m = (![2 * m 0, 2 * m 1, 2 * m 2, 2 * m 3, 1 * m 4] : Fin 5 → ℝ) i := by
  intro i
  fin_cases i
  · exact lin_ind1 m 2 0
  · exact lin_ind1 m 2 1
  · exact lin_ind1 m 2 2
  · exact lin_ind1 m 2 3
  · exact lin_ind1 m 1 4

/-- **C25.** The composition conversions of `olivine.c` are consistent: moles → independent variables → mole
fractions and back agree, fractions sum to one, only proportions matter, and the Jacobian, the second and the
third derivatives returned are the derivatives of the conversions. -/
theorem C25_olivine : Olivine.conv.Consistent := by
  refine Conversion.consistent_of_linear _ Olivine.rows ![(-1), (-1), (-1), (-1), 0] ?_ ?_ ?_ ?_ ?_ ?_ ?_ ?_
  · intro m hm i
    have e : Olivine.conv.toR m i = Olivine.toR m i := rfl
    rw [e, Olivine.toR, q0, Olivine.lin_rows]
    fin_cases i
    · change ((if total m ≠ 0 then 2 * m 0 / total m - 1 else 0) : ℝ) = (2 * m 0) / total m + (-1)
      rw [if_pos hm]; ring
    · change ((if total m ≠ 0 then 2 * m 1 / total m - 1 else 0) : ℝ) = (2 * m 1) / total m + (-1)
      rw [if_pos hm]; ring
    · change ((if total m ≠ 0 then 2 * m 2 / total m - 1 else 0) : ℝ) = (2 * m 2) / total m + (-1)
      rw [if_pos hm]; ring
    · change ((if total m ≠ 0 then 2 * m 3 / total m - 1 else 0) : ℝ) = (2 * m 3) / total m + (-1)
      rw [if_pos hm]; ring
    · change ((if total m ≠ 0 then m 4 / total m else 0) : ℝ) = (1 * m 4) / total m + 0
      rw [if_pos hm]; ring
  · intro m hm i j
    have e : Olivine.conv.dm m i j = Olivine.dm m j i := rfl
    rw [e, Olivine.dm, if_neg hm, q1, Olivine.lin_rows]
    fin_cases i
    · change ((if j = 0 then 2 * (1 - m 0 / total m) / total m else (-2) * m 0 / total m ^ 2) : ℝ) = (2 * ind (j = 0)) / total m - (2 * m 0) / total m ^ 2
      simp only [ite_ind]; ring
    · change ((if j = 1 then 2 * (1 - m 1 / total m) / total m else (-2) * m 1 / total m ^ 2) : ℝ) = (2 * ind (j = 1)) / total m - (2 * m 1) / total m ^ 2
      simp only [ite_ind]; ring
    · change ((if j = 2 then 2 * (1 - m 2 / total m) / total m else (-2) * m 2 / total m ^ 2) : ℝ) = (2 * ind (j = 2)) / total m - (2 * m 2) / total m ^ 2
      simp only [ite_ind]; ring
    · change ((if j = 3 then 2 * (1 - m 3 / total m) / total m else (-2) * m 3 / total m ^ 2) : ℝ) = (2 * ind (j = 3)) / total m - (2 * m 3) / total m ^ 2
      simp only [ite_ind]; ring
    · change ((if j = 4 then (1 - m 4 / total m) / total m else (-1) * m 4 / total m ^ 2) : ℝ) = (1 * ind (j = 4)) / total m - (1 * m 4) / total m ^ 2
      simp only [ite_ind]; ring
  · intro m hm i j k
    have e : Olivine.conv.d2m m i j k = Olivine.d2m m j k i := rfl
    rw [e, Olivine.d2m, if_neg hm, q2, Olivine.lin_rows]
    fin_cases i
    · change (4 * m 0 / total m ^ 3 - (if j = 0 then 2 / total m ^ 2 else 0) - (if k = 0 then 2 / total m ^ 2 else 0) : ℝ) = 2 * (2 * m 0) / total m ^ 3 - (2 * ind (j = 0)) / total m ^ 2 - (2 * ind (k = 0)) / total m ^ 2
      simp only [ite_ind]; ring
    · change (4 * m 1 / total m ^ 3 - (if j = 1 then 2 / total m ^ 2 else 0) - (if k = 1 then 2 / total m ^ 2 else 0) : ℝ) = 2 * (2 * m 1) / total m ^ 3 - (2 * ind (j = 1)) / total m ^ 2 - (2 * ind (k = 1)) / total m ^ 2
      simp only [ite_ind]; ring
    · change (4 * m 2 / total m ^ 3 - (if j = 2 then 2 / total m ^ 2 else 0) - (if k = 2 then 2 / total m ^ 2 else 0) : ℝ) = 2 * (2 * m 2) / total m ^ 3 - (2 * ind (j = 2)) / total m ^ 2 - (2 * ind (k = 2)) / total m ^ 2
      simp only [ite_ind]; ring
    · change (4 * m 3 / total m ^ 3 - (if j = 3 then 2 / total m ^ 2 else 0) - (if k = 3 then 2 / total m ^ 2 else 0) : ℝ) = 2 * (2 * m 3) / total m ^ 3 - (2 * ind (j = 3)) / total m ^ 2 - (2 * ind (k = 3)) / total m ^ 2
      simp only [ite_ind]; ring
    · change (2 * m 4 / total m ^ 3 - (if j = 4 then 1 / total m ^ 2 else 0) - (if k = 4 then 1 / total m ^ 2 else 0) : ℝ) = 2 * (1 * m 4) / total m ^ 3 - (1 * ind (j = 4)) / total m ^ 2 - (1 * ind (k = 4)) / total m ^ 2
      simp only [ite_ind]; ring
  · intro m hm i j k l
    have e : Olivine.conv.d3m m i j k l = Olivine.d3m m j k l i := rfl
    rw [e, Olivine.d3m, if_neg hm, q3, Olivine.lin_rows]
    fin_cases i
    · change ((-12) * m 0 / total m ^ 4 + (if j = 0 then 4 / total m ^ 3 else 0) + (if k = 0 then 4 / total m ^ 3 else 0) + (if l = 0 then 4 / total m ^ 3 else 0) : ℝ) = -6 * (2 * m 0) / total m ^ 4 + 2 * (2 * ind (j = 0)) / total m ^ 3 + 2 * (2 * ind (k = 0)) / total m ^ 3 + 2 * (2 * ind (l = 0)) / total m ^ 3
      simp only [ite_ind]; ring
    · change ((-12) * m 1 / total m ^ 4 + (if j = 1 then 4 / total m ^ 3 else 0) + (if k = 1 then 4 / total m ^ 3 else 0) + (if l = 1 then 4 / total m ^ 3 else 0) : ℝ) = -6 * (2 * m 1) / total m ^ 4 + 2 * (2 * ind (j = 1)) / total m ^ 3 + 2 * (2 * ind (k = 1)) / total m ^ 3 + 2 * (2 * ind (l = 1)) / total m ^ 3
      simp only [ite_ind]; ring
    · change ((-12) * m 2 / total m ^ 4 + (if j = 2 then 4 / total m ^ 3 else 0) + (if k = 2 then 4 / total m ^ 3 else 0) + (if l = 2 then 4 / total m ^ 3 else 0) : ℝ) = -6 * (2 * m 2) / total m ^ 4 + 2 * (2 * ind (j = 2)) / total m ^ 3 + 2 * (2 * ind (k = 2)) / total m ^ 3 + 2 * (2 * ind (l = 2)) / total m ^ 3
      simp only [ite_ind]; ring
    · change ((-12) * m 3 / total m ^ 4 + (if j = 3 then 4 / total m ^ 3 else 0) + (if k = 3 then 4 / total m ^ 3 else 0) + (if l = 3 then 4 / total m ^ 3 else 0) : ℝ) = -6 * (2 * m 3) / total m ^ 4 + 2 * (2 * ind (j = 3)) / total m ^ 3 + 2 * (2 * ind (k = 3)) / total m ^ 3 + 2 * (2 * ind (l = 3)) / total m ^ 3
      simp only [ite_ind]; ring
    · change (((-12) * m 4 / total m ^ 4 + (if j = 4 then 4 / total m ^ 3 else 0) + (if k = 4 then 4 / total m ^ 3 else 0) + (if l = 4 then 4 / total m ^ 3 else 0)) / 2 : ℝ) = -6 * (1 * m 4) / total m ^ 4 + 2 * (1 * ind (j = 4)) / total m ^ 3 + 2 * (1 * ind (k = 4)) / total m ^ 3 + 2 * (1 * ind (l = 4)) / total m ^ 3
      simp only [ite_ind]; ring
  · intro m hm i
    have ht : total m = m 0 + m 1 + m 2 + m 3 + m 4 + m 5 := fin_sum_6 m
    have e : Olivine.conv.fromR (Olivine.conv.toR m) i = Olivine.fromR ![2 * m 0 / total m - 1, 2 * m 1 / total m - 1, 2 * m 2 / total m - 1, 2 * m 3 / total m - 1, m 4 / total m] i := by
      change Olivine.fromR (Olivine.toR m) i = _
      simp only [Olivine.toR, if_pos hm]
    rw [e]
    fin_cases i
    · change ((1 + (2 * m 0 / total m - 1)) / 2 : ℝ) = m 0 / total m
      field_simp
      try ring
    · change ((1 + (2 * m 1 / total m - 1)) / 2 : ℝ) = m 1 / total m
      field_simp
      try ring
    · change ((1 + (2 * m 2 / total m - 1)) / 2 : ℝ) = m 2 / total m
      field_simp
      try ring
    · change ((1 + (2 * m 3 / total m - 1)) / 2 : ℝ) = m 3 / total m
      field_simp
      try ring
    · change ((m 4 / total m) : ℝ) = m 4 / total m
      field_simp
      try ring
    · change (-1 - ((2 * m 0 / total m - 1) + (2 * m 1 / total m - 1) + (2 * m 2 / total m - 1) + (2 * m 3 / total m - 1)) / 2 - (m 4 / total m) : ℝ) = m 5 / total m
      field_simp
      rw [ht]; ring
  · intro r
    change ∑ i, Olivine.fromR r i = 1
    rw [fin_sum_6]
    change (((1 + r 0) / 2) + ((1 + r 1) / 2) + ((1 + r 2) / 2) + ((1 + r 3) / 2) + (r 4) + (-1 - (r 0 + r 1 + r 2 + r 3) / 2 - r 4) : ℝ) = 1
    ring
  · intro r _
    have ht : total (Olivine.fromR r) = 1 := by
      change ∑ i, Olivine.fromR r i = 1
      rw [fin_sum_6]
      change (((1 + r 0) / 2) + ((1 + r 1) / 2) + ((1 + r 2) / 2) + ((1 + r 3) / 2) + (r 4) + (-1 - (r 0 + r 1 + r 2 + r 3) / 2 - r 4) : ℝ) = 1
      ring
    have h1 : (1 : ℝ) ≠ 0 := one_ne_zero
    funext i
    change Olivine.toR (Olivine.fromR r) i = r i
    simp only [Olivine.toR, ht, if_pos h1]
    fin_cases i
    · change (2 * ((1 + r 0) / 2) / 1 - 1 : ℝ) = r 0
      ring
    · change (2 * ((1 + r 1) / 2) / 1 - 1 : ℝ) = r 1
      ring
    · change (2 * ((1 + r 2) / 2) / 1 - 1 : ℝ) = r 2
      ring
    · change (2 * ((1 + r 3) / 2) / 1 - 1 : ℝ) = r 3
      ring
    · change ((r 4) / 1 : ℝ) = r 4
      ring
  · intro r i
    change Olivine.fromR r i = Olivine.fromR (fun _ => 0) i + ∑ j, Olivine.dr i j * r j
    rw [fin_sum_5]
    fin_cases i
    · change ((1 + r 0) / 2 : ℝ) = ((1 + 0) / 2) + (((1/2)) * r 0 + (0) * r 1 + (0) * r 2 + (0) * r 3 + (0) * r 4)
      ring
    · change ((1 + r 1) / 2 : ℝ) = ((1 + 0) / 2) + ((0) * r 0 + ((1/2)) * r 1 + (0) * r 2 + (0) * r 3 + (0) * r 4)
      ring
    · change ((1 + r 2) / 2 : ℝ) = ((1 + 0) / 2) + ((0) * r 0 + (0) * r 1 + ((1/2)) * r 2 + (0) * r 3 + (0) * r 4)
      ring
    · change ((1 + r 3) / 2 : ℝ) = ((1 + 0) / 2) + ((0) * r 0 + (0) * r 1 + (0) * r 2 + ((1/2)) * r 3 + (0) * r 4)
      ring
    · change (r 4 : ℝ) = (0) + ((0) * r 0 + (0) * r 1 + (0) * r 2 + (0) * r 3 + (1) * r 4)
      ring
    · change (-1 - (r 0 + r 1 + r 2 + r 3) / 2 - r 4 : ℝ) = (-1 - (0 + 0 + 0 + 0) / 2 - 0) + ((-(1/2)) * r 0 + (-(1/2)) * r 1 + (-(1/2)) * r 2 + (-(1/2)) * r 3 + (-1) * r 4)
      ring

/-! ### Cpx -/

/-- clinopyroxene.c 4352-4362. -/
def Cpx.toR (m : Fin 7 → ℝ) : Fin 6 → ℝ :=
  ![(if total m ≠ 0 then m 2 / total m else 0),
    (if total m ≠ 0 then (m 3 + m 6 / 2) / total m else 0),
    (if total m ≠ 0 then (m 4 - m 6 / 2) / total m else 0),
    (if total m ≠ 0 then (m 5 + m 6 / 2) / total m else 0),
    (if total m ≠ 0 then m 6 / total m else 0),
    (if total m ≠ 0 then m 1 / total m else 0)]

/-- clinopyroxene.c 4370-4395. -/
def Cpx.dm (m : Fin 7 → ℝ) (j : Fin 7) : Fin 6 → ℝ :=
  if total m = 0 then fun _ => 0 else
  ![(-m 2) / total m ^ 2 + (if j = 2 then 1 / total m else 0),
    (-(m 3 + m 6 / 2)) / total m ^ 2 + (if j = 3 then 1 / total m else 0) + (if j = 6 then (1/2) / total m else 0),
    (-(m 4 - m 6 / 2)) / total m ^ 2 + (if j = 4 then 1 / total m else 0) - (if j = 6 then (1/2) / total m else 0),
    (-(m 5 + m 6 / 2)) / total m ^ 2 + (if j = 5 then 1 / total m else 0) + (if j = 6 then (1/2) / total m else 0),
    (-m 6) / total m ^ 2 + (if j = 6 then 1 / total m else 0),
    (-m 1) / total m ^ 2 + (if j = 1 then 1 / total m else 0)]

/-- clinopyroxene.c 4397-4442. -/
def Cpx.d2m (m : Fin 7 → ℝ) (j k : Fin 7) : Fin 6 → ℝ :=
  if total m = 0 then fun _ => 0 else
  ![2 * m 2 / total m ^ 3 - (if j = 2 then 1 / total m ^ 2 else 0) - (if k = 2 then 1 / total m ^ 2 else 0),
    2 * (m 3 + m 6 / 2) / total m ^ 3 - (if j = 3 then 1 / total m ^ 2 else 0) - (if k = 3 then 1 / total m ^ 2 else 0) - (if j = 6 then (1/2) / total m ^ 2 else 0) - (if k = 6 then (1/2) / total m ^ 2 else 0),
    2 * (m 4 - m 6 / 2) / total m ^ 3 - (if j = 4 then 1 / total m ^ 2 else 0) - (if k = 4 then 1 / total m ^ 2 else 0) + (if j = 6 then (1/2) / total m ^ 2 else 0) + (if k = 6 then (1/2) / total m ^ 2 else 0),
    2 * (m 5 + m 6 / 2) / total m ^ 3 - (if j = 5 then 1 / total m ^ 2 else 0) - (if k = 5 then 1 / total m ^ 2 else 0) - (if j = 6 then (1/2) / total m ^ 2 else 0) - (if k = 6 then (1/2) / total m ^ 2 else 0),
    2 * m 6 / total m ^ 3 - (if j = 6 then 1 / total m ^ 2 else 0) - (if k = 6 then 1 / total m ^ 2 else 0),
    2 * m 1 / total m ^ 3 - (if j = 1 then 1 / total m ^ 2 else 0) - (if k = 1 then 1 / total m ^ 2 else 0)]

/-- clinopyroxene.c 4444-4502. -/
def Cpx.d3m (m : Fin 7 → ℝ) (j k l : Fin 7) : Fin 6 → ℝ :=
  if total m = 0 then fun _ => 0 else
  ![(-6) * m 2 / total m ^ 4 + (if j = 2 then 2 / total m ^ 3 else 0) + (if k = 2 then 2 / total m ^ 3 else 0) + (if l = 2 then 2 / total m ^ 3 else 0),
    (-6) * (m 3 + m 6 / 2) / total m ^ 4 + (if j = 3 then 2 / total m ^ 3 else 0) + (if k = 3 then 2 / total m ^ 3 else 0) + (if l = 3 then 2 / total m ^ 3 else 0) + (if j = 6 then 1 / total m ^ 3 else 0) + (if k = 6 then 1 / total m ^ 3 else 0) + (if l = 6 then 1 / total m ^ 3 else 0),
    (-6) * (m 4 - m 6 / 2) / total m ^ 4 + (if j = 4 then 2 / total m ^ 3 else 0) + (if k = 4 then 2 / total m ^ 3 else 0) + (if l = 4 then 2 / total m ^ 3 else 0) - (if j = 6 then 1 / total m ^ 3 else 0) - (if k = 6 then 1 / total m ^ 3 else 0) - (if l = 6 then 1 / total m ^ 3 else 0),
    (-6) * (m 5 + m 6 / 2) / total m ^ 4 + (if j = 5 then 2 / total m ^ 3 else 0) + (if k = 5 then 2 / total m ^ 3 else 0) + (if l = 5 then 2 / total m ^ 3 else 0) + (if j = 6 then 1 / total m ^ 3 else 0) + (if k = 6 then 1 / total m ^ 3 else 0) + (if l = 6 then 1 / total m ^ 3 else 0),
    (-6) * m 6 / total m ^ 4 + (if j = 6 then 2 / total m ^ 3 else 0) + (if k = 6 then 2 / total m ^ 3 else 0) + (if l = 6 then 2 / total m ^ 3 else 0),
    (-6) * m 1 / total m ^ 4 + (if j = 1 then 2 / total m ^ 3 else 0) + (if k = 1 then 2 / total m ^ 3 else 0) + (if l = 1 then 2 / total m ^ 3 else 0)]

/-- clinopyroxene.c 4510-4520. -/
def Cpx.fromR (r : Fin 6 → ℝ) : Fin 7 → ℝ :=
  ![1 - r 0 - r 1 - r 2 - r 3 - r 4 / 2 - r 5,
    r 5,
    r 0,
    r 1 - r 4 / 2,
    r 2 + r 4 / 2,
    r 3 - r 4 / 2,
    r 4]

/-- clinopyroxene.c 4522-4533. -/
def Cpx.dr : Fin 7 → Fin 6 → ℝ :=
  ![![-1, -1, -1, -1, -(1/2), -1],
    ![0, 0, 0, 0, 0, 1],
    ![1, 0, 0, 0, 0, 0],
    ![0, 1, 0, 0, -(1/2), 0],
    ![0, 0, 1, 0, (1/2), 0],
    ![0, 0, 0, 1, -(1/2), 0],
    ![0, 0, 0, 0, 1, 0]]

/-- The conversions of clinopyroxene.c. -/
def Cpx.conv : Conversion 7 6 where
  toR := Cpx.toR
  dm m i j := Cpx.dm m j i
  d2m m i j k := Cpx.d2m m j k i
  d3m m i j k l := Cpx.d3m m j k l i
  fromR := Cpx.fromR
  dr := Cpx.dr

/-- Coefficients of the independent variables (used in the proof only). -/
def Cpx.rows : Fin 6 → Fin 7 → ℝ :=
  ![fun j => 1 * ind (j = 2),
    fun j => 1 * ind (j = 3) + (1/2) * ind (j = 6),
    fun j => 1 * ind (j = 4) + (-1/2) * ind (j = 6),
    fun j => 1 * ind (j = 5) + (1/2) * ind (j = 6),
    fun j => 1 * ind (j = 6),
    fun j => 1 * ind (j = 1)]

theorem Cpx.lin_rows (m : Fin 7 → ℝ) : ∀ i, lin (Cpx.rows i) m = (![1 * m 2, 1 * m 3 + (1/2) * m 6, 1 * m 4 + (-1/2) * m 6, 1 * m 5 + (1/2) * m 6, 1 * m 6, 1 * m 1] : Fin 6 → ℝ) i := by
  intro i
  fin_cases i
  · exact lin_ind1 m 1 2
  · exact lin_ind2 m 1 (1/2) 3 6
  · exact lin_ind2 m 1 (-1/2) 4 6
  · exact lin_ind2 m 1 (1/2) 5 6
  · exact lin_ind1 m 1 6
  · exact lin_ind1 m 1 1

/-- **C25.** The composition conversions of `clinopyroxene.c` are consistent: moles → independent variables → mole
fractions and back agree, fractions sum to one, only proportions matter, and the Jacobian, the second and the
third derivatives returned are the derivatives of the conversions. -/
theorem C25_cpx : Cpx.conv.Consistent := by
  refine Conversion.consistent_of_linear _ Cpx.rows ![0, 0, 0, 0, 0, 0] ?_ ?_ ?_ ?_ ?_ ?_ ?_ ?_
  · intro m hm i
    have e : Cpx.conv.toR m i = Cpx.toR m i := rfl
    rw [e, Cpx.toR, q0, Cpx.lin_rows]
    fin_cases i
    · change ((if total m ≠ 0 then m 2 / total m else 0) : ℝ) = (1 * m 2) / total m + 0
      rw [if_pos hm]; ring
    · change ((if total m ≠ 0 then (m 3 + m 6 / 2) / total m else 0) : ℝ) = (1 * m 3 + (1/2) * m 6) / total m + 0
      rw [if_pos hm]; ring
    · change ((if total m ≠ 0 then (m 4 - m 6 / 2) / total m else 0) : ℝ) = (1 * m 4 + (-1/2) * m 6) / total m + 0
      rw [if_pos hm]; ring
    · change ((if total m ≠ 0 then (m 5 + m 6 / 2) / total m else 0) : ℝ) = (1 * m 5 + (1/2) * m 6) / total m + 0
      rw [if_pos hm]; ring
    · change ((if total m ≠ 0 then m 6 / total m else 0) : ℝ) = (1 * m 6) / total m + 0
      rw [if_pos hm]; ring
    · change ((if total m ≠ 0 then m 1 / total m else 0) : ℝ) = (1 * m 1) / total m + 0
      rw [if_pos hm]; ring
  · intro m hm i j
    have e : Cpx.conv.dm m i j = Cpx.dm m j i := rfl
    rw [e, Cpx.dm, if_neg hm, q1, Cpx.lin_rows]
    fin_cases i
    · change ((-m 2) / total m ^ 2 + (if j = 2 then 1 / total m else 0) : ℝ) = (1 * ind (j = 2)) / total m - (1 * m 2) / total m ^ 2
      simp only [ite_ind]; ring
    · change ((-(m 3 + m 6 / 2)) / total m ^ 2 + (if j = 3 then 1 / total m else 0) + (if j = 6 then (1/2) / total m else 0) : ℝ) = (1 * ind (j = 3) + (1/2) * ind (j = 6)) / total m - (1 * m 3 + (1/2) * m 6) / total m ^ 2
      simp only [ite_ind]; ring
    · change ((-(m 4 - m 6 / 2)) / total m ^ 2 + (if j = 4 then 1 / total m else 0) - (if j = 6 then (1/2) / total m else 0) : ℝ) = (1 * ind (j = 4) + (-1/2) * ind (j = 6)) / total m - (1 * m 4 + (-1/2) * m 6) / total m ^ 2
      simp only [ite_ind]; ring
    · change ((-(m 5 + m 6 / 2)) / total m ^ 2 + (if j = 5 then 1 / total m else 0) + (if j = 6 then (1/2) / total m else 0) : ℝ) = (1 * ind (j = 5) + (1/2) * ind (j = 6)) / total m - (1 * m 5 + (1/2) * m 6) / total m ^ 2
      simp only [ite_ind]; ring
    · change ((-m 6) / total m ^ 2 + (if j = 6 then 1 / total m else 0) : ℝ) = (1 * ind (j = 6)) / total m - (1 * m 6) / total m ^ 2
      simp only [ite_ind]; ring
    · change ((-m 1) / total m ^ 2 + (if j = 1 then 1 / total m else 0) : ℝ) = (1 * ind (j = 1)) / total m - (1 * m 1) / total m ^ 2
      simp only [ite_ind]; ring
  · intro m hm i j k
    have e : Cpx.conv.d2m m i j k = Cpx.d2m m j k i := rfl
    rw [e, Cpx.d2m, if_neg hm, q2, Cpx.lin_rows]
    fin_cases i
    · change (2 * m 2 / total m ^ 3 - (if j = 2 then 1 / total m ^ 2 else 0) - (if k = 2 then 1 / total m ^ 2 else 0) : ℝ) = 2 * (1 * m 2) / total m ^ 3 - (1 * ind (j = 2)) / total m ^ 2 - (1 * ind (k = 2)) / total m ^ 2
      simp only [ite_ind]; ring
    · change (2 * (m 3 + m 6 / 2) / total m ^ 3 - (if j = 3 then 1 / total m ^ 2 else 0) - (if k = 3 then 1 / total m ^ 2 else 0) - (if j = 6 then (1/2) / total m ^ 2 else 0) - (if k = 6 then (1/2) / total m ^ 2 else 0) : ℝ) = 2 * (1 * m 3 + (1/2) * m 6) / total m ^ 3 - (1 * ind (j = 3) + (1/2) * ind (j = 6)) / total m ^ 2 - (1 * ind (k = 3) + (1/2) * ind (k = 6)) / total m ^ 2
      simp only [ite_ind]; ring
    · change (2 * (m 4 - m 6 / 2) / total m ^ 3 - (if j = 4 then 1 / total m ^ 2 else 0) - (if k = 4 then 1 / total m ^ 2 else 0) + (if j = 6 then (1/2) / total m ^ 2 else 0) + (if k = 6 then (1/2) / total m ^ 2 else 0) : ℝ) = 2 * (1 * m 4 + (-1/2) * m 6) / total m ^ 3 - (1 * ind (j = 4) + (-1/2) * ind (j = 6)) / total m ^ 2 - (1 * ind (k = 4) + (-1/2) * ind (k = 6)) / total m ^ 2
      simp only [ite_ind]; ring
    · change (2 * (m 5 + m 6 / 2) / total m ^ 3 - (if j = 5 then 1 / total m ^ 2 else 0) - (if k = 5 then 1 / total m ^ 2 else 0) - (if j = 6 then (1/2) / total m ^ 2 else 0) - (if k = 6 then (1/2) / total m ^ 2 else 0) : ℝ) = 2 * (1 * m 5 + (1/2) * m 6) / total m ^ 3 - (1 * ind (j = 5) + (1/2) * ind (j = 6)) / total m ^ 2 - (1 * ind (k = 5) + (1/2) * ind (k = 6)) / total m ^ 2
      simp only [ite_ind]; ring
    · change (2 * m 6 / total m ^ 3 - (if j = 6 then 1 / total m ^ 2 else 0) - (if k = 6 then 1 / total m ^ 2 else 0) : ℝ) = 2 * (1 * m 6) / total m ^ 3 - (1 * ind (j = 6)) / total m ^ 2 - (1 * ind (k = 6)) / total m ^ 2
      simp only [ite_ind]; ring
    · change (2 * m 1 / total m ^ 3 - (if j = 1 then 1 / total m ^ 2 else 0) - (if k = 1 then 1 / total m ^ 2 else 0) : ℝ) = 2 * (1 * m 1) / total m ^ 3 - (1 * ind (j = 1)) / total m ^ 2 - (1 * ind (k = 1)) / total m ^ 2
      simp only [ite_ind]; ring
  · intro m hm i j k l
    have e : Cpx.conv.d3m m i j k l = Cpx.d3m m j k l i := rfl
    rw [e, Cpx.d3m, if_neg hm, q3, Cpx.lin_rows]
    fin_cases i
    · change ((-6) * m 2 / total m ^ 4 + (if j = 2 then 2 / total m ^ 3 else 0) + (if k = 2 then 2 / total m ^ 3 else 0) + (if l = 2 then 2 / total m ^ 3 else 0) : ℝ) = -6 * (1 * m 2) / total m ^ 4 + 2 * (1 * ind (j = 2)) / total m ^ 3 + 2 * (1 * ind (k = 2)) / total m ^ 3 + 2 * (1 * ind (l = 2)) / total m ^ 3
      simp only [ite_ind]; ring
    · change ((-6) * (m 3 + m 6 / 2) / total m ^ 4 + (if j = 3 then 2 / total m ^ 3 else 0) + (if k = 3 then 2 / total m ^ 3 else 0) + (if l = 3 then 2 / total m ^ 3 else 0) + (if j = 6 then 1 / total m ^ 3 else 0) + (if k = 6 then 1 / total m ^ 3 else 0) + (if l = 6 then 1 / total m ^ 3 else 0) : ℝ) = -6 * (1 * m 3 + (1/2) * m 6) / total m ^ 4 + 2 * (1 * ind (j = 3) + (1/2) * ind (j = 6)) / total m ^ 3 + 2 * (1 * ind (k = 3) + (1/2) * ind (k = 6)) / total m ^ 3 + 2 * (1 * ind (l = 3) + (1/2) * ind (l = 6)) / total m ^ 3
      simp only [ite_ind]; ring
    · change ((-6) * (m 4 - m 6 / 2) / total m ^ 4 + (if j = 4 then 2 / total m ^ 3 else 0) + (if k = 4 then 2 / total m ^ 3 else 0) + (if l = 4 then 2 / total m ^ 3 else 0) - (if j = 6 then 1 / total m ^ 3 else 0) - (if k = 6 then 1 / total m ^ 3 else 0) - (if l = 6 then 1 / total m ^ 3 else 0) : ℝ) = -6 * (1 * m 4 + (-1/2) * m 6) / total m ^ 4 + 2 * (1 * ind (j = 4) + (-1/2) * ind (j = 6)) / total m ^ 3 + 2 * (1 * ind (k = 4) + (-1/2) * ind (k = 6)) / total m ^ 3 + 2 * (1 * ind (l = 4) + (-1/2) * ind (l = 6)) / total m ^ 3
      simp only [ite_ind]; ring
    · change ((-6) * (m 5 + m 6 / 2) / total m ^ 4 + (if j = 5 then 2 / total m ^ 3 else 0) + (if k = 5 then 2 / total m ^ 3 else 0) + (if l = 5 then 2 / total m ^ 3 else 0) + (if j = 6 then 1 / total m ^ 3 else 0) + (if k = 6 then 1 / total m ^ 3 else 0) + (if l = 6 then 1 / total m ^ 3 else 0) : ℝ) = -6 * (1 * m 5 + (1/2) * m 6) / total m ^ 4 + 2 * (1 * ind (j = 5) + (1/2) * ind (j = 6)) / total m ^ 3 + 2 * (1 * ind (k = 5) + (1/2) * ind (k = 6)) / total m ^ 3 + 2 * (1 * ind (l = 5) + (1/2) * ind (l = 6)) / total m ^ 3
      simp only [ite_ind]; ring
    · change ((-6) * m 6 / total m ^ 4 + (if j = 6 then 2 / total m ^ 3 else 0) + (if k = 6 then 2 / total m ^ 3 else 0) + (if l = 6 then 2 / total m ^ 3 else 0) : ℝ) = -6 * (1 * m 6) / total m ^ 4 + 2 * (1 * ind (j = 6)) / total m ^ 3 + 2 * (1 * ind (k = 6)) / total m ^ 3 + 2 * (1 * ind (l = 6)) / total m ^ 3
      simp only [ite_ind]; ring
    · change ((-6) * m 1 / total m ^ 4 + (if j = 1 then 2 / total m ^ 3 else 0) + (if k = 1 then 2 / total m ^ 3 else 0) + (if l = 1 then 2 / total m ^ 3 else 0) : ℝ) = -6 * (1 * m 1) / total m ^ 4 + 2 * (1 * ind (j = 1)) / total m ^ 3 + 2 * (1 * ind (k = 1)) / total m ^ 3 + 2 * (1 * ind (l = 1)) / total m ^ 3
      simp only [ite_ind]; ring
  · intro m hm i
    have ht : total m = m 0 + m 1 + m 2 + m 3 + m 4 + m 5 + m 6 := fin_sum_7 m
    have e : Cpx.conv.fromR (Cpx.conv.toR m) i = Cpx.fromR ![m 2 / total m, (m 3 + m 6 / 2) / total m, (m 4 - m 6 / 2) / total m, (m 5 + m 6 / 2) / total m, m 6 / total m, m 1 / total m] i := by
      change Cpx.fromR (Cpx.toR m) i = _
      simp only [Cpx.toR, if_pos hm]
    rw [e]
    fin_cases i
    · change (1 - (m 2 / total m) - ((m 3 + m 6 / 2) / total m) - ((m 4 - m 6 / 2) / total m) - ((m 5 + m 6 / 2) / total m) - (m 6 / total m) / 2 - (m 1 / total m) : ℝ) = m 0 / total m
      field_simp
      rw [ht]; ring
    · change ((m 1 / total m) : ℝ) = m 1 / total m
      field_simp
      try ring
    · change ((m 2 / total m) : ℝ) = m 2 / total m
      field_simp
      try ring
    · change (((m 3 + m 6 / 2) / total m) - (m 6 / total m) / 2 : ℝ) = m 3 / total m
      field_simp
      try ring
    · change (((m 4 - m 6 / 2) / total m) + (m 6 / total m) / 2 : ℝ) = m 4 / total m
      field_simp
      try ring
    · change (((m 5 + m 6 / 2) / total m) - (m 6 / total m) / 2 : ℝ) = m 5 / total m
      field_simp
      try ring
    · change ((m 6 / total m) : ℝ) = m 6 / total m
      field_simp
      try ring
  · intro r
    change ∑ i, Cpx.fromR r i = 1
    rw [fin_sum_7]
    change ((1 - r 0 - r 1 - r 2 - r 3 - r 4 / 2 - r 5) + (r 5) + (r 0) + (r 1 - r 4 / 2) + (r 2 + r 4 / 2) + (r 3 - r 4 / 2) + (r 4) : ℝ) = 1
    ring
  · intro r _
    have ht : total (Cpx.fromR r) = 1 := by
      change ∑ i, Cpx.fromR r i = 1
      rw [fin_sum_7]
      change ((1 - r 0 - r 1 - r 2 - r 3 - r 4 / 2 - r 5) + (r 5) + (r 0) + (r 1 - r 4 / 2) + (r 2 + r 4 / 2) + (r 3 - r 4 / 2) + (r 4) : ℝ) = 1
      ring
    have h1 : (1 : ℝ) ≠ 0 := one_ne_zero
    funext i
    change Cpx.toR (Cpx.fromR r) i = r i
    simp only [Cpx.toR, ht, if_pos h1]
    fin_cases i
    · change ((r 0) / 1 : ℝ) = r 0
      ring
    · change (((r 1 - r 4 / 2) + (r 4) / 2) / 1 : ℝ) = r 1
      ring
    · change (((r 2 + r 4 / 2) - (r 4) / 2) / 1 : ℝ) = r 2
      ring
    · change (((r 3 - r 4 / 2) + (r 4) / 2) / 1 : ℝ) = r 3
      ring
    · change ((r 4) / 1 : ℝ) = r 4
      ring
    · change ((r 5) / 1 : ℝ) = r 5
      ring
  · intro r i
    change Cpx.fromR r i = Cpx.fromR (fun _ => 0) i + ∑ j, Cpx.dr i j * r j
    rw [fin_sum_6]
    fin_cases i
    · change (1 - r 0 - r 1 - r 2 - r 3 - r 4 / 2 - r 5 : ℝ) = (1 - 0 - 0 - 0 - 0 - 0 / 2 - 0) + ((-1) * r 0 + (-1) * r 1 + (-1) * r 2 + (-1) * r 3 + (-(1/2)) * r 4 + (-1) * r 5)
      ring
    · change (r 5 : ℝ) = (0) + ((0) * r 0 + (0) * r 1 + (0) * r 2 + (0) * r 3 + (0) * r 4 + (1) * r 5)
      ring
    · change (r 0 : ℝ) = (0) + ((1) * r 0 + (0) * r 1 + (0) * r 2 + (0) * r 3 + (0) * r 4 + (0) * r 5)
      ring
    · change (r 1 - r 4 / 2 : ℝ) = (0 - 0 / 2) + ((0) * r 0 + (1) * r 1 + (0) * r 2 + (0) * r 3 + (-(1/2)) * r 4 + (0) * r 5)
      ring
    · change (r 2 + r 4 / 2 : ℝ) = (0 + 0 / 2) + ((0) * r 0 + (0) * r 1 + (1) * r 2 + (0) * r 3 + ((1/2)) * r 4 + (0) * r 5)
      ring
    · change (r 3 - r 4 / 2 : ℝ) = (0 - 0 / 2) + ((0) * r 0 + (0) * r 1 + (0) * r 2 + (1) * r 3 + (-(1/2)) * r 4 + (0) * r 5)
      ring
    · change (r 4 : ℝ) = (0) + ((0) * r 0 + (0) * r 1 + (0) * r 2 + (0) * r 3 + (1) * r 4 + (0) * r 5)
      ring

/-! ### Opx -/

/-- orthopyroxene.c 4212-4222. -/
def Opx.toR (m : Fin 7 → ℝ) : Fin 6 → ℝ :=
  ![(if total m ≠ 0 then m 2 / total m else 0),
    (if total m ≠ 0 then (m 3 + m 6 / 2) / total m else 0),
    (if total m ≠ 0 then (m 4 - m 6 / 2) / total m else 0),
    (if total m ≠ 0 then (m 5 + m 6 / 2) / total m else 0),
    (if total m ≠ 0 then m 6 / total m else 0),
    (if total m ≠ 0 then m 1 / total m else 0)]

/-- orthopyroxene.c 4230-4255. -/
def Opx.dm (m : Fin 7 → ℝ) (j : Fin 7) : Fin 6 → ℝ :=
  if total m = 0 then fun _ => 0 else
  ![(-m 2) / total m ^ 2 + (if j = 2 then 1 / total m else 0),
    (-(m 3 + m 6 / 2)) / total m ^ 2 + (if j = 3 then 1 / total m else 0) + (if j = 6 then (1/2) / total m else 0),
    (-(m 4 - m 6 / 2)) / total m ^ 2 + (if j = 4 then 1 / total m else 0) - (if j = 6 then (1/2) / total m else 0),
    (-(m 5 + m 6 / 2)) / total m ^ 2 + (if j = 5 then 1 / total m else 0) + (if j = 6 then (1/2) / total m else 0),
    (-m 6) / total m ^ 2 + (if j = 6 then 1 / total m else 0),
    (-m 1) / total m ^ 2 + (if j = 1 then 1 / total m else 0)]

/-- orthopyroxene.c 4257-4302. -/
def Opx.d2m (m : Fin 7 → ℝ) (j k : Fin 7) : Fin 6 → ℝ :=
  if total m = 0 then fun _ => 0 else
  ![2 * m 2 / total m ^ 3 - (if j = 2 then 1 / total m ^ 2 else 0) - (if k = 2 then 1 / total m ^ 2 else 0),
    2 * (m 3 + m 6 / 2) / total m ^ 3 - (if j = 3 then 1 / total m ^ 2 else 0) - (if k = 3 then 1 / total m ^ 2 else 0) - (if j = 6 then (1/2) / total m ^ 2 else 0) - (if k = 6 then (1/2) / total m ^ 2 else 0),
    2 * (m 4 - m 6 / 2) / total m ^ 3 - (if j = 4 then 1 / total m ^ 2 else 0) - (if k = 4 then 1 / total m ^ 2 else 0) + (if j = 6 then (1/2) / total m ^ 2 else 0) + (if k = 6 then (1/2) / total m ^ 2 else 0),
    2 * (m 5 + m 6 / 2) / total m ^ 3 - (if j = 5 then 1 / total m ^ 2 else 0) - (if k = 5 then 1 / total m ^ 2 else 0) - (if j = 6 then (1/2) / total m ^ 2 else 0) - (if k = 6 then (1/2) / total m ^ 2 else 0),
    2 * m 6 / total m ^ 3 - (if j = 6 then 1 / total m ^ 2 else 0) - (if k = 6 then 1 / total m ^ 2 else 0),
    2 * m 1 / total m ^ 3 - (if j = 1 then 1 / total m ^ 2 else 0) - (if k = 1 then 1 / total m ^ 2 else 0)]

/-- orthopyroxene.c 4304-4362. -/
def Opx.d3m (m : Fin 7 → ℝ) (j k l : Fin 7) : Fin 6 → ℝ :=
  if total m = 0 then fun _ => 0 else
  ![(-6) * m 2 / total m ^ 4 + (if j = 2 then 2 / total m ^ 3 else 0) + (if k = 2 then 2 / total m ^ 3 else 0) + (if l = 2 then 2 / total m ^ 3 else 0),
    (-6) * (m 3 + m 6 / 2) / total m ^ 4 + (if j = 3 then 2 / total m ^ 3 else 0) + (if k = 3 then 2 / total m ^ 3 else 0) + (if l = 3 then 2 / total m ^ 3 else 0) + (if j = 6 then 1 / total m ^ 3 else 0) + (if k = 6 then 1 / total m ^ 3 else 0) + (if l = 6 then 1 / total m ^ 3 else 0),
    (-6) * (m 4 - m 6 / 2) / total m ^ 4 + (if j = 4 then 2 / total m ^ 3 else 0) + (if k = 4 then 2 / total m ^ 3 else 0) + (if l = 4 then 2 / total m ^ 3 else 0) - (if j = 6 then 1 / total m ^ 3 else 0) - (if k = 6 then 1 / total m ^ 3 else 0) - (if l = 6 then 1 / total m ^ 3 else 0),
    (-6) * (m 5 + m 6 / 2) / total m ^ 4 + (if j = 5 then 2 / total m ^ 3 else 0) + (if k = 5 then 2 / total m ^ 3 else 0) + (if l = 5 then 2 / total m ^ 3 else 0) + (if j = 6 then 1 / total m ^ 3 else 0) + (if k = 6 then 1 / total m ^ 3 else 0) + (if l = 6 then 1 / total m ^ 3 else 0),
    (-6) * m 6 / total m ^ 4 + (if j = 6 then 2 / total m ^ 3 else 0) + (if k = 6 then 2 / total m ^ 3 else 0) + (if l = 6 then 2 / total m ^ 3 else 0),
    (-6) * m 1 / total m ^ 4 + (if j = 1 then 2 / total m ^ 3 else 0) + (if k = 1 then 2 / total m ^ 3 else 0) + (if l = 1 then 2 / total m ^ 3 else 0)]

/-- orthopyroxene.c 4370-4380. -/
def Opx.fromR (r : Fin 6 → ℝ) : Fin 7 → ℝ :=
  ![1 - r 0 - r 1 - r 2 - r 3 - r 4 / 2 - r 5,
    r 5,
    r 0,
    r 1 - r 4 / 2,
    r 2 + r 4 / 2,
    r 3 - r 4 / 2,
    r 4]

/-- orthopyroxene.c 4382-4393. -/
def Opx.dr : Fin 7 → Fin 6 → ℝ :=
  ![![-1, -1, -1, -1, -(1/2), -1],
    ![0, 0, 0, 0, 0, 1],
    ![1, 0, 0, 0, 0, 0],
    ![0, 1, 0, 0, -(1/2), 0],
    ![0, 0, 1, 0, (1/2), 0],
    ![0, 0, 0, 1, -(1/2), 0],
    ![0, 0, 0, 0, 1, 0]]

/-- The conversions of orthopyroxene.c. -/
def Opx.conv : Conversion 7 6 where
  toR := Opx.toR
  dm m i j := Opx.dm m j i
  d2m m i j k := Opx.d2m m j k i
  d3m m i j k l := Opx.d3m m j k l i
  fromR := Opx.fromR
  dr := Opx.dr

/-- Coefficients of the independent variables (used in the proof only). -/
def Opx.rows : Fin 6 → Fin 7 → ℝ :=
  ![fun j => 1 * ind (j = 2),
    fun j => 1 * ind (j = 3) + (1/2) * ind (j = 6),
    fun j => 1 * ind (j = 4) + (-1/2) * ind (j = 6),
    fun j => 1 * ind (j = 5) + (1/2) * ind (j = 6),
    fun j => 1 * ind (j = 6),
    fun j => 1 * ind (j = 1)]

theorem Opx.lin_rows (m : Fin 7 → ℝ) : ∀ i, lin (Opx.rows i) m = (![1 * m 2, 1 * m 3 + (1/2) * m 6, 1 * m 4 + (-1/2) * m 6, 1 * m 5 + (1/2) * m 6, 1 * m 6, 1 * m 1] : Fin 6 → ℝ) i := by
  intro i
  fin_cases i
  · exact lin_ind1 m 1 2
  · exact lin_ind2 m 1 (1/2) 3 6
  · exact lin_ind2 m 1 (-1/2) 4 6
  · exact lin_ind2 m 1 (1/2) 5 6
  · exact lin_ind1 m 1 6
  · exact lin_ind1 m 1 1

/-- **C25.** The composition conversions of `orthopyroxene.c` are consistent: moles → independent variables → mole
fractions and back agree, fractions sum to one, only proportions matter, and the Jacobian, the second and the
third derivatives returned are the derivatives of the conversions. -/
theorem C25_opx : Opx.conv.Consistent := by
  refine Conversion.consistent_of_linear _ Opx.rows ![0, 0, 0, 0, 0, 0] ?_ ?_ ?_ ?_ ?_ ?_ ?_ ?_
  · intro m hm i
    have e : Opx.conv.toR m i = Opx.toR m i := rfl
    rw [e, Opx.toR, q0, Opx.lin_rows]
    fin_cases i
    · change ((if total m ≠ 0 then m 2 / total m else 0) : ℝ) = (1 * m 2) / total m + 0
      rw [if_pos hm]; ring
    · change ((if total m ≠ 0 then (m 3 + m 6 / 2) / total m else 0) : ℝ) = (1 * m 3 + (1/2) * m 6) / total m + 0
      rw [if_pos hm]; ring
    · change ((if total m ≠ 0 then (m 4 - m 6 / 2) / total m else 0) : ℝ) = (1 * m 4 + (-1/2) * m 6) / total m + 0
      rw [if_pos hm]; ring
    · change ((if total m ≠ 0 then (m 5 + m 6 / 2) / total m else 0) : ℝ) = (1 * m 5 + (1/2) * m 6) / total m + 0
      rw [if_pos hm]; ring
    · change ((if total m ≠ 0 then m 6 / total m else 0) : ℝ) = (1 * m 6) / total m + 0
      rw [if_pos hm]; ring
    · change ((if total m ≠ 0 then m 1 / total m else 0) : ℝ) = (1 * m 1) / total m + 0
      rw [if_pos hm]; ring
  · intro m hm i j
    have e : Opx.conv.dm m i j = Opx.dm m j i := rfl
    rw [e, Opx.dm, if_neg hm, q1, Opx.lin_rows]
    fin_cases i
    · change ((-m 2) / total m ^ 2 + (if j = 2 then 1 / total m else 0) : ℝ) = (1 * ind (j = 2)) / total m - (1 * m 2) / total m ^ 2
      simp only [ite_ind]; ring
    · change ((-(m 3 + m 6 / 2)) / total m ^ 2 + (if j = 3 then 1 / total m else 0) + (if j = 6 then (1/2) / total m else 0) : ℝ) = (1 * ind (j = 3) + (1/2) * ind (j = 6)) / total m - (1 * m 3 + (1/2) * m 6) / total m ^ 2
      simp only [ite_ind]; ring
    · change ((-(m 4 - m 6 / 2)) / total m ^ 2 + (if j = 4 then 1 / total m else 0) - (if j = 6 then (1/2) / total m else 0) : ℝ) = (1 * ind (j = 4) + (-1/2) * ind (j = 6)) / total m - (1 * m 4 + (-1/2) * m 6) / total m ^ 2
      simp only [ite_ind]; ring
    · change ((-(m 5 + m 6 / 2)) / total m ^ 2 + (if j = 5 then 1 / total m else 0) + (if j = 6 then (1/2) / total m else 0) : ℝ) = (1 * ind (j = 5) + (1/2) * ind (j = 6)) / total m - (1 * m 5 + (1/2) * m 6) / total m ^ 2
      simp only [ite_ind]; ring
    · change ((-m 6) / total m ^ 2 + (if j = 6 then 1 / total m else 0) : ℝ) = (1 * ind (j = 6)) / total m - (1 * m 6) / total m ^ 2
      simp only [ite_ind]; ring
    · change ((-m 1) / total m ^ 2 + (if j = 1 then 1 / total m else 0) : ℝ) = (1 * ind (j = 1)) / total m - (1 * m 1) / total m ^ 2
      simp only [ite_ind]; ring
  · intro m hm i j k
    have e : Opx.conv.d2m m i j k = Opx.d2m m j k i := rfl
    rw [e, Opx.d2m, if_neg hm, q2, Opx.lin_rows]
    fin_cases i
    · change (2 * m 2 / total m ^ 3 - (if j = 2 then 1 / total m ^ 2 else 0) - (if k = 2 then 1 / total m ^ 2 else 0) : ℝ) = 2 * (1 * m 2) / total m ^ 3 - (1 * ind (j = 2)) / total m ^ 2 - (1 * ind (k = 2)) / total m ^ 2
      simp only [ite_ind]; ring
    · change (2 * (m 3 + m 6 / 2) / total m ^ 3 - (if j = 3 then 1 / total m ^ 2 else 0) - (if k = 3 then 1 / total m ^ 2 else 0) - (if j = 6 then (1/2) / total m ^ 2 else 0) - (if k = 6 then (1/2) / total m ^ 2 else 0) : ℝ) = 2 * (1 * m 3 + (1/2) * m 6) / total m ^ 3 - (1 * ind (j = 3) + (1/2) * ind (j = 6)) / total m ^ 2 - (1 * ind (k = 3) + (1/2) * ind (k = 6)) / total m ^ 2
      simp only [ite_ind]; ring
    · change (2 * (m 4 - m 6 / 2) / total m ^ 3 - (if j = 4 then 1 / total m ^ 2 else 0) - (if k = 4 then 1 / total m ^ 2 else 0) + (if j = 6 then (1/2) / total m ^ 2 else 0) + (if k = 6 then (1/2) / total m ^ 2 else 0) : ℝ) = 2 * (1 * m 4 + (-1/2) * m 6) / total m ^ 3 - (1 * ind (j = 4) + (-1/2) * ind (j = 6)) / total m ^ 2 - (1 * ind (k = 4) + (-1/2) * ind (k = 6)) / total m ^ 2
      simp only [ite_ind]; ring
    · change (2 * (m 5 + m 6 / 2) / total m ^ 3 - (if j = 5 then 1 / total m ^ 2 else 0) - (if k = 5 then 1 / total m ^ 2 else 0) - (if j = 6 then (1/2) / total m ^ 2 else 0) - (if k = 6 then (1/2) / total m ^ 2 else 0) : ℝ) = 2 * (1 * m 5 + (1/2) * m 6) / total m ^ 3 - (1 * ind (j = 5) + (1/2) * ind (j = 6)) / total m ^ 2 - (1 * ind (k = 5) + (1/2) * ind (k = 6)) / total m ^ 2
      simp only [ite_ind]; ring
    · change (2 * m 6 / total m ^ 3 - (if j = 6 then 1 / total m ^ 2 else 0) - (if k = 6 then 1 / total m ^ 2 else 0) : ℝ) = 2 * (1 * m 6) / total m ^ 3 - (1 * ind (j = 6)) / total m ^ 2 - (1 * ind (k = 6)) / total m ^ 2
      simp only [ite_ind]; ring
    · change (2 * m 1 / total m ^ 3 - (if j = 1 then 1 / total m ^ 2 else 0) - (if k = 1 then 1 / total m ^ 2 else 0) : ℝ) = 2 * (1 * m 1) / total m ^ 3 - (1 * ind (j = 1)) / total m ^ 2 - (1 * ind (k = 1)) / total m ^ 2
      simp only [ite_ind]; ring
  · intro m hm i j k l
    have e : Opx.conv.d3m m i j k l = Opx.d3m m j k l i := rfl
    rw [e, Opx.d3m, if_neg hm, q3, Opx.lin_rows]
    fin_cases i
    · change ((-6) * m 2 / total m ^ 4 + (if j = 2 then 2 / total m ^ 3 else 0) + (if k = 2 then 2 / total m ^ 3 else 0) + (if l = 2 then 2 / total m ^ 3 else 0) : ℝ) = -6 * (1 * m 2) / total m ^ 4 + 2 * (1 * ind (j = 2)) / total m ^ 3 + 2 * (1 * ind (k = 2)) / total m ^ 3 + 2 * (1 * ind (l = 2)) / total m ^ 3
      simp only [ite_ind]; ring
    · change ((-6) * (m 3 + m 6 / 2) / total m ^ 4 + (if j = 3 then 2 / total m ^ 3 else 0) + (if k = 3 then 2 / total m ^ 3 else 0) + (if l = 3 then 2 / total m ^ 3 else 0) + (if j = 6 then 1 / total m ^ 3 else 0) + (if k = 6 then 1 / total m ^ 3 else 0) + (if l = 6 then 1 / total m ^ 3 else 0) : ℝ) = -6 * (1 * m 3 + (1/2) * m 6) / total m ^ 4 + 2 * (1 * ind (j = 3) + (1/2) * ind (j = 6)) / total m ^ 3 + 2 * (1 * ind (k = 3) + (1/2) * ind (k = 6)) / total m ^ 3 + 2 * (1 * ind (l = 3) + (1/2) * ind (l = 6)) / total m ^ 3
      simp only [ite_ind]; ring
    · change ((-6) * (m 4 - m 6 / 2) / total m ^ 4 + (if j = 4 then 2 / total m ^ 3 else 0) + (if k = 4 then 2 / total m ^ 3 else 0) + (if l = 4 then 2 / total m ^ 3 else 0) - (if j = 6 then 1 / total m ^ 3 else 0) - (if k = 6 then 1 / total m ^ 3 else 0) - (if l = 6 then 1 / total m ^ 3 else 0) : ℝ) = -6 * (1 * m 4 + (-1/2) * m 6) / total m ^ 4 + 2 * (1 * ind (j = 4) + (-1/2) * ind (j = 6)) / total m ^ 3 + 2 * (1 * ind (k = 4) + (-1/2) * ind (k = 6)) / total m ^ 3 + 2 * (1 * ind (l = 4) + (-1/2) * ind (l = 6)) / total m ^ 3
      simp only [ite_ind]; ring
    · change ((-6) * (m 5 + m 6 / 2) / total m ^ 4 + (if j = 5 then 2 / total m ^ 3 else 0) + (if k = 5 then 2 / total m ^ 3 else 0) + (if l = 5 then 2 / total m ^ 3 else 0) + (if j = 6 then 1 / total m ^ 3 else 0) + (if k = 6 then 1 / total m ^ 3 else 0) + (if l = 6 then 1 / total m ^ 3 else 0) : ℝ) = -6 * (1 * m 5 + (1/2) * m 6) / total m ^ 4 + 2 * (1 * ind (j = 5) + (1/2) * ind (j = 6)) / total m ^ 3 + 2 * (1 * ind (k = 5) + (1/2) * ind (k = 6)) / total m ^ 3 + 2 * (1 * ind (l = 5) + (1/2) * ind (l = 6)) / total m ^ 3
      simp only [ite_ind]; ring
    · change ((-6) * m 6 / total m ^ 4 + (if j = 6 then 2 / total m ^ 3 else 0) + (if k = 6 then 2 / total m ^ 3 else 0) + (if l = 6 then 2 / total m ^ 3 else 0) : ℝ) = -6 * (1 * m 6) / total m ^ 4 + 2 * (1 * ind (j = 6)) / total m ^ 3 + 2 * (1 * ind (k = 6)) / total m ^ 3 + 2 * (1 * ind (l = 6)) / total m ^ 3
      simp only [ite_ind]; ring
    · change ((-6) * m 1 / total m ^ 4 + (if j = 1 then 2 / total m ^ 3 else 0) + (if k = 1 then 2 / total m ^ 3 else 0) + (if l = 1 then 2 / total m ^ 3 else 0) : ℝ) = -6 * (1 * m 1) / total m ^ 4 + 2 * (1 * ind (j = 1)) / total m ^ 3 + 2 * (1 * ind (k = 1)) / total m ^ 3 + 2 * (1 * ind (l = 1)) / total m ^ 3
      simp only [ite_ind]; ring
  · intro m hm i
    have ht : total m = m 0 + m 1 + m 2 + m 3 + m 4 + m 5 + m 6 := fin_sum_7 m
    have e : Opx.conv.fromR (Opx.conv.toR m) i = Opx.fromR ![m 2 / total m, (m 3 + m 6 / 2) / total m, (m 4 - m 6 / 2) / total m, (m 5 + m 6 / 2) / total m, m 6 / total m, m 1 / total m] i := by
      change Opx.fromR (Opx.toR m) i = _
      simp only [Opx.toR, if_pos hm]
    rw [e]
    fin_cases i
    · change (1 - (m 2 / total m) - ((m 3 + m 6 / 2) / total m) - ((m 4 - m 6 / 2) / total m) - ((m 5 + m 6 / 2) / total m) - (m 6 / total m) / 2 - (m 1 / total m) : ℝ) = m 0 / total m
      field_simp
      rw [ht]; ring
    · change ((m 1 / total m) : ℝ) = m 1 / total m
      field_simp
      try ring
    · change ((m 2 / total m) : ℝ) = m 2 / total m
      field_simp
      try ring
    · change (((m 3 + m 6 / 2) / total m) - (m 6 / total m) / 2 : ℝ) = m 3 / total m
      field_simp
      try ring
    · change (((m 4 - m 6 / 2) / total m) + (m 6 / total m) / 2 : ℝ) = m 4 / total m
      field_simp
      try ring
    · change (((m 5 + m 6 / 2) / total m) - (m 6 / total m) / 2 : ℝ) = m 5 / total m
      field_simp
      try ring
    · change ((m 6 / total m) : ℝ) = m 6 / total m
      field_simp
      try ring
  · intro r
    change ∑ i, Opx.fromR r i = 1
    rw [fin_sum_7]
    change ((1 - r 0 - r 1 - r 2 - r 3 - r 4 / 2 - r 5) + (r 5) + (r 0) + (r 1 - r 4 / 2) + (r 2 + r 4 / 2) + (r 3 - r 4 / 2) + (r 4) : ℝ) = 1
    ring
  · intro r _
    have ht : total (Opx.fromR r) = 1 := by
      change ∑ i, Opx.fromR r i = 1
      rw [fin_sum_7]
      change ((1 - r 0 - r 1 - r 2 - r 3 - r 4 / 2 - r 5) + (r 5) + (r 0) + (r 1 - r 4 / 2) + (r 2 + r 4 / 2) + (r 3 - r 4 / 2) + (r 4) : ℝ) = 1
      ring
    have h1 : (1 : ℝ) ≠ 0 := one_ne_zero
    funext i
    change Opx.toR (Opx.fromR r) i = r i
    simp only [Opx.toR, ht, if_pos h1]
    fin_cases i
    · change ((r 0) / 1 : ℝ) = r 0
      ring
    · change (((r 1 - r 4 / 2) + (r 4) / 2) / 1 : ℝ) = r 1
      ring
    · change (((r 2 + r 4 / 2) - (r 4) / 2) / 1 : ℝ) = r 2
      ring
    · change (((r 3 - r 4 / 2) + (r 4) / 2) / 1 : ℝ) = r 3
      ring
    · change ((r 4) / 1 : ℝ) = r 4
      ring
    · change ((r 5) / 1 : ℝ) = r 5
      ring
  · intro r i
    change Opx.fromR r i = Opx.fromR (fun _ => 0) i + ∑ j, Opx.dr i j * r j
    rw [fin_sum_6]
    fin_cases i
    · change (1 - r 0 - r 1 - r 2 - r 3 - r 4 / 2 - r 5 : ℝ) = (1 - 0 - 0 - 0 - 0 - 0 / 2 - 0) + ((-1) * r 0 + (-1) * r 1 + (-1) * r 2 + (-1) * r 3 + (-(1/2)) * r 4 + (-1) * r 5)
      ring
    · change (r 5 : ℝ) = (0) + ((0) * r 0 + (0) * r 1 + (0) * r 2 + (0) * r 3 + (0) * r 4 + (1) * r 5)
      ring
    · change (r 0 : ℝ) = (0) + ((1) * r 0 + (0) * r 1 + (0) * r 2 + (0) * r 3 + (0) * r 4 + (0) * r 5)
      ring
    · change (r 1 - r 4 / 2 : ℝ) = (0 - 0 / 2) + ((0) * r 0 + (1) * r 1 + (0) * r 2 + (0) * r 3 + (-(1/2)) * r 4 + (0) * r 5)
      ring
    · change (r 2 + r 4 / 2 : ℝ) = (0 + 0 / 2) + ((0) * r 0 + (0) * r 1 + (1) * r 2 + (0) * r 3 + ((1/2)) * r 4 + (0) * r 5)
      ring
    · change (r 3 - r 4 / 2 : ℝ) = (0 - 0 / 2) + ((0) * r 0 + (0) * r 1 + (0) * r 2 + (1) * r 3 + (-(1/2)) * r 4 + (0) * r 5)
      ring
    · change (r 4 : ℝ) = (0) + ((0) * r 0 + (0) * r 1 + (0) * r 2 + (0) * r 3 + (1) * r 4 + (0) * r 5)
      ring

/-! ### Amphibole -/

/-- amphibole.c 1592-1598. -/
def Amphibole.toR (m : Fin 3 → ℝ) : Fin 2 → ℝ :=
  ![(if total m ≠ 0 then 2 * m 1 / total m - 1 else 0),
    (if total m ≠ 0 then m 2 / total m else 0)]

/-- amphibole.c 1606-1620. -/
def Amphibole.dm (m : Fin 3 → ℝ) (j : Fin 3) : Fin 2 → ℝ :=
  if total m = 0 then fun _ => 0 else
  ![(-2) * m 1 / total m ^ 2 + (if j = 1 then 2 / total m else 0),
    (-m 2) / total m ^ 2 + (if j = 2 then 1 / total m else 0)]

/-- amphibole.c 1622-1645. -/
def Amphibole.d2m (m : Fin 3 → ℝ) (j k : Fin 3) : Fin 2 → ℝ :=
  if total m = 0 then fun _ => 0 else
  ![4 * m 1 / total m ^ 3 - (if j = 1 then 2 / total m ^ 2 else 0) - (if k = 1 then 2 / total m ^ 2 else 0),
    2 * m 2 / total m ^ 3 - (if j = 2 then 1 / total m ^ 2 else 0) - (if k = 2 then 1 / total m ^ 2 else 0)]

/-- amphibole.c 1647-1676. -/
def Amphibole.d3m (m : Fin 3 → ℝ) (j k l : Fin 3) : Fin 2 → ℝ :=
  if total m = 0 then fun _ => 0 else
  ![(-12) * m 1 / total m ^ 4 + (if j = 1 then 4 / total m ^ 3 else 0) + (if k = 1 then 4 / total m ^ 3 else 0) + (if l = 1 then 4 / total m ^ 3 else 0),
    (-6) * m 2 / total m ^ 4 + (if j = 2 then 2 / total m ^ 3 else 0) + (if k = 2 then 2 / total m ^ 3 else 0) + (if l = 2 then 2 / total m ^ 3 else 0)]

/-- amphibole.c 1684-1690. -/
def Amphibole.fromR (r : Fin 2 → ℝ) : Fin 3 → ℝ :=
  ![1 - (1 + r 0) / 2 - r 1,
    (1 + r 0) / 2,
    r 1]

/-- amphibole.c 1692-1698. -/
def Amphibole.dr : Fin 3 → Fin 2 → ℝ :=
  ![![(-1) / 2, -1],
    ![1 / 2, 0],
    ![0, 1]]

/-- The conversions of amphibole.c. -/
def Amphibole.conv : Conversion 3 2 where
  toR := Amphibole.toR
  dm m i j := Amphibole.dm m j i
  d2m m i j k := Amphibole.d2m m j k i
  d3m m i j k l := Amphibole.d3m m j k l i
  fromR := Amphibole.fromR
  dr := Amphibole.dr

/-- Coefficients of the independent variables (used in the proof only). -/
def Amphibole.rows : Fin 2 → Fin 3 → ℝ :=
  ![fun j => 2 * ind (j = 1),
    fun j => 1 * ind (j = 2)]

theorem Amphibole.lin_rows (m : Fin 3 → ℝ) : ∀ i, lin (Amphibole.rows i) m = (![2 * m 1, 1 * m 2] : Fin 2 → ℝ) i := by
  intro i
  fin_cases i
  · exact lin_ind1 m 2 1
  · exact lin_ind1 m 1 2

/-- **C25.** The composition conversions of `amphibole.c` are consistent: moles → independent variables → mole
fractions and back agree, fractions sum to one, only proportions matter, and the Jacobian, the second and the
third derivatives returned are the derivatives of the conversions. -/
theorem C25_amphibole : Amphibole.conv.Consistent := by
  refine Conversion.consistent_of_linear _ Amphibole.rows ![(-1), 0] ?_ ?_ ?_ ?_ ?_ ?_ ?_ ?_
  · intro m hm i
    have e : Amphibole.conv.toR m i = Amphibole.toR m i := rfl
    rw [e, Amphibole.toR, q0, Amphibole.lin_rows]
    fin_cases i
    · change ((if total m ≠ 0 then 2 * m 1 / total m - 1 else 0) : ℝ) = (2 * m 1) / total m + (-1)
      rw [if_pos hm]; ring
    · change ((if total m ≠ 0 then m 2 / total m else 0) : ℝ) = (1 * m 2) / total m + 0
      rw [if_pos hm]; ring
  · intro m hm i j
    have e : Amphibole.conv.dm m i j = Amphibole.dm m j i := rfl
    rw [e, Amphibole.dm, if_neg hm, q1, Amphibole.lin_rows]
    fin_cases i
    · change ((-2) * m 1 / total m ^ 2 + (if j = 1 then 2 / total m else 0) : ℝ) = (2 * ind (j = 1)) / total m - (2 * m 1) / total m ^ 2
      simp only [ite_ind]; ring
    · change ((-m 2) / total m ^ 2 + (if j = 2 then 1 / total m else 0) : ℝ) = (1 * ind (j = 2)) / total m - (1 * m 2) / total m ^ 2
      simp only [ite_ind]; ring
  · intro m hm i j k
    have e : Amphibole.conv.d2m m i j k = Amphibole.d2m m j k i := rfl
    rw [e, Amphibole.d2m, if_neg hm, q2, Amphibole.lin_rows]
    fin_cases i
    · change (4 * m 1 / total m ^ 3 - (if j = 1 then 2 / total m ^ 2 else 0) - (if k = 1 then 2 / total m ^ 2 else 0) : ℝ) = 2 * (2 * m 1) / total m ^ 3 - (2 * ind (j = 1)) / total m ^ 2 - (2 * ind (k = 1)) / total m ^ 2
      simp only [ite_ind]; ring
    · change (2 * m 2 / total m ^ 3 - (if j = 2 then 1 / total m ^ 2 else 0) - (if k = 2 then 1 / total m ^ 2 else 0) : ℝ) = 2 * (1 * m 2) / total m ^ 3 - (1 * ind (j = 2)) / total m ^ 2 - (1 * ind (k = 2)) / total m ^ 2
      simp only [ite_ind]; ring
  · intro m hm i j k l
    have e : Amphibole.conv.d3m m i j k l = Amphibole.d3m m j k l i := rfl
    rw [e, Amphibole.d3m, if_neg hm, q3, Amphibole.lin_rows]
    fin_cases i
    · change ((-12) * m 1 / total m ^ 4 + (if j = 1 then 4 / total m ^ 3 else 0) + (if k = 1 then 4 / total m ^ 3 else 0) + (if l = 1 then 4 / total m ^ 3 else 0) : ℝ) = -6 * (2 * m 1) / total m ^ 4 + 2 * (2 * ind (j = 1)) / total m ^ 3 + 2 * (2 * ind (k = 1)) / total m ^ 3 + 2 * (2 * ind (l = 1)) / total m ^ 3
      simp only [ite_ind]; ring
    · change ((-6) * m 2 / total m ^ 4 + (if j = 2 then 2 / total m ^ 3 else 0) + (if k = 2 then 2 / total m ^ 3 else 0) + (if l = 2 then 2 / total m ^ 3 else 0) : ℝ) = -6 * (1 * m 2) / total m ^ 4 + 2 * (1 * ind (j = 2)) / total m ^ 3 + 2 * (1 * ind (k = 2)) / total m ^ 3 + 2 * (1 * ind (l = 2)) / total m ^ 3
      simp only [ite_ind]; ring
  · intro m hm i
    have ht : total m = m 0 + m 1 + m 2 := fin_sum_3 m
    have e : Amphibole.conv.fromR (Amphibole.conv.toR m) i = Amphibole.fromR ![2 * m 1 / total m - 1, m 2 / total m] i := by
      change Amphibole.fromR (Amphibole.toR m) i = _
      simp only [Amphibole.toR, if_pos hm]
    rw [e]
    fin_cases i
    · change (1 - (1 + (2 * m 1 / total m - 1)) / 2 - (m 2 / total m) : ℝ) = m 0 / total m
      field_simp
      rw [ht]; ring
    · change ((1 + (2 * m 1 / total m - 1)) / 2 : ℝ) = m 1 / total m
      field_simp
      try ring
    · change ((m 2 / total m) : ℝ) = m 2 / total m
      field_simp
      try ring
  · intro r
    change ∑ i, Amphibole.fromR r i = 1
    rw [fin_sum_3]
    change ((1 - (1 + r 0) / 2 - r 1) + ((1 + r 0) / 2) + (r 1) : ℝ) = 1
    ring
  · intro r _
    have ht : total (Amphibole.fromR r) = 1 := by
      change ∑ i, Amphibole.fromR r i = 1
      rw [fin_sum_3]
      change ((1 - (1 + r 0) / 2 - r 1) + ((1 + r 0) / 2) + (r 1) : ℝ) = 1
      ring
    have h1 : (1 : ℝ) ≠ 0 := one_ne_zero
    funext i
    change Amphibole.toR (Amphibole.fromR r) i = r i
    simp only [Amphibole.toR, ht, if_pos h1]
    fin_cases i
    · change (2 * ((1 + r 0) / 2) / 1 - 1 : ℝ) = r 0
      ring
    · change ((r 1) / 1 : ℝ) = r 1
      ring
  · intro r i
    change Amphibole.fromR r i = Amphibole.fromR (fun _ => 0) i + ∑ j, Amphibole.dr i j * r j
    rw [fin_sum_2]
    fin_cases i
    · change (1 - (1 + r 0) / 2 - r 1 : ℝ) = (1 - (1 + 0) / 2 - 0) + (((-1) / 2) * r 0 + (-1) * r 1)
      ring
    · change ((1 + r 0) / 2 : ℝ) = ((1 + 0) / 2) + ((1 / 2) * r 0 + (0) * r 1)
      ring
    · change (r 1 : ℝ) = (0) + ((0) * r 0 + (1) * r 1)
      ring

/-! ### Cummingtonite -/

/-- cummingtonite.c 1210-1215. -/
def Cummingtonite.toR (m : Fin 2 → ℝ) : Fin 1 → ℝ :=
  ![(if total m ≠ 0 then 2 * m 1 / total m - 1 else 0)]

/-- cummingtonite.c 1223-1234. -/
def Cummingtonite.dm (m : Fin 2 → ℝ) (j : Fin 2) : Fin 1 → ℝ :=
  if total m = 0 then fun _ => 0 else
  ![(if j = 1 then 2 * (1 - m 1 / total m) / total m else (-2) * m 1 / total m ^ 2)]

/-- cummingtonite.c 1236-1255. -/
def Cummingtonite.d2m (m : Fin 2 → ℝ) (j k : Fin 2) : Fin 1 → ℝ :=
  if total m = 0 then fun _ => 0 else
  ![4 * m 1 / total m ^ 3 - (if j = 1 then 2 / total m ^ 2 else 0) - (if k = 1 then 2 / total m ^ 2 else 0)]

/-- cummingtonite.c 1257-1282. -/
def Cummingtonite.d3m (m : Fin 2 → ℝ) (j k l : Fin 2) : Fin 1 → ℝ :=
  if total m = 0 then fun _ => 0 else
  ![(-12) * m 1 / (total m ^ 2) ^ 2 + (if j = 1 then 4 / total m ^ 3 else 0) + (if k = 1 then 4 / total m ^ 3 else 0) + (if l = 1 then 4 / total m ^ 3 else 0)]

/-- cummingtonite.c 1289-1294. -/
def Cummingtonite.fromR (r : Fin 1 → ℝ) : Fin 2 → ℝ :=
  ![(1 - r 0) / 2,
    (1 + r 0) / 2]

/-- cummingtonite.c 1296-1301. -/
def Cummingtonite.dr : Fin 2 → Fin 1 → ℝ :=
  ![![(-1) / 2],
    ![1 / 2]]

/-- The conversions of cummingtonite.c. -/
def Cummingtonite.conv : Conversion 2 1 where
  toR := Cummingtonite.toR
  dm m i j := Cummingtonite.dm m j i
  d2m m i j k := Cummingtonite.d2m m j k i
  d3m m i j k l := Cummingtonite.d3m m j k l i
  fromR := Cummingtonite.fromR
  dr := Cummingtonite.dr

/-- Coefficients of the independent variables (used in the proof only). -/
def Cummingtonite.rows : Fin 1 → Fin 2 → ℝ :=
  ![fun j => 2 * ind (j = 1)]

theorem Cummingtonite.lin_rows (m : Fin 2 → ℝ) : ∀ i, lin (Cummingtonite.rows i) m = (![2 * m 1] : Fin 1 → ℝ) i := by
  intro i
  fin_cases i
  · exact lin_ind1 m 2 1

/-- **C25.** The composition conversions of `cummingtonite.c` are consistent: moles → independent variables → mole
fractions and back agree, fractions sum to one, only proportions matter, and the Jacobian, the second and the
third derivatives returned are the derivatives of the conversions. -/
theorem C25_cummingtonite : Cummingtonite.conv.Consistent := by
  refine Conversion.consistent_of_linear _ Cummingtonite.rows ![(-1)] ?_ ?_ ?_ ?_ ?_ ?_ ?_ ?_
  · intro m hm i
    have e : Cummingtonite.conv.toR m i = Cummingtonite.toR m i := rfl
    rw [e, Cummingtonite.toR, q0, Cummingtonite.lin_rows]
    fin_cases i
    · change ((if total m ≠ 0 then 2 * m 1 / total m - 1 else 0) : ℝ) = (2 * m 1) / total m + (-1)
      rw [if_pos hm]; ring
  · intro m hm i j
    have e : Cummingtonite.conv.dm m i j = Cummingtonite.dm m j i := rfl
    rw [e, Cummingtonite.dm, if_neg hm, q1, Cummingtonite.lin_rows]
    fin_cases i
    · change ((if j = 1 then 2 * (1 - m 1 / total m) / total m else (-2) * m 1 / total m ^ 2) : ℝ) = (2 * ind (j = 1)) / total m - (2 * m 1) / total m ^ 2
      simp only [ite_ind]; ring
  · intro m hm i j k
    have e : Cummingtonite.conv.d2m m i j k = Cummingtonite.d2m m j k i := rfl
    rw [e, Cummingtonite.d2m, if_neg hm, q2, Cummingtonite.lin_rows]
    fin_cases i
    · change (4 * m 1 / total m ^ 3 - (if j = 1 then 2 / total m ^ 2 else 0) - (if k = 1 then 2 / total m ^ 2 else 0) : ℝ) = 2 * (2 * m 1) / total m ^ 3 - (2 * ind (j = 1)) / total m ^ 2 - (2 * ind (k = 1)) / total m ^ 2
      simp only [ite_ind]; ring
  · intro m hm i j k l
    have e : Cummingtonite.conv.d3m m i j k l = Cummingtonite.d3m m j k l i := rfl
    rw [e, Cummingtonite.d3m, if_neg hm, q3, Cummingtonite.lin_rows]
    fin_cases i
    · change ((-12) * m 1 / (total m ^ 2) ^ 2 + (if j = 1 then 4 / total m ^ 3 else 0) + (if k = 1 then 4 / total m ^ 3 else 0) + (if l = 1 then 4 / total m ^ 3 else 0) : ℝ) = -6 * (2 * m 1) / total m ^ 4 + 2 * (2 * ind (j = 1)) / total m ^ 3 + 2 * (2 * ind (k = 1)) / total m ^ 3 + 2 * (2 * ind (l = 1)) / total m ^ 3
      simp only [ite_ind]; ring
  · intro m hm i
    have ht : total m = m 0 + m 1 := fin_sum_2 m
    have e : Cummingtonite.conv.fromR (Cummingtonite.conv.toR m) i = Cummingtonite.fromR ![2 * m 1 / total m - 1] i := by
      change Cummingtonite.fromR (Cummingtonite.toR m) i = _
      simp only [Cummingtonite.toR, if_pos hm]
    rw [e]
    fin_cases i
    · change ((1 - (2 * m 1 / total m - 1)) / 2 : ℝ) = m 0 / total m
      field_simp
      rw [ht]; ring
    · change ((1 + (2 * m 1 / total m - 1)) / 2 : ℝ) = m 1 / total m
      field_simp
      try ring
  · intro r
    change ∑ i, Cummingtonite.fromR r i = 1
    rw [fin_sum_2]
    change (((1 - r 0) / 2) + ((1 + r 0) / 2) : ℝ) = 1
    ring
  · intro r _
    have ht : total (Cummingtonite.fromR r) = 1 := by
      change ∑ i, Cummingtonite.fromR r i = 1
      rw [fin_sum_2]
      change (((1 - r 0) / 2) + ((1 + r 0) / 2) : ℝ) = 1
      ring
    have h1 : (1 : ℝ) ≠ 0 := one_ne_zero
    funext i
    change Cummingtonite.toR (Cummingtonite.fromR r) i = r i
    simp only [Cummingtonite.toR, ht, if_pos h1]
    fin_cases i
    · change (2 * ((1 + r 0) / 2) / 1 - 1 : ℝ) = r 0
      ring
  · intro r i
    change Cummingtonite.fromR r i = Cummingtonite.fromR (fun _ => 0) i + ∑ j, Cummingtonite.dr i j * r j
    rw [fin_sum_1]
    fin_cases i
    · change ((1 - r 0) / 2 : ℝ) = ((1 - 0) / 2) + (((-1) / 2) * r 0)
      ring
    · change ((1 + r 0) / 2 : ℝ) = ((1 + 0) / 2) + ((1 / 2) * r 0)
      ring

/-! ### OrthoOxide -/

/-- ortho-oxide.c 1995-2001. -/
def OrthoOxide.toR (m : Fin 3 → ℝ) : Fin 2 → ℝ :=
  ![(if total m ≠ 0 then m 1 / total m else 0),
    (if total m ≠ 0 then m 2 / total m else 0)]

/-- ortho-oxide.c 2009-2020. -/
def OrthoOxide.dm (m : Fin 3 → ℝ) (j : Fin 3) : Fin 2 → ℝ :=
  if total m = 0 then fun _ => 0 else
  ![(if j = 1 then (1 - m 1 / total m) / total m else (-m 1) / total m ^ 2),
    (if j = 2 then (1 - m 2 / total m) / total m else (-m 2) / total m ^ 2)]

/-- ortho-oxide.c 2022-2043. -/
def OrthoOxide.d2m (m : Fin 3 → ℝ) (j k : Fin 3) : Fin 2 → ℝ :=
  if total m = 0 then fun _ => 0 else
  ![2 * m 1 / total m ^ 3 - (if j = 1 then 1 / total m ^ 2 else 0) - (if k = 1 then 1 / total m ^ 2 else 0),
    2 * m 2 / total m ^ 3 - (if j = 2 then 1 / total m ^ 2 else 0) - (if k = 2 then 1 / total m ^ 2 else 0)]

/-- ortho-oxide.c 2045-2073. -/
def OrthoOxide.d3m (m : Fin 3 → ℝ) (j k l : Fin 3) : Fin 2 → ℝ :=
  if total m = 0 then fun _ => 0 else
  ![(-6) * m 1 / total m ^ 4 + (if j = 1 then 2 / total m ^ 3 else 0) + (if k = 1 then 2 / total m ^ 3 else 0) + (if l = 1 then 2 / total m ^ 3 else 0),
    (-6) * m 2 / total m ^ 4 + (if j = 2 then 2 / total m ^ 3 else 0) + (if k = 2 then 2 / total m ^ 3 else 0) + (if l = 2 then 2 / total m ^ 3 else 0)]

/-- ortho-oxide.c 2081-2087. -/
def OrthoOxide.fromR (r : Fin 2 → ℝ) : Fin 3 → ℝ :=
  ![1 - r 0 - r 1,
    r 0,
    r 1]

/-- ortho-oxide.c 2089-2095. -/
def OrthoOxide.dr : Fin 3 → Fin 2 → ℝ :=
  ![![-1, -1],
    ![1, 0],
    ![0, 1]]

/-- The conversions of ortho-oxide.c. -/
def OrthoOxide.conv : Conversion 3 2 where
  toR := OrthoOxide.toR
  dm m i j := OrthoOxide.dm m j i
  d2m m i j k := OrthoOxide.d2m m j k i
  d3m m i j k l := OrthoOxide.d3m m j k l i
  fromR := OrthoOxide.fromR
  dr := OrthoOxide.dr

/-- Coefficients of the independent variables (used in the proof only). -/
def OrthoOxide.rows : Fin 2 → Fin 3 → ℝ :=
  ![fun j => 1 * ind (j = 1),
    fun j => 1 * ind (j = 2)]

theorem OrthoOxide.lin_rows (m : Fin 3 → ℝ) : ∀ i, lin (OrthoOxide.rows i) m = (![1 * m 1, 1 * m 2] : Fin 2 → ℝ) i := by
  intro i
  fin_cases i
  · exact lin_ind1 m 1 1
  · exact lin_ind1 m 1 2

/-- **C25.** The composition conversions of `ortho-oxide.c` are consistent: moles → independent variables → mole
fractions and back agree, fractions sum to one, only proportions matter, and the Jacobian, the second and the
third derivatives returned are the derivatives of the conversions. -/
theorem C25_orthoOxide : OrthoOxide.conv.Consistent := by
  refine Conversion.consistent_of_linear _ OrthoOxide.rows ![0, 0] ?_ ?_ ?_ ?_ ?_ ?_ ?_ ?_
  · intro m hm i
    have e : OrthoOxide.conv.toR m i = OrthoOxide.toR m i := rfl
    rw [e, OrthoOxide.toR, q0, OrthoOxide.lin_rows]
    fin_cases i
    · change ((if total m ≠ 0 then m 1 / total m else 0) : ℝ) = (1 * m 1) / total m + 0
      rw [if_pos hm]; ring
    · change ((if total m ≠ 0 then m 2 / total m else 0) : ℝ) = (1 * m 2) / total m + 0
      rw [if_pos hm]; ring
  · intro m hm i j
    have e : OrthoOxide.conv.dm m i j = OrthoOxide.dm m j i := rfl
    rw [e, OrthoOxide.dm, if_neg hm, q1, OrthoOxide.lin_rows]
    fin_cases i
    · change ((if j = 1 then (1 - m 1 / total m) / total m else (-m 1) / total m ^ 2) : ℝ) = (1 * ind (j = 1)) / total m - (1 * m 1) / total m ^ 2
      simp only [ite_ind]; ring
    · change ((if j = 2 then (1 - m 2 / total m) / total m else (-m 2) / total m ^ 2) : ℝ) = (1 * ind (j = 2)) / total m - (1 * m 2) / total m ^ 2
      simp only [ite_ind]; ring
  · intro m hm i j k
    have e : OrthoOxide.conv.d2m m i j k = OrthoOxide.d2m m j k i := rfl
    rw [e, OrthoOxide.d2m, if_neg hm, q2, OrthoOxide.lin_rows]
    fin_cases i
    · change (2 * m 1 / total m ^ 3 - (if j = 1 then 1 / total m ^ 2 else 0) - (if k = 1 then 1 / total m ^ 2 else 0) : ℝ) = 2 * (1 * m 1) / total m ^ 3 - (1 * ind (j = 1)) / total m ^ 2 - (1 * ind (k = 1)) / total m ^ 2
      simp only [ite_ind]; ring
    · change (2 * m 2 / total m ^ 3 - (if j = 2 then 1 / total m ^ 2 else 0) - (if k = 2 then 1 / total m ^ 2 else 0) : ℝ) = 2 * (1 * m 2) / total m ^ 3 - (1 * ind (j = 2)) / total m ^ 2 - (1 * ind (k = 2)) / total m ^ 2
      simp only [ite_ind]; ring
  · intro m hm i j k l
    have e : OrthoOxide.conv.d3m m i j k l = OrthoOxide.d3m m j k l i := rfl
    rw [e, OrthoOxide.d3m, if_neg hm, q3, OrthoOxide.lin_rows]
    fin_cases i
    · change ((-6) * m 1 / total m ^ 4 + (if j = 1 then 2 / total m ^ 3 else 0) + (if k = 1 then 2 / total m ^ 3 else 0) + (if l = 1 then 2 / total m ^ 3 else 0) : ℝ) = -6 * (1 * m 1) / total m ^ 4 + 2 * (1 * ind (j = 1)) / total m ^ 3 + 2 * (1 * ind (k = 1)) / total m ^ 3 + 2 * (1 * ind (l = 1)) / total m ^ 3
      simp only [ite_ind]; ring
    · change ((-6) * m 2 / total m ^ 4 + (if j = 2 then 2 / total m ^ 3 else 0) + (if k = 2 then 2 / total m ^ 3 else 0) + (if l = 2 then 2 / total m ^ 3 else 0) : ℝ) = -6 * (1 * m 2) / total m ^ 4 + 2 * (1 * ind (j = 2)) / total m ^ 3 + 2 * (1 * ind (k = 2)) / total m ^ 3 + 2 * (1 * ind (l = 2)) / total m ^ 3
      simp only [ite_ind]; ring
  · intro m hm i
    have ht : total m = m 0 + m 1 + m 2 := fin_sum_3 m
    have e : OrthoOxide.conv.fromR (OrthoOxide.conv.toR m) i = OrthoOxide.fromR ![m 1 / total m, m 2 / total m] i := by
      change OrthoOxide.fromR (OrthoOxide.toR m) i = _
      simp only [OrthoOxide.toR, if_pos hm]
    rw [e]
    fin_cases i
    · change (1 - (m 1 / total m) - (m 2 / total m) : ℝ) = m 0 / total m
      field_simp
      rw [ht]; ring
    · change ((m 1 / total m) : ℝ) = m 1 / total m
      field_simp
      try ring
    · change ((m 2 / total m) : ℝ) = m 2 / total m
      field_simp
      try ring
  · intro r
    change ∑ i, OrthoOxide.fromR r i = 1
    rw [fin_sum_3]
    change ((1 - r 0 - r 1) + (r 0) + (r 1) : ℝ) = 1
    ring
  · intro r _
    have ht : total (OrthoOxide.fromR r) = 1 := by
      change ∑ i, OrthoOxide.fromR r i = 1
      rw [fin_sum_3]
      change ((1 - r 0 - r 1) + (r 0) + (r 1) : ℝ) = 1
      ring
    have h1 : (1 : ℝ) ≠ 0 := one_ne_zero
    funext i
    change OrthoOxide.toR (OrthoOxide.fromR r) i = r i
    simp only [OrthoOxide.toR, ht, if_pos h1]
    fin_cases i
    · change ((r 0) / 1 : ℝ) = r 0
      ring
    · change ((r 1) / 1 : ℝ) = r 1
      ring
  · intro r i
    change OrthoOxide.fromR r i = OrthoOxide.fromR (fun _ => 0) i + ∑ j, OrthoOxide.dr i j * r j
    rw [fin_sum_2]
    fin_cases i
    · change (1 - r 0 - r 1 : ℝ) = (1 - 0 - 0) + ((-1) * r 0 + (-1) * r 1)
      ring
    · change (r 0 : ℝ) = (0) + ((1) * r 0 + (0) * r 1)
      ring
    · change (r 1 : ℝ) = (0) + ((0) * r 0 + (1) * r 1)
      ring

/-! ### Rhombohedral -/

/-- rhombohedral.c 2300-2307. -/
def Rhombohedral.toR (m : Fin 4 → ℝ) : Fin 3 → ℝ :=
  ![(if total m ≠ 0 then m 2 / total m else 0),
    (if total m ≠ 0 then m 0 / total m else 0),
    (if total m ≠ 0 then m 3 / total m else 0)]

/-- rhombohedral.c 2315-2327. -/
def Rhombohedral.dm (m : Fin 4 → ℝ) (j : Fin 4) : Fin 3 → ℝ :=
  if total m = 0 then fun _ => 0 else
  ![(if j = 2 then (1 - m 2 / total m) / total m else (-m 2) / total m ^ 2),
    (if j = 0 then (1 - m 0 / total m) / total m else (-m 0) / total m ^ 2),
    (if j = 3 then (1 - m 3 / total m) / total m else (-m 3) / total m ^ 2)]

/-- rhombohedral.c 2329-2353. -/
def Rhombohedral.d2m (m : Fin 4 → ℝ) (j k : Fin 4) : Fin 3 → ℝ :=
  if total m = 0 then fun _ => 0 else
  ![2 * m 2 / total m ^ 3 - (if j = 2 then 1 / total m ^ 2 else 0) - (if k = 2 then 1 / total m ^ 2 else 0),
    2 * m 0 / total m ^ 3 - (if j = 0 then 1 / total m ^ 2 else 0) - (if k = 0 then 1 / total m ^ 2 else 0),
    2 * m 3 / total m ^ 3 - (if j = 3 then 1 / total m ^ 2 else 0) - (if k = 3 then 1 / total m ^ 2 else 0)]

/-- rhombohedral.c 2355-2387. -/
def Rhombohedral.d3m (m : Fin 4 → ℝ) (j k l : Fin 4) : Fin 3 → ℝ :=
  if total m = 0 then fun _ => 0 else
  ![(-6) * m 2 / total m ^ 4 + (if j = 2 then 2 / total m ^ 3 else 0) + (if k = 2 then 2 / total m ^ 3 else 0) + (if l = 2 then 2 / total m ^ 3 else 0),
    (-6) * m 0 / total m ^ 4 + (if j = 0 then 2 / total m ^ 3 else 0) + (if k = 0 then 2 / total m ^ 3 else 0) + (if l = 0 then 2 / total m ^ 3 else 0),
    (-6) * m 3 / total m ^ 4 + (if j = 3 then 2 / total m ^ 3 else 0) + (if k = 3 then 2 / total m ^ 3 else 0) + (if l = 3 then 2 / total m ^ 3 else 0)]

/-- rhombohedral.c 2395-2402. -/
def Rhombohedral.fromR (r : Fin 3 → ℝ) : Fin 4 → ℝ :=
  ![r 1,
    1 - r 0 - r 1 - r 2,
    r 0,
    r 2]

/-- rhombohedral.c 2404-2411. -/
def Rhombohedral.dr : Fin 4 → Fin 3 → ℝ :=
  ![![0, 1, 0],
    ![-1, -1, -1],
    ![1, 0, 0],
    ![0, 0, 1]]

/-- The conversions of rhombohedral.c. -/
def Rhombohedral.conv : Conversion 4 3 where
  toR := Rhombohedral.toR
  dm m i j := Rhombohedral.dm m j i
  d2m m i j k := Rhombohedral.d2m m j k i
  d3m m i j k l := Rhombohedral.d3m m j k l i
  fromR := Rhombohedral.fromR
  dr := Rhombohedral.dr

/-- Coefficients of the independent variables (used in the proof only). -/
def Rhombohedral.rows : Fin 3 → Fin 4 → ℝ :=
  ![fun j => 1 * ind (j = 2),
    fun j => 1 * ind (j = 0),
    fun j => 1 * ind (j = 3)]

theorem Rhombohedral.lin_rows (m : Fin 4 → ℝ) : ∀ i, lin (Rhombohedral.rows i) m = (![1 * m 2, 1 * m 0, 1 * m 3] : Fin 3 → ℝ) i := by
  intro i
  fin_cases i
  · exact lin_ind1 m 1 2
  · exact lin_ind1 m 1 0
  · exact lin_ind1 m 1 3

/-- **C25.** The composition conversions of `rhombohedral.c` are consistent: moles → independent variables → mole
fractions and back agree, fractions sum to one, only proportions matter, and the Jacobian, the second and the
third derivatives returned are the derivatives of the conversions. -/
theorem C25_rhombohedral : Rhombohedral.conv.Consistent := by
  refine Conversion.consistent_of_linear _ Rhombohedral.rows ![0, 0, 0] ?_ ?_ ?_ ?_ ?_ ?_ ?_ ?_
  · intro m hm i
    have e : Rhombohedral.conv.toR m i = Rhombohedral.toR m i := rfl
    rw [e, Rhombohedral.toR, q0, Rhombohedral.lin_rows]
    fin_cases i
    · change ((if total m ≠ 0 then m 2 / total m else 0) : ℝ) = (1 * m 2) / total m + 0
      rw [if_pos hm]; ring
    · change ((if total m ≠ 0 then m 0 / total m else 0) : ℝ) = (1 * m 0) / total m + 0
      rw [if_pos hm]; ring
    · change ((if total m ≠ 0 then m 3 / total m else 0) : ℝ) = (1 * m 3) / total m + 0
      rw [if_pos hm]; ring
  · intro m hm i j
    have e : Rhombohedral.conv.dm m i j = Rhombohedral.dm m j i := rfl
    rw [e, Rhombohedral.dm, if_neg hm, q1, Rhombohedral.lin_rows]
    fin_cases i
    · change ((if j = 2 then (1 - m 2 / total m) / total m else (-m 2) / total m ^ 2) : ℝ) = (1 * ind (j = 2)) / total m - (1 * m 2) / total m ^ 2
      simp only [ite_ind]; ring
    · change ((if j = 0 then (1 - m 0 / total m) / total m else (-m 0) / total m ^ 2) : ℝ) = (1 * ind (j = 0)) / total m - (1 * m 0) / total m ^ 2
      simp only [ite_ind]; ring
    · change ((if j = 3 then (1 - m 3 / total m) / total m else (-m 3) / total m ^ 2) : ℝ) = (1 * ind (j = 3)) / total m - (1 * m 3) / total m ^ 2
      simp only [ite_ind]; ring
  · intro m hm i j k
    have e : Rhombohedral.conv.d2m m i j k = Rhombohedral.d2m m j k i := rfl
    rw [e, Rhombohedral.d2m, if_neg hm, q2, Rhombohedral.lin_rows]
    fin_cases i
    · change (2 * m 2 / total m ^ 3 - (if j = 2 then 1 / total m ^ 2 else 0) - (if k = 2 then 1 / total m ^ 2 else 0) : ℝ) = 2 * (1 * m 2) / total m ^ 3 - (1 * ind (j = 2)) / total m ^ 2 - (1 * ind (k = 2)) / total m ^ 2
      simp only [ite_ind]; ring
    · change (2 * m 0 / total m ^ 3 - (if j = 0 then 1 / total m ^ 2 else 0) - (if k = 0 then 1 / total m ^ 2 else 0) : ℝ) = 2 * (1 * m 0) / total m ^ 3 - (1 * ind (j = 0)) / total m ^ 2 - (1 * ind (k = 0)) / total m ^ 2
      simp only [ite_ind]; ring
    · change (2 * m 3 / total m ^ 3 - (if j = 3 then 1 / total m ^ 2 else 0) - (if k = 3 then 1 / total m ^ 2 else 0) : ℝ) = 2 * (1 * m 3) / total m ^ 3 - (1 * ind (j = 3)) / total m ^ 2 - (1 * ind (k = 3)) / total m ^ 2
      simp only [ite_ind]; ring
  · intro m hm i j k l
    have e : Rhombohedral.conv.d3m m i j k l = Rhombohedral.d3m m j k l i := rfl
    rw [e, Rhombohedral.d3m, if_neg hm, q3, Rhombohedral.lin_rows]
    fin_cases i
    · change ((-6) * m 2 / total m ^ 4 + (if j = 2 then 2 / total m ^ 3 else 0) + (if k = 2 then 2 / total m ^ 3 else 0) + (if l = 2 then 2 / total m ^ 3 else 0) : ℝ) = -6 * (1 * m 2) / total m ^ 4 + 2 * (1 * ind (j = 2)) / total m ^ 3 + 2 * (1 * ind (k = 2)) / total m ^ 3 + 2 * (1 * ind (l = 2)) / total m ^ 3
      simp only [ite_ind]; ring
    · change ((-6) * m 0 / total m ^ 4 + (if j = 0 then 2 / total m ^ 3 else 0) + (if k = 0 then 2 / total m ^ 3 else 0) + (if l = 0 then 2 / total m ^ 3 else 0) : ℝ) = -6 * (1 * m 0) / total m ^ 4 + 2 * (1 * ind (j = 0)) / total m ^ 3 + 2 * (1 * ind (k = 0)) / total m ^ 3 + 2 * (1 * ind (l = 0)) / total m ^ 3
      simp only [ite_ind]; ring
    · change ((-6) * m 3 / total m ^ 4 + (if j = 3 then 2 / total m ^ 3 else 0) + (if k = 3 then 2 / total m ^ 3 else 0) + (if l = 3 then 2 / total m ^ 3 else 0) : ℝ) = -6 * (1 * m 3) / total m ^ 4 + 2 * (1 * ind (j = 3)) / total m ^ 3 + 2 * (1 * ind (k = 3)) / total m ^ 3 + 2 * (1 * ind (l = 3)) / total m ^ 3
      simp only [ite_ind]; ring
  · intro m hm i
    have ht : total m = m 0 + m 1 + m 2 + m 3 := fin_sum_4 m
    have e : Rhombohedral.conv.fromR (Rhombohedral.conv.toR m) i = Rhombohedral.fromR ![m 2 / total m, m 0 / total m, m 3 / total m] i := by
      change Rhombohedral.fromR (Rhombohedral.toR m) i = _
      simp only [Rhombohedral.toR, if_pos hm]
    rw [e]
    fin_cases i
    · change ((m 0 / total m) : ℝ) = m 0 / total m
      field_simp
      try ring
    · change (1 - (m 2 / total m) - (m 0 / total m) - (m 3 / total m) : ℝ) = m 1 / total m
      field_simp
      rw [ht]; ring
    · change ((m 2 / total m) : ℝ) = m 2 / total m
      field_simp
      try ring
    · change ((m 3 / total m) : ℝ) = m 3 / total m
      field_simp
      try ring
  · intro r
    change ∑ i, Rhombohedral.fromR r i = 1
    rw [fin_sum_4]
    change ((r 1) + (1 - r 0 - r 1 - r 2) + (r 0) + (r 2) : ℝ) = 1
    ring
  · intro r _
    have ht : total (Rhombohedral.fromR r) = 1 := by
      change ∑ i, Rhombohedral.fromR r i = 1
      rw [fin_sum_4]
      change ((r 1) + (1 - r 0 - r 1 - r 2) + (r 0) + (r 2) : ℝ) = 1
      ring
    have h1 : (1 : ℝ) ≠ 0 := one_ne_zero
    funext i
    change Rhombohedral.toR (Rhombohedral.fromR r) i = r i
    simp only [Rhombohedral.toR, ht, if_pos h1]
    fin_cases i
    · change ((r 0) / 1 : ℝ) = r 0
      ring
    · change ((r 1) / 1 : ℝ) = r 1
      ring
    · change ((r 2) / 1 : ℝ) = r 2
      ring
  · intro r i
    change Rhombohedral.fromR r i = Rhombohedral.fromR (fun _ => 0) i + ∑ j, Rhombohedral.dr i j * r j
    rw [fin_sum_3]
    fin_cases i
    · change (r 1 : ℝ) = (0) + ((0) * r 0 + (1) * r 1 + (0) * r 2)
      ring
    · change (1 - r 0 - r 1 - r 2 : ℝ) = (1 - 0 - 0 - 0) + ((-1) * r 0 + (-1) * r 1 + (-1) * r 2)
      ring
    · change (r 0 : ℝ) = (0) + ((1) * r 0 + (0) * r 1 + (0) * r 2)
      ring
    · change (r 2 : ℝ) = (0) + ((0) * r 0 + (0) * r 1 + (1) * r 2)
      ring

/-! ### Spinel -/

/-- spinel.c 2821-2829. -/
def Spinel.toR (m : Fin 5 → ℝ) : Fin 4 → ℝ :=
  ![(if total m ≠ 0 then m 3 / total m else 0),
    (if total m ≠ 0 then m 0 / total m else 0),
    (if total m ≠ 0 then m 4 / total m else 0),
    (if total m ≠ 0 then m 2 / total m else 0)]

/-- spinel.c 2837-2851. -/
def Spinel.dm (m : Fin 5 → ℝ) (j : Fin 5) : Fin 4 → ℝ :=
  if total m = 0 then fun _ => 0 else
  ![(if j = 3 then (1 - m 3 / total m) / total m else (-m 3) / total m ^ 2),
    (if j = 0 then (1 - m 0 / total m) / total m else (-m 0) / total m ^ 2),
    (if j = 4 then (1 - m 4 / total m) / total m else (-m 4) / total m ^ 2),
    (if j = 2 then (1 - m 2 / total m) / total m else (-m 2) / total m ^ 2)]

/-- spinel.c 2853-2881. -/
def Spinel.d2m (m : Fin 5 → ℝ) (j k : Fin 5) : Fin 4 → ℝ :=
  if total m = 0 then fun _ => 0 else
  ![2 * m 3 / total m ^ 3 - (if j = 3 then 1 / total m ^ 2 else 0) - (if k = 3 then 1 / total m ^ 2 else 0),
    2 * m 0 / total m ^ 3 - (if j = 0 then 1 / total m ^ 2 else 0) - (if k = 0 then 1 / total m ^ 2 else 0),
    2 * m 4 / total m ^ 3 - (if j = 4 then 1 / total m ^ 2 else 0) - (if k = 4 then 1 / total m ^ 2 else 0),
    2 * m 2 / total m ^ 3 - (if j = 2 then 1 / total m ^ 2 else 0) - (if k = 2 then 1 / total m ^ 2 else 0)]

/-- spinel.c 2883-2919. -/
def Spinel.d3m (m : Fin 5 → ℝ) (j k l : Fin 5) : Fin 4 → ℝ :=
  if total m = 0 then fun _ => 0 else
  ![(-6) * m 3 / total m ^ 4 + (if j = 3 then 2 / total m ^ 3 else 0) + (if k = 3 then 2 / total m ^ 3 else 0) + (if l = 3 then 2 / total m ^ 3 else 0),
    (-6) * m 0 / total m ^ 4 + (if j = 0 then 2 / total m ^ 3 else 0) + (if k = 0 then 2 / total m ^ 3 else 0) + (if l = 0 then 2 / total m ^ 3 else 0),
    (-6) * m 4 / total m ^ 4 + (if j = 4 then 2 / total m ^ 3 else 0) + (if k = 4 then 2 / total m ^ 3 else 0) + (if l = 4 then 2 / total m ^ 3 else 0),
    (-6) * m 2 / total m ^ 4 + (if j = 2 then 2 / total m ^ 3 else 0) + (if k = 2 then 2 / total m ^ 3 else 0) + (if l = 2 then 2 / total m ^ 3 else 0)]

/-- spinel.c 2927-2935. -/
def Spinel.fromR (r : Fin 4 → ℝ) : Fin 5 → ℝ :=
  ![r 1,
    1 - r 0 - r 1 - r 2 - r 3,
    r 3,
    r 0,
    r 2]

/-- spinel.c 2937-2945. -/
def Spinel.dr : Fin 5 → Fin 4 → ℝ :=
  ![![0, 1, 0, 0],
    ![-1, -1, -1, -1],
    ![0, 0, 0, 1],
    ![1, 0, 0, 0],
    ![0, 0, 1, 0]]

/-- The conversions of spinel.c. -/
def Spinel.conv : Conversion 5 4 where
  toR := Spinel.toR
  dm m i j := Spinel.dm m j i
  d2m m i j k := Spinel.d2m m j k i
  d3m m i j k l := Spinel.d3m m j k l i
  fromR := Spinel.fromR
  dr := Spinel.dr

/-- Coefficients of the independent variables (used in the proof only). -/
def Spinel.rows : Fin 4 → Fin 5 → ℝ :=
  ![fun j => 1 * ind (j = 3),
    fun j => 1 * ind (j = 0),
    fun j => 1 * ind (j = 4),
    fun j => 1 * ind (j = 2)]

theorem Spinel.lin_rows (m : Fin 5 → ℝ) : ∀ i, lin (Spinel.rows i) m = (![1 * m 3, 1 * m 0, 1 * m 4, 1 * m 2] : Fin 4 → ℝ) i := by
  intro i
  fin_cases i
  · exact lin_ind1 m 1 3
  · exact lin_ind1 m 1 0
  · exact lin_ind1 m 1 4
  · exact lin_ind1 m 1 2

/-- **C25.** The composition conversions of `spinel.c` are consistent: moles → independent variables → mole
fractions and back agree, fractions sum to one, only proportions matter, and the Jacobian, the second and the
third derivatives returned are the derivatives of the conversions. -/
theorem C25_spinel : Spinel.conv.Consistent := by
  refine Conversion.consistent_of_linear _ Spinel.rows ![0, 0, 0, 0] ?_ ?_ ?_ ?_ ?_ ?_ ?_ ?_
  · intro m hm i
    have e : Spinel.conv.toR m i = Spinel.toR m i := rfl
    rw [e, Spinel.toR, q0, Spinel.lin_rows]
    fin_cases i
    · change ((if total m ≠ 0 then m 3 / total m else 0) : ℝ) = (1 * m 3) / total m + 0
      rw [if_pos hm]; ring
    · change ((if total m ≠ 0 then m 0 / total m else 0) : ℝ) = (1 * m 0) / total m + 0
      rw [if_pos hm]; ring
    · change ((if total m ≠ 0 then m 4 / total m else 0) : ℝ) = (1 * m 4) / total m + 0
      rw [if_pos hm]; ring
    · change ((if total m ≠ 0 then m 2 / total m else 0) : ℝ) = (1 * m 2) / total m + 0
      rw [if_pos hm]; ring
  · intro m hm i j
    have e : Spinel.conv.dm m i j = Spinel.dm m j i := rfl
    rw [e, Spinel.dm, if_neg hm, q1, Spinel.lin_rows]
    fin_cases i
    · change ((if j = 3 then (1 - m 3 / total m) / total m else (-m 3) / total m ^ 2) : ℝ) = (1 * ind (j = 3)) / total m - (1 * m 3) / total m ^ 2
      simp only [ite_ind]; ring
    · change ((if j = 0 then (1 - m 0 / total m) / total m else (-m 0) / total m ^ 2) : ℝ) = (1 * ind (j = 0)) / total m - (1 * m 0) / total m ^ 2
      simp only [ite_ind]; ring
    · change ((if j = 4 then (1 - m 4 / total m) / total m else (-m 4) / total m ^ 2) : ℝ) = (1 * ind (j = 4)) / total m - (1 * m 4) / total m ^ 2
      simp only [ite_ind]; ring
    · change ((if j = 2 then (1 - m 2 / total m) / total m else (-m 2) / total m ^ 2) : ℝ) = (1 * ind (j = 2)) / total m - (1 * m 2) / total m ^ 2
      simp only [ite_ind]; ring
  · intro m hm i j k
    have e : Spinel.conv.d2m m i j k = Spinel.d2m m j k i := rfl
    rw [e, Spinel.d2m, if_neg hm, q2, Spinel.lin_rows]
    fin_cases i
    · change (2 * m 3 / total m ^ 3 - (if j = 3 then 1 / total m ^ 2 else 0) - (if k = 3 then 1 / total m ^ 2 else 0) : ℝ) = 2 * (1 * m 3) / total m ^ 3 - (1 * ind (j = 3)) / total m ^ 2 - (1 * ind (k = 3)) / total m ^ 2
      simp only [ite_ind]; ring
    · change (2 * m 0 / total m ^ 3 - (if j = 0 then 1 / total m ^ 2 else 0) - (if k = 0 then 1 / total m ^ 2 else 0) : ℝ) = 2 * (1 * m 0) / total m ^ 3 - (1 * ind (j = 0)) / total m ^ 2 - (1 * ind (k = 0)) / total m ^ 2
      simp only [ite_ind]; ring
    · change (2 * m 4 / total m ^ 3 - (if j = 4 then 1 / total m ^ 2 else 0) - (if k = 4 then 1 / total m ^ 2 else 0) : ℝ) = 2 * (1 * m 4) / total m ^ 3 - (1 * ind (j = 4)) / total m ^ 2 - (1 * ind (k = 4)) / total m ^ 2
      simp only [ite_ind]; ring
    · change (2 * m 2 / total m ^ 3 - (if j = 2 then 1 / total m ^ 2 else 0) - (if k = 2 then 1 / total m ^ 2 else 0) : ℝ) = 2 * (1 * m 2) / total m ^ 3 - (1 * ind (j = 2)) / total m ^ 2 - (1 * ind (k = 2)) / total m ^ 2
      simp only [ite_ind]; ring
  · intro m hm i j k l
    have e : Spinel.conv.d3m m i j k l = Spinel.d3m m j k l i := rfl
    rw [e, Spinel.d3m, if_neg hm, q3, Spinel.lin_rows]
    fin_cases i
    · change ((-6) * m 3 / total m ^ 4 + (if j = 3 then 2 / total m ^ 3 else 0) + (if k = 3 then 2 / total m ^ 3 else 0) + (if l = 3 then 2 / total m ^ 3 else 0) : ℝ) = -6 * (1 * m 3) / total m ^ 4 + 2 * (1 * ind (j = 3)) / total m ^ 3 + 2 * (1 * ind (k = 3)) / total m ^ 3 + 2 * (1 * ind (l = 3)) / total m ^ 3
      simp only [ite_ind]; ring
    · change ((-6) * m 0 / total m ^ 4 + (if j = 0 then 2 / total m ^ 3 else 0) + (if k = 0 then 2 / total m ^ 3 else 0) + (if l = 0 then 2 / total m ^ 3 else 0) : ℝ) = -6 * (1 * m 0) / total m ^ 4 + 2 * (1 * ind (j = 0)) / total m ^ 3 + 2 * (1 * ind (k = 0)) / total m ^ 3 + 2 * (1 * ind (l = 0)) / total m ^ 3
      simp only [ite_ind]; ring
    · change ((-6) * m 4 / total m ^ 4 + (if j = 4 then 2 / total m ^ 3 else 0) + (if k = 4 then 2 / total m ^ 3 else 0) + (if l = 4 then 2 / total m ^ 3 else 0) : ℝ) = -6 * (1 * m 4) / total m ^ 4 + 2 * (1 * ind (j = 4)) / total m ^ 3 + 2 * (1 * ind (k = 4)) / total m ^ 3 + 2 * (1 * ind (l = 4)) / total m ^ 3
      simp only [ite_ind]; ring
    · change ((-6) * m 2 / total m ^ 4 + (if j = 2 then 2 / total m ^ 3 else 0) + (if k = 2 then 2 / total m ^ 3 else 0) + (if l = 2 then 2 / total m ^ 3 else 0) : ℝ) = -6 * (1 * m 2) / total m ^ 4 + 2 * (1 * ind (j = 2)) / total m ^ 3 + 2 * (1 * ind (k = 2)) / total m ^ 3 + 2 * (1 * ind (l = 2)) / total m ^ 3
      simp only [ite_ind]; ring
  · intro m hm i
    have ht : total m = m 0 + m 1 + m 2 + m 3 + m 4 := fin_sum_5 m
    have e : Spinel.conv.fromR (Spinel.conv.toR m) i = Spinel.fromR ![m 3 / total m, m 0 / total m, m 4 / total m, m 2 / total m] i := by
      change Spinel.fromR (Spinel.toR m) i = _
      simp only [Spinel.toR, if_pos hm]
    rw [e]
    fin_cases i
    · change ((m 0 / total m) : ℝ) = m 0 / total m
      field_simp
      try ring
    · change (1 - (m 3 / total m) - (m 0 / total m) - (m 4 / total m) - (m 2 / total m) : ℝ) = m 1 / total m
      field_simp
      rw [ht]; ring
    · change ((m 2 / total m) : ℝ) = m 2 / total m
      field_simp
      try ring
    · change ((m 3 / total m) : ℝ) = m 3 / total m
      field_simp
      try ring
    · change ((m 4 / total m) : ℝ) = m 4 / total m
      field_simp
      try ring
  · intro r
    change ∑ i, Spinel.fromR r i = 1
    rw [fin_sum_5]
    change ((r 1) + (1 - r 0 - r 1 - r 2 - r 3) + (r 3) + (r 0) + (r 2) : ℝ) = 1
    ring
  · intro r _
    have ht : total (Spinel.fromR r) = 1 := by
      change ∑ i, Spinel.fromR r i = 1
      rw [fin_sum_5]
      change ((r 1) + (1 - r 0 - r 1 - r 2 - r 3) + (r 3) + (r 0) + (r 2) : ℝ) = 1
      ring
    have h1 : (1 : ℝ) ≠ 0 := one_ne_zero
    funext i
    change Spinel.toR (Spinel.fromR r) i = r i
    simp only [Spinel.toR, ht, if_pos h1]
    fin_cases i
    · change ((r 0) / 1 : ℝ) = r 0
      ring
    · change ((r 1) / 1 : ℝ) = r 1
      ring
    · change ((r 2) / 1 : ℝ) = r 2
      ring
    · change ((r 3) / 1 : ℝ) = r 3
      ring
  · intro r i
    change Spinel.fromR r i = Spinel.fromR (fun _ => 0) i + ∑ j, Spinel.dr i j * r j
    rw [fin_sum_4]
    fin_cases i
    · change (r 1 : ℝ) = (0) + ((0) * r 0 + (1) * r 1 + (0) * r 2 + (0) * r 3)
      ring
    · change (1 - r 0 - r 1 - r 2 - r 3 : ℝ) = (1 - 0 - 0 - 0 - 0) + ((-1) * r 0 + (-1) * r 1 + (-1) * r 2 + (-1) * r 3)
      ring
    · change (r 3 : ℝ) = (0) + ((0) * r 0 + (0) * r 1 + (0) * r 2 + (1) * r 3)
      ring
    · change (r 0 : ℝ) = (0) + ((1) * r 0 + (0) * r 1 + (0) * r 2 + (0) * r 3)
      ring
    · change (r 2 : ℝ) = (0) + ((0) * r 0 + (0) * r 1 + (1) * r 2 + (0) * r 3)
      ring

/-! ### Nepheline -/

/-- nepheline.c 1460-1467. -/
def Nepheline.toR (m : Fin 4 → ℝ) : Fin 3 → ℝ :=
  ![(if total m ≠ 0 then m 1 / total m else 0),
    (if total m ≠ 0 then m 2 / total m else 0),
    (if total m ≠ 0 then m 3 / total m else 0)]

/-- nepheline.c 1475-1488. -/
def Nepheline.dm (m : Fin 4 → ℝ) (j : Fin 4) : Fin 3 → ℝ :=
  if total m = 0 then fun _ => 0 else
  ![(if j = 1 then (1 - m 1 / total m) / total m else (-m 1) / total m ^ 2),
    (if j = 2 then (1 - m 2 / total m) / total m else (-m 2) / total m ^ 2),
    (if j = 3 then (1 - m 3 / total m) / total m else (-m 3) / total m ^ 2)]

/-- nepheline.c 1490-1515. -/
def Nepheline.d2m (m : Fin 4 → ℝ) (j k : Fin 4) : Fin 3 → ℝ :=
  if total m = 0 then fun _ => 0 else
  ![2 * m 1 / total m ^ 3 - (if j = 1 then 1 / total m ^ 2 else 0) - (if k = 1 then 1 / total m ^ 2 else 0),
    2 * m 2 / total m ^ 3 - (if j = 2 then 1 / total m ^ 2 else 0) - (if k = 2 then 1 / total m ^ 2 else 0),
    2 * m 3 / total m ^ 3 - (if j = 3 then 1 / total m ^ 2 else 0) - (if k = 3 then 1 / total m ^ 2 else 0)]

/-- nepheline.c 1517-1549. -/
def Nepheline.d3m (m : Fin 4 → ℝ) (j k l : Fin 4) : Fin 3 → ℝ :=
  if total m = 0 then fun _ => 0 else
  ![(-6) * m 1 / total m ^ 4 + (if j = 1 then 2 / total m ^ 3 else 0) + (if k = 1 then 2 / total m ^ 3 else 0) + (if l = 1 then 2 / total m ^ 3 else 0),
    (-6) * m 2 / total m ^ 4 + (if j = 2 then 2 / total m ^ 3 else 0) + (if k = 2 then 2 / total m ^ 3 else 0) + (if l = 2 then 2 / total m ^ 3 else 0),
    (-6) * m 3 / total m ^ 4 + (if j = 3 then 2 / total m ^ 3 else 0) + (if k = 3 then 2 / total m ^ 3 else 0) + (if l = 3 then 2 / total m ^ 3 else 0)]

/-- nepheline.c 1557-1564. -/
def Nepheline.fromR (r : Fin 3 → ℝ) : Fin 4 → ℝ :=
  ![1 - r 0 - r 1 - r 2,
    r 0,
    r 1,
    r 2]

/-- nepheline.c 1566-1573. -/
def Nepheline.dr : Fin 4 → Fin 3 → ℝ :=
  ![![-1, -1, -1],
    ![1, 0, 0],
    ![0, 1, 0],
    ![0, 0, 1]]

/-- The conversions of nepheline.c. -/
def Nepheline.conv : Conversion 4 3 where
  toR := Nepheline.toR
  dm m i j := Nepheline.dm m j i
  d2m m i j k := Nepheline.d2m m j k i
  d3m m i j k l := Nepheline.d3m m j k l i
  fromR := Nepheline.fromR
  dr := Nepheline.dr

/-- Coefficients of the independent variables (used in the proof only). -/
def Nepheline.rows : Fin 3 → Fin 4 → ℝ :=
  ![fun j => 1 * ind (j = 1),
    fun j => 1 * ind (j = 2),
    fun j => 1 * ind (j = 3)]

theorem Nepheline.lin_rows (m : Fin 4 → ℝ) : ∀ i, lin (Nepheline.rows i) m = (![1 * m 1, 1 * m 2, 1 * m 3] : Fin 3 → ℝ) i := by
  intro i
  fin_cases i
  · exact lin_ind1 m 1 1
  · exact lin_ind1 m 1 2
  · exact lin_ind1 m 1 3

/-- **C25.** The composition conversions of `nepheline.c` are consistent: moles → independent variables → mole
fractions and back agree, fractions sum to one, only proportions matter, and the Jacobian, the second and the
third derivatives returned are the derivatives of the conversions. -/
theorem C25_nepheline : Nepheline.conv.Consistent := by
  refine Conversion.consistent_of_linear _ Nepheline.rows ![0, 0, 0] ?_ ?_ ?_ ?_ ?_ ?_ ?_ ?_
  · intro m hm i
    have e : Nepheline.conv.toR m i = Nepheline.toR m i := rfl
    rw [e, Nepheline.toR, q0, Nepheline.lin_rows]
    fin_cases i
    · change ((if total m ≠ 0 then m 1 / total m else 0) : ℝ) = (1 * m 1) / total m + 0
      rw [if_pos hm]; ring
    · change ((if total m ≠ 0 then m 2 / total m else 0) : ℝ) = (1 * m 2) / total m + 0
      rw [if_pos hm]; ring
    · change ((if total m ≠ 0 then m 3 / total m else 0) : ℝ) = (1 * m 3) / total m + 0
      rw [if_pos hm]; ring
  · intro m hm i j
    have e : Nepheline.conv.dm m i j = Nepheline.dm m j i := rfl
    rw [e, Nepheline.dm, if_neg hm, q1, Nepheline.lin_rows]
    fin_cases i
    · change ((if j = 1 then (1 - m 1 / total m) / total m else (-m 1) / total m ^ 2) : ℝ) = (1 * ind (j = 1)) / total m - (1 * m 1) / total m ^ 2
      simp only [ite_ind]; ring
    · change ((if j = 2 then (1 - m 2 / total m) / total m else (-m 2) / total m ^ 2) : ℝ) = (1 * ind (j = 2)) / total m - (1 * m 2) / total m ^ 2
      simp only [ite_ind]; ring
    · change ((if j = 3 then (1 - m 3 / total m) / total m else (-m 3) / total m ^ 2) : ℝ) = (1 * ind (j = 3)) / total m - (1 * m 3) / total m ^ 2
      simp only [ite_ind]; ring
  · intro m hm i j k
    have e : Nepheline.conv.d2m m i j k = Nepheline.d2m m j k i := rfl
    rw [e, Nepheline.d2m, if_neg hm, q2, Nepheline.lin_rows]
    fin_cases i
    · change (2 * m 1 / total m ^ 3 - (if j = 1 then 1 / total m ^ 2 else 0) - (if k = 1 then 1 / total m ^ 2 else 0) : ℝ) = 2 * (1 * m 1) / total m ^ 3 - (1 * ind (j = 1)) / total m ^ 2 - (1 * ind (k = 1)) / total m ^ 2
      simp only [ite_ind]; ring
    · change (2 * m 2 / total m ^ 3 - (if j = 2 then 1 / total m ^ 2 else 0) - (if k = 2 then 1 / total m ^ 2 else 0) : ℝ) = 2 * (1 * m 2) / total m ^ 3 - (1 * ind (j = 2)) / total m ^ 2 - (1 * ind (k = 2)) / total m ^ 2
      simp only [ite_ind]; ring
    · change (2 * m 3 / total m ^ 3 - (if j = 3 then 1 / total m ^ 2 else 0) - (if k = 3 then 1 / total m ^ 2 else 0) : ℝ) = 2 * (1 * m 3) / total m ^ 3 - (1 * ind (j = 3)) / total m ^ 2 - (1 * ind (k = 3)) / total m ^ 2
      simp only [ite_ind]; ring
  · intro m hm i j k l
    have e : Nepheline.conv.d3m m i j k l = Nepheline.d3m m j k l i := rfl
    rw [e, Nepheline.d3m, if_neg hm, q3, Nepheline.lin_rows]
    fin_cases i
    · change ((-6) * m 1 / total m ^ 4 + (if j = 1 then 2 / total m ^ 3 else 0) + (if k = 1 then 2 / total m ^ 3 else 0) + (if l = 1 then 2 / total m ^ 3 else 0) : ℝ) = -6 * (1 * m 1) / total m ^ 4 + 2 * (1 * ind (j = 1)) / total m ^ 3 + 2 * (1 * ind (k = 1)) / total m ^ 3 + 2 * (1 * ind (l = 1)) / total m ^ 3
      simp only [ite_ind]; ring
    · change ((-6) * m 2 / total m ^ 4 + (if j = 2 then 2 / total m ^ 3 else 0) + (if k = 2 then 2 / total m ^ 3 else 0) + (if l = 2 then 2 / total m ^ 3 else 0) : ℝ) = -6 * (1 * m 2) / total m ^ 4 + 2 * (1 * ind (j = 2)) / total m ^ 3 + 2 * (1 * ind (k = 2)) / total m ^ 3 + 2 * (1 * ind (l = 2)) / total m ^ 3
      simp only [ite_ind]; ring
    · change ((-6) * m 3 / total m ^ 4 + (if j = 3 then 2 / total m ^ 3 else 0) + (if k = 3 then 2 / total m ^ 3 else 0) + (if l = 3 then 2 / total m ^ 3 else 0) : ℝ) = -6 * (1 * m 3) / total m ^ 4 + 2 * (1 * ind (j = 3)) / total m ^ 3 + 2 * (1 * ind (k = 3)) / total m ^ 3 + 2 * (1 * ind (l = 3)) / total m ^ 3
      simp only [ite_ind]; ring
  · intro m hm i
    have ht : total m = m 0 + m 1 + m 2 + m 3 := fin_sum_4 m
    have e : Nepheline.conv.fromR (Nepheline.conv.toR m) i = Nepheline.fromR ![m 1 / total m, m 2 / total m, m 3 / total m] i := by
      change Nepheline.fromR (Nepheline.toR m) i = _
      simp only [Nepheline.toR, if_pos hm]
    rw [e]
    fin_cases i
    · change (1 - (m 1 / total m) - (m 2 / total m) - (m 3 / total m) : ℝ) = m 0 / total m
      field_simp
      rw [ht]; ring
    · change ((m 1 / total m) : ℝ) = m 1 / total m
      field_simp
      try ring
    · change ((m 2 / total m) : ℝ) = m 2 / total m
      field_simp
      try ring
    · change ((m 3 / total m) : ℝ) = m 3 / total m
      field_simp
      try ring
  · intro r
    change ∑ i, Nepheline.fromR r i = 1
    rw [fin_sum_4]
    change ((1 - r 0 - r 1 - r 2) + (r 0) + (r 1) + (r 2) : ℝ) = 1
    ring
  · intro r _
    have ht : total (Nepheline.fromR r) = 1 := by
      change ∑ i, Nepheline.fromR r i = 1
      rw [fin_sum_4]
      change ((1 - r 0 - r 1 - r 2) + (r 0) + (r 1) + (r 2) : ℝ) = 1
      ring
    have h1 : (1 : ℝ) ≠ 0 := one_ne_zero
    funext i
    change Nepheline.toR (Nepheline.fromR r) i = r i
    simp only [Nepheline.toR, ht, if_pos h1]
    fin_cases i
    · change ((r 0) / 1 : ℝ) = r 0
      ring
    · change ((r 1) / 1 : ℝ) = r 1
      ring
    · change ((r 2) / 1 : ℝ) = r 2
      ring
  · intro r i
    change Nepheline.fromR r i = Nepheline.fromR (fun _ => 0) i + ∑ j, Nepheline.dr i j * r j
    rw [fin_sum_3]
    fin_cases i
    · change (1 - r 0 - r 1 - r 2 : ℝ) = (1 - 0 - 0 - 0) + ((-1) * r 0 + (-1) * r 1 + (-1) * r 2)
      ring
    · change (r 0 : ℝ) = (0) + ((1) * r 0 + (0) * r 1 + (0) * r 2)
      ring
    · change (r 1 : ℝ) = (0) + ((0) * r 0 + (1) * r 1 + (0) * r 2)
      ring
    · change (r 2 : ℝ) = (0) + ((0) * r 0 + (0) * r 1 + (1) * r 2)
      ring

/-! ### Kalsilite -/

/-- kalsilite.c 476-483. -/
def Kalsilite.toR (m : Fin 4 → ℝ) : Fin 3 → ℝ :=
  ![(if total m ≠ 0 then m 1 / total m else 0),
    (if total m ≠ 0 then m 2 / total m else 0),
    (if total m ≠ 0 then m 3 / total m else 0)]

/-- kalsilite.c 491-504. -/
def Kalsilite.dm (m : Fin 4 → ℝ) (j : Fin 4) : Fin 3 → ℝ :=
  if total m = 0 then fun _ => 0 else
  ![(if j = 1 then (1 - m 1 / total m) / total m else (-m 1) / total m ^ 2),
    (if j = 2 then (1 - m 2 / total m) / total m else (-m 2) / total m ^ 2),
    (if j = 3 then (1 - m 3 / total m) / total m else (-m 3) / total m ^ 2)]

/-- kalsilite.c 506-531. -/
def Kalsilite.d2m (m : Fin 4 → ℝ) (j k : Fin 4) : Fin 3 → ℝ :=
  if total m = 0 then fun _ => 0 else
  ![2 * m 1 / total m ^ 3 - (if j = 1 then 1 / total m ^ 2 else 0) - (if k = 1 then 1 / total m ^ 2 else 0),
    2 * m 2 / total m ^ 3 - (if j = 2 then 1 / total m ^ 2 else 0) - (if k = 2 then 1 / total m ^ 2 else 0),
    2 * m 3 / total m ^ 3 - (if j = 3 then 1 / total m ^ 2 else 0) - (if k = 3 then 1 / total m ^ 2 else 0)]

/-- kalsilite.c 533-565. -/
def Kalsilite.d3m (m : Fin 4 → ℝ) (j k l : Fin 4) : Fin 3 → ℝ :=
  if total m = 0 then fun _ => 0 else
  ![(-6) * m 1 / total m ^ 4 + (if j = 1 then 2 / total m ^ 3 else 0) + (if k = 1 then 2 / total m ^ 3 else 0) + (if l = 1 then 2 / total m ^ 3 else 0),
    (-6) * m 2 / total m ^ 4 + (if j = 2 then 2 / total m ^ 3 else 0) + (if k = 2 then 2 / total m ^ 3 else 0) + (if l = 2 then 2 / total m ^ 3 else 0),
    (-6) * m 3 / total m ^ 4 + (if j = 3 then 2 / total m ^ 3 else 0) + (if k = 3 then 2 / total m ^ 3 else 0) + (if l = 3 then 2 / total m ^ 3 else 0)]

/-- kalsilite.c 573-580. -/
def Kalsilite.fromR (r : Fin 3 → ℝ) : Fin 4 → ℝ :=
  ![1 - r 0 - r 1 - r 2,
    r 0,
    r 1,
    r 2]

/-- kalsilite.c 582-589. -/
def Kalsilite.dr : Fin 4 → Fin 3 → ℝ :=
  ![![-1, -1, -1],
    ![1, 0, 0],
    ![0, 1, 0],
    ![0, 0, 1]]

/-- The conversions of kalsilite.c. -/
def Kalsilite.conv : Conversion 4 3 where
  toR := Kalsilite.toR
  dm m i j := Kalsilite.dm m j i
  d2m m i j k := Kalsilite.d2m m j k i
  d3m m i j k l := Kalsilite.d3m m j k l i
  fromR := Kalsilite.fromR
  dr := Kalsilite.dr

/-- Coefficients of the independent variables (used in the proof only). -/
def Kalsilite.rows : Fin 3 → Fin 4 → ℝ :=
  ![fun j => 1 * ind (j = 1),
    fun j => 1 * ind (j = 2),
    fun j => 1 * ind (j = 3)]

theorem Kalsilite.lin_rows (m : Fin 4 → ℝ) : ∀ i, lin (Kalsilite.rows i) m = (![1 * m 1, 1 * m 2, 1 * m 3] : Fin 3 → ℝ) i := by
  intro i
  fin_cases i
  · exact lin_ind1 m 1 1
  · exact lin_ind1 m 1 2
  · exact lin_ind1 m 1 3

/-- **C25.** The composition conversions of `kalsilite.c` are consistent: moles → independent variables → mole
fractions and back agree, fractions sum to one, only proportions matter, and the Jacobian, the second and the
third derivatives returned are the derivatives of the conversions. -/
theorem C25_kalsilite : Kalsilite.conv.Consistent := by
  refine Conversion.consistent_of_linear _ Kalsilite.rows ![0, 0, 0] ?_ ?_ ?_ ?_ ?_ ?_ ?_ ?_
  · intro m hm i
    have e : Kalsilite.conv.toR m i = Kalsilite.toR m i := rfl
    rw [e, Kalsilite.toR, q0, Kalsilite.lin_rows]
    fin_cases i
    · change ((if total m ≠ 0 then m 1 / total m else 0) : ℝ) = (1 * m 1) / total m + 0
      rw [if_pos hm]; ring
    · change ((if total m ≠ 0 then m 2 / total m else 0) : ℝ) = (1 * m 2) / total m + 0
      rw [if_pos hm]; ring
    · change ((if total m ≠ 0 then m 3 / total m else 0) : ℝ) = (1 * m 3) / total m + 0
      rw [if_pos hm]; ring
  · intro m hm i j
    have e : Kalsilite.conv.dm m i j = Kalsilite.dm m j i := rfl
    rw [e, Kalsilite.dm, if_neg hm, q1, Kalsilite.lin_rows]
    fin_cases i
    · change ((if j = 1 then (1 - m 1 / total m) / total m else (-m 1) / total m ^ 2) : ℝ) = (1 * ind (j = 1)) / total m - (1 * m 1) / total m ^ 2
      simp only [ite_ind]; ring
    · change ((if j = 2 then (1 - m 2 / total m) / total m else (-m 2) / total m ^ 2) : ℝ) = (1 * ind (j = 2)) / total m - (1 * m 2) / total m ^ 2
      simp only [ite_ind]; ring
    · change ((if j = 3 then (1 - m 3 / total m) / total m else (-m 3) / total m ^ 2) : ℝ) = (1 * ind (j = 3)) / total m - (1 * m 3) / total m ^ 2
      simp only [ite_ind]; ring
  · intro m hm i j k
    have e : Kalsilite.conv.d2m m i j k = Kalsilite.d2m m j k i := rfl
    rw [e, Kalsilite.d2m, if_neg hm, q2, Kalsilite.lin_rows]
    fin_cases i
    · change (2 * m 1 / total m ^ 3 - (if j = 1 then 1 / total m ^ 2 else 0) - (if k = 1 then 1 / total m ^ 2 else 0) : ℝ) = 2 * (1 * m 1) / total m ^ 3 - (1 * ind (j = 1)) / total m ^ 2 - (1 * ind (k = 1)) / total m ^ 2
      simp only [ite_ind]; ring
    · change (2 * m 2 / total m ^ 3 - (if j = 2 then 1 / total m ^ 2 else 0) - (if k = 2 then 1 / total m ^ 2 else 0) : ℝ) = 2 * (1 * m 2) / total m ^ 3 - (1 * ind (j = 2)) / total m ^ 2 - (1 * ind (k = 2)) / total m ^ 2
      simp only [ite_ind]; ring
    · change (2 * m 3 / total m ^ 3 - (if j = 3 then 1 / total m ^ 2 else 0) - (if k = 3 then 1 / total m ^ 2 else 0) : ℝ) = 2 * (1 * m 3) / total m ^ 3 - (1 * ind (j = 3)) / total m ^ 2 - (1 * ind (k = 3)) / total m ^ 2
      simp only [ite_ind]; ring
  · intro m hm i j k l
    have e : Kalsilite.conv.d3m m i j k l = Kalsilite.d3m m j k l i := rfl
    rw [e, Kalsilite.d3m, if_neg hm, q3, Kalsilite.lin_rows]
    fin_cases i
    · change ((-6) * m 1 / total m ^ 4 + (if j = 1 then 2 / total m ^ 3 else 0) + (if k = 1 then 2 / total m ^ 3 else 0) + (if l = 1 then 2 / total m ^ 3 else 0) : ℝ) = -6 * (1 * m 1) / total m ^ 4 + 2 * (1 * ind (j = 1)) / total m ^ 3 + 2 * (1 * ind (k = 1)) / total m ^ 3 + 2 * (1 * ind (l = 1)) / total m ^ 3
      simp only [ite_ind]; ring
    · change ((-6) * m 2 / total m ^ 4 + (if j = 2 then 2 / total m ^ 3 else 0) + (if k = 2 then 2 / total m ^ 3 else 0) + (if l = 2 then 2 / total m ^ 3 else 0) : ℝ) = -6 * (1 * m 2) / total m ^ 4 + 2 * (1 * ind (j = 2)) / total m ^ 3 + 2 * (1 * ind (k = 2)) / total m ^ 3 + 2 * (1 * ind (l = 2)) / total m ^ 3
      simp only [ite_ind]; ring
    · change ((-6) * m 3 / total m ^ 4 + (if j = 3 then 2 / total m ^ 3 else 0) + (if k = 3 then 2 / total m ^ 3 else 0) + (if l = 3 then 2 / total m ^ 3 else 0) : ℝ) = -6 * (1 * m 3) / total m ^ 4 + 2 * (1 * ind (j = 3)) / total m ^ 3 + 2 * (1 * ind (k = 3)) / total m ^ 3 + 2 * (1 * ind (l = 3)) / total m ^ 3
      simp only [ite_ind]; ring
  · intro m hm i
    have ht : total m = m 0 + m 1 + m 2 + m 3 := fin_sum_4 m
    have e : Kalsilite.conv.fromR (Kalsilite.conv.toR m) i = Kalsilite.fromR ![m 1 / total m, m 2 / total m, m 3 / total m] i := by
      change Kalsilite.fromR (Kalsilite.toR m) i = _
      simp only [Kalsilite.toR, if_pos hm]
    rw [e]
    fin_cases i
    · change (1 - (m 1 / total m) - (m 2 / total m) - (m 3 / total m) : ℝ) = m 0 / total m
      field_simp
      rw [ht]; ring
    · change ((m 1 / total m) : ℝ) = m 1 / total m
      field_simp
      try ring
    · change ((m 2 / total m) : ℝ) = m 2 / total m
      field_simp
      try ring
    · change ((m 3 / total m) : ℝ) = m 3 / total m
      field_simp
      try ring
  · intro r
    change ∑ i, Kalsilite.fromR r i = 1
    rw [fin_sum_4]
    change ((1 - r 0 - r 1 - r 2) + (r 0) + (r 1) + (r 2) : ℝ) = 1
    ring
  · intro r _
    have ht : total (Kalsilite.fromR r) = 1 := by
      change ∑ i, Kalsilite.fromR r i = 1
      rw [fin_sum_4]
      change ((1 - r 0 - r 1 - r 2) + (r 0) + (r 1) + (r 2) : ℝ) = 1
      ring
    have h1 : (1 : ℝ) ≠ 0 := one_ne_zero
    funext i
    change Kalsilite.toR (Kalsilite.fromR r) i = r i
    simp only [Kalsilite.toR, ht, if_pos h1]
    fin_cases i
    · change ((r 0) / 1 : ℝ) = r 0
      ring
    · change ((r 1) / 1 : ℝ) = r 1
      ring
    · change ((r 2) / 1 : ℝ) = r 2
      ring
  · intro r i
    change Kalsilite.fromR r i = Kalsilite.fromR (fun _ => 0) i + ∑ j, Kalsilite.dr i j * r j
    rw [fin_sum_3]
    fin_cases i
    · change (1 - r 0 - r 1 - r 2 : ℝ) = (1 - 0 - 0 - 0) + ((-1) * r 0 + (-1) * r 1 + (-1) * r 2)
      ring
    · change (r 0 : ℝ) = (0) + ((1) * r 0 + (0) * r 1 + (0) * r 2)
      ring
    · change (r 1 : ℝ) = (0) + ((0) * r 0 + (1) * r 1 + (0) * r 2)
      ring
    · change (r 2 : ℝ) = (0) + ((0) * r 0 + (0) * r 1 + (1) * r 2)
      ring

/-! ### Majorite -/

/-- majorite.c 470-476. -/
def Majorite.toR (m : Fin 4 → ℝ) : Fin 3 → ℝ :=
  if total m ≠ 0 then ![m 1 / total m,
    m 2 / total m,
    m 3 / total m] else fun _ => 0

/-- majorite.c 484-495. -/
def Majorite.dm (m : Fin 4 → ℝ) (j : Fin 4) : Fin 3 → ℝ :=
  if total m = 0 then fun _ => 0 else
  ![(if j = 1 then (1 - m 1 / total m) / total m else (-m 1) / total m ^ 2),
    (if j = 2 then (1 - m 2 / total m) / total m else (-m 2) / total m ^ 2),
    (if j = 3 then (1 - m 3 / total m) / total m else (-m 3) / total m ^ 2)]

/-- majorite.c 497-526. -/
def Majorite.d2m (m : Fin 4 → ℝ) (j k : Fin 4) : Fin 3 → ℝ :=
  if total m = 0 then fun _ => 0 else
  ![2 * m 1 / total m ^ 3 - (if j = 1 then 1 / total m ^ 2 else 0) - (if k = 1 then 1 / total m ^ 2 else 0),
    2 * m 2 / total m ^ 3 - (if j = 2 then 1 / total m ^ 2 else 0) - (if k = 2 then 1 / total m ^ 2 else 0),
    2 * m 3 / total m ^ 3 - (if j = 3 then 1 / total m ^ 2 else 0) - (if k = 3 then 1 / total m ^ 2 else 0)]

/-- majorite.c 528-566. -/
def Majorite.d3m (m : Fin 4 → ℝ) (j k l : Fin 4) : Fin 3 → ℝ :=
  if total m = 0 then fun _ => 0 else
  ![(-6) * m 1 / total m ^ 4 + (if j = 1 then 2 / total m ^ 3 else 0) + (if k = 1 then 2 / total m ^ 3 else 0) + (if l = 1 then 2 / total m ^ 3 else 0),
    (-6) * m 2 / total m ^ 4 + (if j = 2 then 2 / total m ^ 3 else 0) + (if k = 2 then 2 / total m ^ 3 else 0) + (if l = 2 then 2 / total m ^ 3 else 0),
    (-6) * m 3 / total m ^ 4 + (if j = 3 then 2 / total m ^ 3 else 0) + (if k = 3 then 2 / total m ^ 3 else 0) + (if l = 3 then 2 / total m ^ 3 else 0)]

/-- majorite.c 573-581. -/
def Majorite.fromR (r : Fin 3 → ℝ) : Fin 4 → ℝ :=
  ![1 - r 0 - r 1 - r 2,
    r 0,
    r 1,
    r 2]

/-- majorite.c 583-589. -/
def Majorite.dr : Fin 4 → Fin 3 → ℝ :=
  ![![-1, -1, -1],
    ![1, 0, 0],
    ![0, 1, 0],
    ![0, 0, 1]]

/-- The conversions of majorite.c. -/
def Majorite.conv : Conversion 4 3 where
  toR := Majorite.toR
  dm m i j := Majorite.dm m j i
  d2m m i j k := Majorite.d2m m j k i
  d3m m i j k l := Majorite.d3m m j k l i
  fromR := Majorite.fromR
  dr := Majorite.dr

/-- Coefficients of the independent variables (used in the proof only). -/
def Majorite.rows : Fin 3 → Fin 4 → ℝ :=
  ![fun j => 1 * ind (j = 1),
    fun j => 1 * ind (j = 2),
    fun j => 1 * ind (j = 3)]

theorem Majorite.lin_rows (m : Fin 4 → ℝ) : ∀ i, lin (Majorite.rows i) m = (![1 * m 1, 1 * m 2, 1 * m 3] : Fin 3 → ℝ) i := by
  intro i
  fin_cases i
  · exact lin_ind1 m 1 1
  · exact lin_ind1 m 1 2
  · exact lin_ind1 m 1 3

/-- **C25.** The composition conversions of `majorite.c` are consistent: moles → independent variables → mole
fractions and back agree, fractions sum to one, only proportions matter, and the Jacobian, the second and the
third derivatives returned are the derivatives of the conversions. -/
theorem C25_majorite : Majorite.conv.Consistent := by
  refine Conversion.consistent_of_linear _ Majorite.rows ![0, 0, 0] ?_ ?_ ?_ ?_ ?_ ?_ ?_ ?_
  · intro m hm i
    have e : Majorite.conv.toR m i = Majorite.toR m i := rfl
    rw [e, Majorite.toR, q0, Majorite.lin_rows, if_pos hm]
    fin_cases i
    · change (m 1 / total m : ℝ) = (1 * m 1) / total m + 0
      ring
    · change (m 2 / total m : ℝ) = (1 * m 2) / total m + 0
      ring
    · change (m 3 / total m : ℝ) = (1 * m 3) / total m + 0
      ring
  · intro m hm i j
    have e : Majorite.conv.dm m i j = Majorite.dm m j i := rfl
    rw [e, Majorite.dm, if_neg hm, q1, Majorite.lin_rows]
    fin_cases i
    · change ((if j = 1 then (1 - m 1 / total m) / total m else (-m 1) / total m ^ 2) : ℝ) = (1 * ind (j = 1)) / total m - (1 * m 1) / total m ^ 2
      simp only [ite_ind]; ring
    · change ((if j = 2 then (1 - m 2 / total m) / total m else (-m 2) / total m ^ 2) : ℝ) = (1 * ind (j = 2)) / total m - (1 * m 2) / total m ^ 2
      simp only [ite_ind]; ring
    · change ((if j = 3 then (1 - m 3 / total m) / total m else (-m 3) / total m ^ 2) : ℝ) = (1 * ind (j = 3)) / total m - (1 * m 3) / total m ^ 2
      simp only [ite_ind]; ring
  · intro m hm i j k
    have e : Majorite.conv.d2m m i j k = Majorite.d2m m j k i := rfl
    rw [e, Majorite.d2m, if_neg hm, q2, Majorite.lin_rows]
    fin_cases i
    · change (2 * m 1 / total m ^ 3 - (if j = 1 then 1 / total m ^ 2 else 0) - (if k = 1 then 1 / total m ^ 2 else 0) : ℝ) = 2 * (1 * m 1) / total m ^ 3 - (1 * ind (j = 1)) / total m ^ 2 - (1 * ind (k = 1)) / total m ^ 2
      simp only [ite_ind]; ring
    · change (2 * m 2 / total m ^ 3 - (if j = 2 then 1 / total m ^ 2 else 0) - (if k = 2 then 1 / total m ^ 2 else 0) : ℝ) = 2 * (1 * m 2) / total m ^ 3 - (1 * ind (j = 2)) / total m ^ 2 - (1 * ind (k = 2)) / total m ^ 2
      simp only [ite_ind]; ring
    · change (2 * m 3 / total m ^ 3 - (if j = 3 then 1 / total m ^ 2 else 0) - (if k = 3 then 1 / total m ^ 2 else 0) : ℝ) = 2 * (1 * m 3) / total m ^ 3 - (1 * ind (j = 3)) / total m ^ 2 - (1 * ind (k = 3)) / total m ^ 2
      simp only [ite_ind]; ring
  · intro m hm i j k l
    have e : Majorite.conv.d3m m i j k l = Majorite.d3m m j k l i := rfl
    rw [e, Majorite.d3m, if_neg hm, q3, Majorite.lin_rows]
    fin_cases i
    · change ((-6) * m 1 / total m ^ 4 + (if j = 1 then 2 / total m ^ 3 else 0) + (if k = 1 then 2 / total m ^ 3 else 0) + (if l = 1 then 2 / total m ^ 3 else 0) : ℝ) = -6 * (1 * m 1) / total m ^ 4 + 2 * (1 * ind (j = 1)) / total m ^ 3 + 2 * (1 * ind (k = 1)) / total m ^ 3 + 2 * (1 * ind (l = 1)) / total m ^ 3
      simp only [ite_ind]; ring
    · change ((-6) * m 2 / total m ^ 4 + (if j = 2 then 2 / total m ^ 3 else 0) + (if k = 2 then 2 / total m ^ 3 else 0) + (if l = 2 then 2 / total m ^ 3 else 0) : ℝ) = -6 * (1 * m 2) / total m ^ 4 + 2 * (1 * ind (j = 2)) / total m ^ 3 + 2 * (1 * ind (k = 2)) / total m ^ 3 + 2 * (1 * ind (l = 2)) / total m ^ 3
      simp only [ite_ind]; ring
    · change ((-6) * m 3 / total m ^ 4 + (if j = 3 then 2 / total m ^ 3 else 0) + (if k = 3 then 2 / total m ^ 3 else 0) + (if l = 3 then 2 / total m ^ 3 else 0) : ℝ) = -6 * (1 * m 3) / total m ^ 4 + 2 * (1 * ind (j = 3)) / total m ^ 3 + 2 * (1 * ind (k = 3)) / total m ^ 3 + 2 * (1 * ind (l = 3)) / total m ^ 3
      simp only [ite_ind]; ring
  · intro m hm i
    have ht : total m = m 0 + m 1 + m 2 + m 3 := fin_sum_4 m
    have e : Majorite.conv.fromR (Majorite.conv.toR m) i = Majorite.fromR ![m 1 / total m, m 2 / total m, m 3 / total m] i := by
      change Majorite.fromR (Majorite.toR m) i = _
      simp only [Majorite.toR, if_pos hm]
    rw [e]
    fin_cases i
    · change (1 - (m 1 / total m) - (m 2 / total m) - (m 3 / total m) : ℝ) = m 0 / total m
      field_simp
      rw [ht]; ring
    · change ((m 1 / total m) : ℝ) = m 1 / total m
      field_simp
      try ring
    · change ((m 2 / total m) : ℝ) = m 2 / total m
      field_simp
      try ring
    · change ((m 3 / total m) : ℝ) = m 3 / total m
      field_simp
      try ring
  · intro r
    change ∑ i, Majorite.fromR r i = 1
    rw [fin_sum_4]
    change ((1 - r 0 - r 1 - r 2) + (r 0) + (r 1) + (r 2) : ℝ) = 1
    ring
  · intro r _
    have ht : total (Majorite.fromR r) = 1 := by
      change ∑ i, Majorite.fromR r i = 1
      rw [fin_sum_4]
      change ((1 - r 0 - r 1 - r 2) + (r 0) + (r 1) + (r 2) : ℝ) = 1
      ring
    have h1 : (1 : ℝ) ≠ 0 := one_ne_zero
    funext i
    change Majorite.toR (Majorite.fromR r) i = r i
    simp only [Majorite.toR, ht, if_pos h1]
    fin_cases i
    · change ((r 0) / 1 : ℝ) = r 0
      ring
    · change ((r 1) / 1 : ℝ) = r 1
      ring
    · change ((r 2) / 1 : ℝ) = r 2
      ring
  · intro r i
    change Majorite.fromR r i = Majorite.fromR (fun _ => 0) i + ∑ j, Majorite.dr i j * r j
    rw [fin_sum_3]
    fin_cases i
    · change (1 - r 0 - r 1 - r 2 : ℝ) = (1 - 0 - 0 - 0) + ((-1) * r 0 + (-1) * r 1 + (-1) * r 2)
      ring
    · change (r 0 : ℝ) = (0) + ((1) * r 0 + (0) * r 1 + (0) * r 2)
      ring
    · change (r 1 : ℝ) = (0) + ((0) * r 0 + (1) * r 1 + (0) * r 2)
      ring
    · change (r 2 : ℝ) = (0) + ((0) * r 0 + (0) * r 1 + (1) * r 2)
      ring

/-! ### The phases of `Compo` in the same terms -/

/-- The conversions of the phases of `Compo` (dependent end member `dep`). -/
def simpleConv {nr : ℕ} (dep : Fin (nr + 1)) : Conversion (nr + 1) nr where
  toR := toR dep
  dm := dm dep
  d2m := d2m dep
  d3m := d3m dep
  fromR := fromR dep
  dr := dr dep

/-- **C25.** The same consistency for the phases whose variables are all mole fractions but one (leucite,
feldspar, garnet, biotite, the liquid, melilite, alloys, ...). -/
theorem C25_simple {nr : ℕ} (dep : Fin (nr + 1)) : (simpleConv dep).Consistent where
  roundtrip m hm i := by
    have h := C25_roundtrip dep m hm
    exact (congrFun h.1 i).trans (h.2 i)
  inverse := C25_inverse dep
  sum_one r := (C25_sum_one dep (fun _ => 1) (by simp; positivity) r).2
  scale m _ c hc := (C25_scale dep m c hc).1
  first m hm i j := (C25_derivatives dep m hm i j j j).1
  second m hm i j k := (C25_derivatives dep m hm i j k k).2.1
  third m hm i j k l := (C25_derivatives dep m hm i j k l).2.2
  jacobian := C25_dr dep

/-! ### Consequences for the engine's gradients and Hessians -/

/-- **C23.** With any consistent conversion, the gradient and Hessian the engine assembles are the first and
second derivatives of total moles times the molar property, for every twice differentiable molar property. -/
theorem C23_any_phase {na nr : ℕ} (C : Conversion na nr) (hC : C.Consistent) (P : (Fin nr → ℝ) → ℝ)
    (dP : (Fin nr → ℝ) → Fin nr → ℝ) (d2P : Fin nr → Fin nr → ℝ) (m : Fin na → ℝ) (h0 : ∑ i, m i ≠ 0)
    (h1 : Grad P (C.toR m) (dP (C.toR m))) (h2 : ∀ i, Grad (fun r => dP r i) (C.toR m) (d2P i)) (j l : Fin na) :
    Partial (extensive P C.toR) m j (gradient (P (C.toR m)) (dP (C.toR m)) (∑ i, m i) (C.dm m) j) ∧
    Partial (fun m => gradient (P (C.toR m)) (dP (C.toR m)) (∑ i, m i) (C.dm m) j) m l
      (hessian (dP (C.toR m)) d2P (∑ i, m i) (C.dm m) (C.d2m m) j l) :=
  ⟨C23_gradient P C.toR m (dP (C.toR m)) (C.dm m) h1 (hC.first m h0) j,
   C23_hessian P C.toR m dP C.dm d2P (C.d2m m) h1 (hC.first m h0) h2 (hC.second m h0) j l⟩

/-! ### Olivine: rounding of tiny fractions -/

/-- olivine.c 2695. -/
def Olivine.snap (ε : ℝ) (x : Fin 6 → ℝ) (i : Fin 6) : ℝ := if |x i| < ε then 0 else x i

/-- **C25.** The olivine mole fractions returned differ from the exact ones by less than `DBL_EPSILON`, and a
fraction not below `DBL_EPSILON` is exact. -/
theorem C25_olivine_snap (ε : ℝ) (hε : 0 < ε) (m : Fin 6 → ℝ) (h0 : ∑ i, m i ≠ 0) (i : Fin 6) :
    |Olivine.snap ε (Olivine.fromR (Olivine.toR m)) i - m i / ∑ i, m i| < ε ∧
    (ε ≤ |m i / ∑ i, m i| → Olivine.snap ε (Olivine.fromR (Olivine.toR m)) i = m i / ∑ i, m i) := by
  have e : Olivine.fromR (Olivine.toR m) i = m i / ∑ i, m i := C25_olivine.roundtrip m h0 i
  simp only [Olivine.snap, e]
  constructor
  · split_ifs with h
    · rwa [zero_sub, abs_neg]
    · rwa [sub_self, abs_zero]
  · intro h
    rw [if_neg (not_lt.mpr h)]

/-- A concrete pyroxene: 0.5 mol diopside, 0.25 mol of the second and of the seventh end member. -/
example : ∃ m : Fin 7 → ℝ, ∑ i, m i ≠ 0 ∧ Cpx.toR m 1 = 1 / 8 ∧ Cpx.toR m 2 = -1 / 8 ∧ Cpx.toR m 5 = 1 / 4 := by
  have ht : total (![1/2, 1/4, 0, 0, 0, 0, 1/4] : Fin 7 → ℝ) = 1 := by
    rw [total, fin_sum_7]
    change (1 : ℝ) / 2 + 1 / 4 + 0 + 0 + 0 + 0 + 1 / 4 = 1
    norm_num
  have h1 : (1 : ℝ) ≠ 0 := one_ne_zero
  refine ⟨![1/2, 1/4, 0, 0, 0, 0, 1/4], ?_, ?_, ?_, ?_⟩
  · change total _ ≠ 0
    rw [ht]; exact h1
  · simp only [Cpx.toR, ht, if_pos h1]
    change ((0 : ℝ) + 1 / 4 / 2) / 1 = 1 / 8
    norm_num
  · simp only [Cpx.toR, ht, if_pos h1]
    change ((0 : ℝ) - 1 / 4 / 2) / 1 = -1 / 8
    norm_num
  · simp only [Cpx.toR, ht, if_pos h1]
    change ((1 : ℝ) / 4) / 1 = 1 / 4
    norm_num

end

end Magma.Thermo.Compo
